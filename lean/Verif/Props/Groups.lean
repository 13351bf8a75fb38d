import Verif.Proofs.GroupsKept

/-!
# Register groups

`rowGroups r w` (`Verif/Proofs/GroupsRow.lean`) lists the vector register groups that the operand getters build for the word
`w`, as pairs of a first register and a count; `dstGroups r w` is the destination group alone.
-/

namespace Verif.Props
open Verif Verif.Model Verif.Proofs

/-- C87: a vector instruction depends on the vector registers of its operand groups only. From two states that differ in
vector registers outside a set `V` containing the groups, it ends in the same way (normally or with undefined behaviour),
with the same trap, scalar registers, memory and accumulators, and with vector registers that still agree on `V`. -/
theorem C87_independent (V : Nat → Prop) (maxPhys : Nat) (fresh : Nat → VReg) (r : Row) (hr : r ∈ allRows) (w : BitVec 32)
    (hV : ∀ q, Spec.InGroups (rowGroups r w) q → V q) (s s' : Arch) (hx : s.x = s'.x) (hm : s.mem = s'.mem)
    (ha : s.acc = s'.acc) (hd : s.dw = s'.dw) (hv : Spec.SameOn V s.v s'.v) (a : Outcome (Bool × Arch))
    (h : execRow maxPhys fresh r w s = some a) :
    ∃ a', execRow maxPhys fresh r w s' = some a' ∧ Spec.Alike (fun p p' : Bool × Arch => p.1 = p'.1 ∧ p.2.x = p'.2.x ∧
      p.2.mem = p'.2.mem ∧ p.2.acc = p'.2.acc ∧ p.2.dw = p'.2.dw ∧ Spec.SameOn V p.2.v p'.2.v) a a' :=
  execRow_alike maxPhys fresh r hr w hV s s' ⟨hx, hm, ha, hd, hv⟩ a h

/-- C87: a vector instruction changes no vector register outside its destination group. -/
theorem C87_confined (maxPhys : Nat) (fresh : Nat → VReg) (r : Row) (hr : r ∈ allRows) (w : BitVec 32) (s s' : Arch) (t : Bool)
    (h : execRow maxPhys fresh r w s = some (.ok (t, s'))) (q : Nat) (hq : ¬ Spec.InGroups (dstGroups r w) q) :
    s'.v q = s.v q :=
  execRow_kept maxPhys fresh r hr w s _ h _ rfl q hq

/-- C87: every group starts at the register number in one of the fields `vd`, `vs1`, `vs2`, `vs3` of the word and has at
most 32 registers; so no register from v95 on is ever used. -/
theorem C87_size (r : Row) (w : BitVec 32) (g : Nat × Nat) (hg : g ∈ rowGroups r w) :
    (g.1 = Spec.bitsAt w 6 6 ∨ g.1 = Spec.bitsAt w 14 6 ∨ g.1 = Spec.bitsAt w 20 6 ∨ g.1 = Spec.bitsAt w 26 6) ∧
      g.1 < 64 ∧ 1 ≤ g.2 ∧ g.2 ≤ 32 := by
  obtain ⟨hb, h1, h2⟩ := rowGroups_size hg
  refine ⟨hb, ?_, h1, h2⟩
  rcases hb with e | e | e | e <;> rw [e] <;> exact Nat.mod_lt _ (by decide)

/-- C87, for the words whose groups end below 64: the architectural registers v0 to v63 determine the result. Missing:
the words of `C87_hidden`, whose groups run past v63. -/
theorem C87_architectural_partial (maxPhys : Nat) (fresh : Nat → VReg) (r : Row) (hr : r ∈ allRows) (w : BitVec 32)
    (hfit : ∀ g ∈ rowGroups r w, g.1 + g.2 ≤ 64) (s s' : Arch) (hx : s.x = s'.x) (hm : s.mem = s'.mem)
    (ha : s.acc = s'.acc) (hd : s.dw = s'.dw) (hv : ∀ q < 64, s.v q = s'.v q) (a : Outcome (Bool × Arch))
    (h : execRow maxPhys fresh r w s = some a) :
    ∃ a', execRow maxPhys fresh r w s' = some a' ∧ Spec.Alike (fun p p' : Bool × Arch => p.1 = p'.1 ∧ p.2.x = p'.2.x ∧
      p.2.mem = p'.2.mem ∧ p.2.acc = p'.2.acc ∧ p.2.dw = p'.2.dw ∧ ∀ q < 64, p.2.v q = p'.2.v q) a a' :=
  execRow_alike (V := (· < 64)) maxPhys fresh r hr w
    (fun _ ⟨g, hg, hb⟩ => Nat.lt_of_lt_of_le hb.2 (hfit g hg)) s s' ⟨hx, hm, ha, hd, hv⟩ a h

/-- The row of `vadd.b.vv.m`. -/
def vaddRow : Row :=
  ⟨[.vadd, .b, .vv, .m], [.vadd, .b, .vv, .m], 1, [⟨26, 6, 0⟩, ⟨12, 2, 0⟩, ⟨5, 1, 1⟩, ⟨2, 3, 0⟩, ⟨0, 2, 0⟩], [], [.vs1, .vs2],
    [.vd], .vec (.bin .add .i8) false true⟩

/-- A state with one in register `k` and zero everywhere else. -/
def oneIn (k : Nat) : Arch where
  x := fun _ => 0
  v := fun q => if q = k then 1 else 0
  mem := fun _ => 0
  acc := fun _ _ => 0
  dw := fun _ => none

/-- Vector register `q` after the instruction. -/
def vregAfter (w : BitVec 32) (s : Arch) (q : Nat) : Option VReg :=
  match execRow 0x3fffff (fun _ => 0) vaddRow w s with
  | some (.ok p) => some (p.2.v q)
  | _ => none

/-- C87, violated: `vadd.b.vv.m v0, v61, v8` adds v61, v62, v63 and a register named `v64` that the architecture does not
have (`kNumVregs` is 64). From two states that agree on v0 to v63 and on everything else but `v64`, it leaves different values
in v3; and `vadd.b.vv.m v61, v8, v12` writes its fourth result to `v64`. -/
theorem C87_hidden :
    Decodes 0x008f4020#32 vaddRow ∧ (∀ q < 64, (oneIn 64).v q = (oneIn 65).v q) ∧
      vregAfter 0x008f4020#32 (oneIn 64) 3 = some 1 ∧ vregAfter 0x008f4020#32 (oneIn 65) 3 = some 0 ∧
      Decodes 0x00c20f60#32 vaddRow ∧ vregAfter 0x00c20f60#32 (oneIn 11) 64 = some 1 := by
  refine ⟨?_, ?_, by decide +kernel, by decide +kernel, ?_, by decide +kernel⟩
  · unfold Decodes; decide +kernel
  · intro q hq
    show (if q = 64 then (1 : VReg) else 0) = if q = 65 then 1 else 0
    rw [if_neg (by omega), if_neg (by omega)]
  · unfold Decodes; decide +kernel

/-- The groups of these two words, and of `vadd.b.vv.m v60, v8, v12`, which stays inside the file. -/
example : rowGroups vaddRow 0x008f4020#32 = [(0, 4), (61, 4), (8, 4)] ∧ rowGroups vaddRow 0x00c20f60#32 = [(61, 4), (8, 4), (12, 4)] ∧
    rowGroups vaddRow 0x00c20f20#32 = [(60, 4), (8, 4), (12, 4)] ∧ dstGroups vaddRow 0x00c20f20#32 = [(60, 4)] := by
  decide +kernel

/-- `vadd.b.vv.m v60, v8, v12` leaves v59 alone whatever the state. -/
example (maxPhys : Nat) (fresh : Nat → VReg) (s s' : Arch) (t : Bool)
    (h : execRow maxPhys fresh vaddRow 0x00c20f20#32 s = some (.ok (t, s'))) : s'.v 59 = s.v 59 := by
  refine C87_confined maxPhys fresh vaddRow (by decide +kernel) _ s s' t h 59 ?_
  rintro ⟨g, hg, hb⟩
  rw [show dstGroups vaddRow 0x00c20f20#32 = [(60, 4)] by decide +kernel, List.mem_singleton] at hg
  subst hg
  exact absurd hb.1 (by decide)

end Verif.Props
