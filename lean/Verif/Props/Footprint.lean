import Verif.Model.VecCore
import Verif.Proofs.Footprint
import Verif.Proofs.Top
import Verif.Props.Decode

/-!
# C95: the memory footprint of the vector instructions

`Spec.Reads` and `Spec.Writes` (`Verif.Spec.Footprint`) are the bytes of the elements of loads and of stores, read off the word
and the scalar registers.
-/

namespace Verif.Props
open Verif Verif.Model Verif.Proofs

/-- C95: executed on memory `mem'` that agrees with `s.mem` on the bytes it reads, a vector instruction ends in the same way
(normally or with undefined behaviour), with the same trap, scalar and vector registers and accumulators; the bytes it writes
are the same, and every other byte is the one of `mem'`. -/
theorem C95_footprint (maxPhys : Nat) (fresh : Nat → VReg) (r : Row) (hr : r ∈ allRows) (w : BitVec 32) (s : Arch) (mem' : Mem)
    (h : ∀ q, Spec.Reads maxPhys r.sem w s.x q → mem' q = s.mem q) (a : Outcome (Bool × Arch))
    (ha : execRow maxPhys fresh r w s = some a) :
    ∃ a', execRow maxPhys fresh r w { s with mem := mem' } = some a' ∧
      Spec.Alike (fun p p' : Bool × Arch => p'.1 = p.1 ∧ p'.2.x = p.2.x ∧ p'.2.v = p.2.v ∧ p'.2.acc = p.2.acc ∧
        p'.2.dw = p.2.dw ∧ (∀ q, Spec.Writes maxPhys r.sem w s.x q → p'.2.mem q = p.2.mem q) ∧
        (∀ q, ¬ Spec.Writes maxPhys r.sem w s.x q → p'.2.mem q = mem' q)) a a' := by
  obtain ⟨a', h1, h2⟩ := execRow_mem maxPhys fresh r hr w s mem' h a ha
  refine ⟨a', h1, ?_⟩
  cases a <;> cases a' <;> first
    | exact h2.elim
    | trivial
    | exact ⟨h2.1, h2.2.1, h2.2.2.1, h2.2.2.2.1, h2.2.2.2.2.1, h2.2.2.2.2.2.1, fun q hq => (h2.2.2.2.2.2.2 q hq).1⟩

/-- C95: no other byte of memory changes. -/
theorem C95_confined (maxPhys : Nat) (fresh : Nat → VReg) (r : Row) (hr : r ∈ allRows) (w : BitVec 32) (s s' : Arch) (t : Bool)
    (h : execRow maxPhys fresh r w s = some (.ok (t, s'))) (q : Nat) (hq : ¬ Spec.Writes maxPhys r.sem w s.x q) :
    s'.mem q = s.mem q := by
  obtain ⟨a', h1, h2⟩ := C95_footprint maxPhys fresh r hr w s s.mem (fun _ _ => rfl) _ h
  rw [h] at h1
  injection h1 with h1
  subst h1
  exact h2.2.2.2.2.2.2 q hq

/-- C95: each byte counts: changing one byte that a load reads changes its result. -/
theorem C95_read (maxPhys : Nat) (fresh : Nat → VReg) (r : Row) (hr : r ∈ allRows) (w : BitVec 32) (hw : r.matches w = true)
    (s : Arch) (mem' : Mem) (q : Nat) (hq : Spec.Reads maxPhys r.sem w s.x q) (hne : mem' q ≠ s.mem q) :
    ∃ p p', execRow maxPhys fresh r w s = some (.ok p) ∧ execRow maxPhys fresh r w { s with mem := mem' } = some (.ok p') ∧
      p'.2.v ≠ p.2.v := by
  cases hs : r.sem with
  | vld T len stride strip xs2 pi =>
    rw [hs] at hq
    obtain ⟨⟨hT, k, hk⟩, he⟩ := exec_vld maxPhys fresh hr hw hs s
    have he' := (exec_vld maxPhys fresh hr hw hs { s with mem := mem' }).2
    have hok := List.all_eq_true.1 allRows_memOk r hr
    simp only [memRowOk, hs, Bool.and_eq_true, beq_iff_eq] at hok
    have ha := access_of r w T len stride strip xs2 pi (fixedFld_field hw hok.1.1.1.1.1) hok.2 maxPhys s
    have ha' := access_of r w T len stride strip xs2 pi (fixedFld_field hw hok.1.1.1.1.1) hok.2 maxPhys { s with mem := mem' }
    obtain ⟨m, h1, -, h3, -⟩ := vld_run _ k hk maxPhys (memState s)
    obtain ⟨m', h1', -, h3', -⟩ := vld_run _ k hk maxPhys (memState { s with mem := mem' })
    rw [h1, Outcome.ok_bind] at he
    rw [h1', Outcome.ok_bind] at he'
    refine ⟨_, _, he, he', fun hv => hne ?_⟩
    rw [ha] at h3
    rw [ha'] at h3'
    obtain ⟨e, hlt, hc⟩ := hq
    have hcap : e < (Spec.accessOf maxPhys T len stride strip w s.x).cap := by
      refine Nat.lt_of_lt_of_le hlt ?_
      unfold Spec.Access.count
      split
      · exact Nat.min_le_right _ _
      · exact Nat.le_refl _
    have e1 := h3 e hcap
    have e2 := h3' e hcap
    change m'.v = m.v at hv
    rw [if_pos hlt] at e1
    rw [if_pos hlt, hv, e1] at e2
    change Spec.loadLE (T.bits / 8) s.mem _ = Spec.loadLE (T.bits / 8) mem' _ at e2
    obtain ⟨hc1, hc2⟩ := hc
    change q < _ + T.bits / 8 at hc2
    obtain ⟨b, rfl⟩ := Nat.exists_eq_add_of_le hc1
    have hb : b < T.bits / 8 := by omega
    have l1 := loadLE_byte s.mem (T.bits / 8) ((Spec.accessOf maxPhys T len stride strip w s.x).addr (Spec.lanes T.bits) e) b hb
    have l2 := loadLE_byte mem' (T.bits / 8) ((Spec.accessOf maxPhys T len stride strip w s.x).addr (Spec.lanes T.bits) e) b hb
    apply BitVec.eq_of_toNat_eq
    rw [← l1, ← l2]
    exact congrArg (fun z => Spec.byteOf z b) e2.symm
  | _ => rw [hs] at hq; exact hq.elim

/-- C95, for a sequence of vector instructions: a byte that none of them writes keeps its value. -/
theorem C95_program (maxPhys : Nat) (fresh : Nat → VReg) (ws : List (BitVec 32)) (s s' : Arch) (h : Runs maxPhys fresh ws s s')
    (q : Nat) (hq : s'.mem q ≠ s.mem q) :
    ∃ l₁ w l₂ r s1, ws = l₁ ++ w :: l₂ ∧ Runs maxPhys fresh l₁ s s1 ∧ Decodes w r ∧ Spec.Writes maxPhys r.sem w s1.x q := by
  induction h with
  | nil => exact absurd rfl hq
  | @cons w ws r trap s s1 s2 hd he h ih =>
    by_cases hw : Spec.Writes maxPhys r.sem w s.x q
    · exact ⟨[], w, ws, r, s, rfl, .nil s, hd, hw⟩
    · rw [← C95_confined maxPhys fresh r hd.1 w s s1 trap he q hw] at hq
      obtain ⟨l₁, w', l₂, r', s1', e, hr, hd', hw'⟩ := ih hq
      exact ⟨w :: l₁, w', l₂, r', s1', by rw [e]; rfl, .cons hd he hr, hd', hw'⟩

/-- C95: a vector instruction whose elements lie outside a code area has nothing to do with its contents: this is what the
properties of the debugger ask of a program. -/
theorem C95_tame (P : VecParams) (C : Nat → Bool) (m : Spec.Program.Machine VecRegs) (r : Row) (hr : r ∈ allRows)
    (hd : P.dec (Spec.Program.word m.mem m.pc.toNat) = some r) (p : Bool × Arch)
    (he : execRow P.maxPhys P.fresh r (Spec.Program.word m.mem m.pc.toNat) (archOf m) = some (.ok p))
    (hne : Spec.Program.word m.mem m.pc.toNat ≠ Spec.Program.ebreak) (hpc : m.pc.toNat % 4 = 0) (hC : C m.pc.toNat = true)
    (h1 : ∀ q, Spec.Reads P.maxPhys r.sem (Spec.Program.word m.mem m.pc.toNat) m.regs.x q → C (q / 4 * 4) = false)
    (h2 : ∀ q, Spec.Writes P.maxPhys r.sem (Spec.Program.word m.mem m.pc.toNat) m.regs.x q → C (q / 4 * 4) = false) :
    Spec.Program.TameAt (vecSem P) C m := by
  refine Top.tameAt_inst hne hpc hC fun mem' hm => ?_
  obtain ⟨a', e1, e2⟩ := execRow_mem P.maxPhys P.fresh r hr _ (archOf m) mem' (fun q hq => hm q (h1 q hq)) _ he
  cases a' with
  | ok p' =>
    obtain ⟨f1, f2, f3, f4, f5, f6, f7⟩ := e2
    have s1 : vecSem P (Spec.Program.word m.mem m.pc.toNat) m.pc.toNat { m with pc := m.pc + 4 } =
        (p.2.machine (m.pc + 4), if p.1 then [Spec.Program.Ev.userRequest] else []) := by
      unfold vecSem; dsimp only; rw [hd]
      change (match execRow P.maxPhys P.fresh r _ (archOf m) with | some (.ok p) => _ | some _ => _ | none => _) = _
      rw [he]
    have s2 : vecSem P (Spec.Program.word m.mem m.pc.toNat) m.pc.toNat { pc := m.pc + 4, mem := mem', regs := m.regs } =
        (p'.2.machine (m.pc + 4), if p'.1 then [Spec.Program.Ev.userRequest] else []) := by
      unfold vecSem; dsimp only; rw [hd]
      change (match execRow P.maxPhys P.fresh r _ { archOf m with mem := mem' } with | some (.ok p) => _ | some _ => _ | none => _) = _
      rw [e1]
    rw [s1, s2, f1]
    refine congrArg (fun z => (z, _)) ?_
    unfold Arch.machine
    rw [f2, f3, f4, f5]
    refine congrArg (fun z => (⟨_, z, _⟩ : Spec.Program.Machine VecRegs)) ?_
    funext q
    show p'.2.mem q = if C (q / 4 * 4) = true then mem' q else p.2.mem q
    by_cases hw : Spec.Writes P.maxPhys r.sem (Spec.Program.word m.mem m.pc.toNat) m.regs.x q
    · rw [if_neg (by rw [h2 q hw]; simp), f6 q hw]
    · obtain ⟨g1, g2⟩ := f7 q hw
      rw [g1]
      cases hc : C (q / 4 * 4) with
      | true => rfl
      | false => rw [if_neg (by simp), g2]; exact hm q hc
  | ub => exact e2.elim
  | abort => exact e2.elim

/-- A state with the address 0x80000100 in x1 and the count 3 in x2; bit 31 of an address is dropped on a small machine. -/
def footArch : Arch := { zeroArch with x := fun n => if n = 1 then 0x80000100 else if n = 2 then 3 else 0 }

/-- `vst.b.l.xx v8, x1, x2` writes the bytes 0x100, 0x101 and 0x102. -/
example : ∃ r ∈ allRows, r.name = [.vst, .b, .l, .xx] ∧ r.matches 0x2420821f#32 = true ∧
    (∀ q, Spec.Writes 0x3fffff r.sem 0x2420821f#32 footArch.x q ↔ 0x100 ≤ q ∧ q < 0x103) ∧
    (∀ q, ¬ Spec.Reads 0x3fffff r.sem 0x2420821f#32 footArch.x q) ∧
    ∃ p, execRow 0x3fffff (fun _ => 0) r 0x2420821f#32 footArch = some (.ok p) := by
  have h1 : (allRows.any fun r => r.name == [.vst, .b, .l, .xx] && r.matches 0x2420821f#32 &&
    r.sem == .vst .i8 true false false true false) = true := by decide +kernel
  simp only [List.any_eq_true, Bool.and_eq_true, beq_iff_eq] at h1
  obtain ⟨r, hr, ⟨hn, hm⟩, hs⟩ := h1
  refine ⟨r, hr, hn, hm, fun q => ?_, fun q => ?_, ?_⟩
  · rw [hs]
    have ha : Spec.accessOf 0x3fffff .i8 true false false 0x2420821f#32 footArch.x = ⟨8, 1, some 3, none, 0x100⟩ := by
      simp only [Spec.accessOf, Spec.argScalar, Spec.addrScalar, Spec.bitsAt, Spec.effBase, footArch]; rfl
    show (Spec.accessOf 0x3fffff .i8 true false false 0x2420821f#32 footArch.x).Touches (Spec.lanes 8) q ↔ _
    rw [ha]
    constructor
    · rintro ⟨e, he, h1, h2⟩
      simp only [Spec.Access.count, Spec.Access.cap, Spec.lanes, Spec.Access.addr, Spec.elemAddr, Option.getD] at he h1 h2
      omega
    · rintro ⟨h1, h2⟩
      refine ⟨q - 0x100, ?_, ?_, ?_⟩ <;>
        simp only [Spec.Access.count, Spec.Access.cap, Spec.lanes, Spec.Access.addr, Spec.elemAddr, Option.getD] <;> omega
  · rw [hs]; exact id
  · obtain ⟨⟨hT, k, hk⟩, he⟩ := exec_vst 0x3fffff (fun _ => 0) hr hm hs footArch
    obtain ⟨m, h1, -⟩ := vst_run _ false hT k hk 0x3fffff (memState footArch)
    refine ⟨(false, memBack footArch m), ?_⟩
    rw [he, show VMemInst.vst _ _ _ = _ from h1]; rfl

/-- `vld.h.s.xx.m v8, x1, x2` reads rows of 16 half words that start six bytes apart: 0x100 to 0x131. -/
example : ∃ r ∈ allRows, r.name = [.vld, .h, .s, .xx, .m] ∧ r.matches 0x0820923f#32 = true ∧
    (∀ q, Spec.Reads 0x3fffff r.sem 0x0820923f#32 footArch.x q ↔ 0x100 ≤ q ∧ q < 0x132) ∧
    ∀ q, ¬ Spec.Writes 0x3fffff r.sem 0x0820923f#32 footArch.x q := by
  have h1 : (allRows.any fun r => r.name == [.vld, .h, .s, .xx, .m] && r.matches 0x0820923f#32 &&
    r.sem == .vld .i16 false true true true false) = true := by decide +kernel
  simp only [List.any_eq_true, Bool.and_eq_true, beq_iff_eq] at h1
  obtain ⟨r, hr, ⟨hn, hm⟩, hs⟩ := h1
  refine ⟨r, hr, hn, hm, fun q => ?_, fun q => ?_⟩
  · rw [hs]
    have ha : Spec.accessOf 0x3fffff .i16 false true true 0x0820923f#32 footArch.x = ⟨16, 4, none, some 3, 0x100⟩ := by
      simp only [Spec.accessOf, Spec.argScalar, Spec.addrScalar, Spec.bitsAt, Spec.effBase, footArch]; rfl
    show (Spec.accessOf 0x3fffff .i16 false true true 0x0820923f#32 footArch.x).Touches (Spec.lanes 16) q ↔ _
    rw [ha]
    constructor
    · rintro ⟨e, he, h1, h2⟩
      simp only [Spec.Access.count, Spec.Access.cap, Spec.lanes, Spec.Access.addr, Spec.elemAddr, Option.getD] at he h1 h2
      rw [Nat.mod_eq_of_lt (by omega)] at h1 h2
      omega
    · rintro ⟨h1, h2⟩
      by_cases h : q < 0x120
      · refine ⟨(q - 0x100) / 2, ?_, ?_, ?_⟩ <;>
          simp only [Spec.Access.count, Spec.Access.cap, Spec.lanes, Spec.Access.addr, Spec.elemAddr, Option.getD] <;> omega
      · refine ⟨48 + (q - 0x112) / 2, ?_, ?_, ?_⟩ <;>
          simp only [Spec.Access.count, Spec.Access.cap, Spec.lanes, Spec.Access.addr, Spec.elemAddr, Option.getD] <;> omega
  · rw [hs]; exact id

end Verif.Props
