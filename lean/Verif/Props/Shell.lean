import Verif.Proofs.Shell
import Verif.Props.RegNames

/-!
# C105: the register listings of the command shell

The specification (`Verif/Spec/Shell.lean`) is the language of the two commands and the text of the two listings.
-/

namespace Verif.Props
open Verif Verif.Model Verif.Model.RegNames Verif.Model.Shell Verif.Spec.RegNames Verif.Spec.Shell Verif.Proofs.RegNames
  Verif.Proofs.Shell

variable {κ : Type}

/-- C105: `reg info` and `vreg info`, with blanks anywhere but inside the words, are what is recognised, and nothing is both;
otherwise the output is left as it was. -/
theorem C105_commands (c : Csrs κ) (alias : Nat → String) (input : List Char) (s : St κ) (out : List Char) :
    ((printRegisters c alias input s out).1 = true ↔ Command "reg".toList input) ∧
    (¬ Command "reg".toList input → printRegisters c alias input s out = (false, out)) ∧
    ((∃ t, printVectorRegisters input s out = .ok (false, t)) ↔ ¬ Command "vreg".toList input) ∧
    (¬ Command "vreg".toList input → printVectorRegisters input s out = .ok (false, out)) ∧
    ¬ (Command "reg".toList input ∧ Command "vreg".toList input) := by
  have hr : isInfo "reg".toList input = true ↔ Command "reg".toList input := isInfo_iff 'r' _ input (by decide)
  have hv : isInfo "vreg".toList input = true ↔ Command "vreg".toList input := isInfo_iff 'v' _ input (by decide)
  refine ⟨?_, fun h => ?_, ?_, fun h => ?_, ?_⟩
  · rw [← hr]; unfold printRegisters; split <;> simp_all
  · rw [← hr] at h; unfold printRegisters; rw [if_neg h]
  · rw [← hv]; unfold printVectorRegisters
    by_cases e : isInfo "vreg".toList input = true
    · rw [if_pos e]
      have key : ∀ (x : Outcome (List Char)) t, (x >>= fun o => Outcome.ok (true, o)) ≠ .ok (false, t) := by
        intro x t; cases x <;> simp
      exact ⟨fun ⟨t, ht⟩ => absurd ht (key _ t), fun h => absurd e h⟩
    · rw [if_neg e]
      exact ⟨fun _ => e, fun _ => ⟨out, rfl⟩⟩
  · rw [← hv] at h; unfold printVectorRegisters; rw [if_neg h]
  · rintro ⟨h1, h2⟩
    rw [← hr] at h1; rw [← hv] at h2
    unfold isInfo at h1 h2
    split at h1
    · rename_i e1
      split at h2
      · rename_i e2
        rw [after_some] at e1 e2
        rw [e1] at e2
        exact absurd (List.cons.inj e2).1 (by decide)
      · cases h2
    · cases h1

/-- C105: after any session of reads, writes, decoding and runs, `reg info` on a halted core prints the 32 variables, each under its
second name. -/
theorem C105_reg (c : Csrs κ) (alias : Nat → String) (hd : Distinct alias) (s0 : St κ) (p : Nat) (h0 : Bare alias s0 p) :
    ∃ obj : Nat → Nat, (∀ i < 33, ∀ j < 33, obj i = obj j → i = j) ∧
      ∀ l, LegalAccesses c alias obj (addNames alias s0) l → ∀ s, s = (execAll c (addNames alias s0) l).2 → s.status = .halted →
        ∀ input out, Command "reg".toList input → printRegisters c alias input s out =
          (true, scalars alias fun i => varsAfter alias obj (fun i => if i = 0 then num (s0.data p) else 0) l (i + 1)) := by
  obtain ⟨obj, h1, h2⟩ := C97_session_partial c alias hd s0 p h0
  refine ⟨obj, h1, fun l hl s hs hst input out hc => ?_⟩
  have hr : isInfo "reg".toList input = true := (isInfo_iff 'r' _ input (by decide)).2 hc
  have hread : ∀ i < 32, readRegister c ("x" ++ toString i) s =
      .ok ((varsAfter alias obj (fun i => if i = 0 then num (s0.data p) else 0) l (i + 1)).zeroExtend 64) := by
    intro i hi
    exact (h2 l hl s hs hst _ (i + 1) (standard_x hd i hi)).1
  unfold printRegisters
  rw [if_pos hr]
  congr 1
  unfold scalars
  rw [← List.nil_append (List.flatMap _ _), ← foldl_append_flatMap]
  refine foldl_congr_mem _ _ _ (fun o i hi => ?_) _
  rw [hread i (List.mem_range.1 hi)]
  simp only
  rw [← hex8_word]
  have e : ∀ x : BitVec 32, (x.zeroExtend 64).toNat = x.toNat := fun x => by
    simp only [BitVec.truncate_eq_setWidth, BitVec.toNat_setWidth]
    have := x.isLt
    omega
  rw [e]

/-- The vector registers that exist are buffers of 32 bytes. -/
def VSized (s : St κ) : Prop :=
  (∀ n k, s.names n = some k → k < s.objs) ∧ ∀ i < 64, ∀ k, s.names ("v" ++ toString i) = some k → (s.data k).length = 32

/-- C105: in any state whose vector registers have 32 bytes, `vreg info` on a halted core prints the vector registers that exist. -/
theorem C105_vreg_state (s : St κ) (hv : VSized s) (hst : s.status = .halted) (input out : List Char)
    (hc : Command "vreg".toList input) : printVectorRegisters input s out =
      .ok (true, vectors fun i => (s.names ("v" ++ toString i)).map fun k => vec (s.data k)) := by
  have hr : isInfo "vreg".toList input = true := (isInfo_iff 'v' _ input (by decide)).2 hc
  unfold printVectorRegisters
  rw [if_pos hr]
  have key : ∀ (l : List Nat), (∀ i ∈ l, i < 64) → ∀ o : List Char,
      l.foldlM (fun out i => match getBuffer ("v" ++ toString i) s with
        | .error _ => Outcome.ok out
        | .ok k => do
          let t ← dataText (s.data k)
          .ok (out ++ ("v".toList ++ (toString i).toList ++ "\t = [".toList ++ t ++ "]\n".toList))) o =
        .ok (o ++ vtext (fun i => (s.names ("v" ++ toString i)).map fun k => vec (s.data k)) l) := by
    intro l
    induction l with
    | nil => intro _ o; simp [vtext]
    | cons i l ih =>
      intro hl o
      have hi := hl i (by simp)
      rw [List.foldlM_cons, vtext_cons]
      cases e : s.names ("v" ++ toString i) with
      | none =>
        have : getBuffer ("v" ++ toString i) s = .error .notFound := by unfold getBuffer; rw [if_neg (by simp [hst]), e]
        rw [this]
        simp only [Outcome.ok_bind, Option.map_none, List.nil_append]
        exact ih (fun j hj => hl j (by simp [hj])) o
      | some k =>
        have : getBuffer ("v" ++ toString i) s = .ok k := by unfold getBuffer; rw [if_neg (by simp [hst]), e]
        rw [this]
        simp only [dataText_eq (hv.2 i hi k e), Outcome.ok_bind, Option.map_some]
        rw [ih (fun j hj => hl j (by simp [hj]))]
        simp [vline, List.append_assoc]
  have := key (List.range 64) (fun i hi => List.mem_range.1 hi) []
  exact congrArg (fun x : Outcome (List Char) => x >>= fun o => Outcome.ok (true, o)) this

/-- Vector registers are made with 32 bytes. -/
def VDecode : Op → Prop
  | .decode n size => ∀ i < 64, n = "v" ++ toString i → size = 32
  | _ => True

theorem addReg_names (n : String) (size : Nat) (s : St κ) (m : String) :
    (addReg n size s).names m = none ↔ s.names m = none ∧ m ≠ n := by
  unfold addReg
  split
  · rename_i k e
    constructor
    · intro h; exact ⟨h, fun hm => by rw [hm, e] at h; cases h⟩
    · exact fun h => h.1
  · rename_i e
    simp only
    split
    · simp_all
    · simp_all

theorem vsized_exec (c : Csrs κ) (s : St κ) (o : Op) (hv : VSized s) (ho : VDecode o) : VSized (exec c s o).2 := by
  cases o with
  | read n => exact hv
  | status r h => exact hv
  | program d =>
    refine ⟨hv.1, fun i hi k hk => ?_⟩
    have := hv.2 i hi k hk
    simp only [exec]
    split
    · rename_i e; rw [e]; exact this
    · exact this
  | decode n size =>
    show VSized (addReg n size s)
    unfold addReg
    split
    · exact hv
    · refine ⟨fun m k hk => ?_, fun i hi k hk => ?_⟩
      · simp only at hk ⊢
        split at hk
        · cases hk; omega
        · have := hv.1 m k hk; omega
      · simp only at hk ⊢
        split at hk
        · rename_i e
          cases hk
          rw [if_pos rfl, List.length_replicate]
          exact ho i hi e.symm
        · have := hv.1 _ k hk
          rw [if_neg (by omega)]
          exact hv.2 i hi k hk
  | poke n d =>
    simp only [exec]
    split
    · rename_i k e
      refine ⟨hv.1, fun i hi j hj => ?_⟩
      have := hv.2 i hi j hj
      simp only
      split
      · rename_i e2; rw [e2.2, ← e2.1]; exact this
      · exact this
    · exact hv
  | write n v =>
    show VSized (writeRegister c n v s).2
    unfold writeRegister
    split
    · exact hv
    · split
      · split <;> exact hv
      · rename_i k e
        simp only
        split
        · have e1 : ∀ b : Prop, ∀ [Decidable b], (if b then { s with reason := .none } else s).names = s.names := by
            intro b _; split <;> rfl
          have e3 : ∀ b : Prop, ∀ [Decidable b], (if b then { s with reason := .none } else s).objs = s.objs := by
            intro b _; split <;> rfl
          refine ⟨fun m j hj => ?_, fun i hi j hj => ?_⟩
          · simp only [e1, e3] at hj ⊢
            exact hv.1 m j hj
          · simp only [e1] at hj ⊢
            have := hv.2 i hi j hj
            split
            · rename_i e2; rw [putNum_length, ← e2]; exact this
            · exact this
        · split <;> exact hv

theorem vsized_execAll (c : Csrs κ) : ∀ (l : List Op) (s : St κ), VSized s → (∀ o ∈ l, VDecode o) → VSized (execAll c s l).2
  | [], _, hv, _ => hv
  | o :: l, s, hv, h => vsized_execAll c l _ (vsized_exec c s o hv (h o (by simp))) fun o' ho' => h o' (by simp [ho'])

theorem exec_names (c : Csrs κ) (s : St κ) (o : Op) (m : String) :
    (exec c s o).2.names m = none ↔ s.names m = none ∧ ∀ size, o ≠ .decode m size := by
  cases o with
  | decode n size =>
    show (addReg n size s).names m = none ↔ _
    rw [addReg_names]
    constructor
    · rintro ⟨h1, h2⟩; exact ⟨h1, fun z hz => by cases hz; exact h2 rfl⟩
    · rintro ⟨h1, h2⟩; exact ⟨h1, fun e => h2 size (by rw [e])⟩
  | poke n d => simp only [exec]; split <;> simp
  | write n v =>
    have : (writeRegister c n v s).2.names = s.names := by
      unfold writeRegister
      split
      · rfl
      · split
        · split <;> rfl
        · simp only; split
          · split <;> rfl
          · split <;> rfl
    show (writeRegister c n v s).2.names m = none ↔ _
    rw [this]; simp
  | _ => simp [exec]

theorem execAll_names (c : Csrs κ) (m : String) : ∀ (l : List Op) (s : St κ),
    (execAll c s l).2.names m = none ↔ s.names m = none ∧ ∀ size, Op.decode m size ∉ l
  | [], s => by simp [execAll]
  | o :: l, s => by
    show (execAll c (exec c s o).2 l).2.names m = none ↔ _
    rw [execAll_names c m l, exec_names]
    constructor
    · rintro ⟨⟨h1, h2⟩, h3⟩
      refine ⟨h1, fun z hz => ?_⟩
      rcases List.mem_cons.1 hz with h | h
      · exact h2 z h.symm
      · exact h3 z h
    · rintro ⟨h1, h2⟩
      exact ⟨⟨h1, fun z hz => h2 z (by simp [hz])⟩, fun z hz => h2 z (by simp [hz])⟩

/-- C105: after any session that starts without vector registers, `vreg info` on a halted core prints exactly the vector registers that
instructions decoded so far have named, with the contents of their buffers. -/
theorem C105_vreg (c : Csrs κ) (s0 : St κ) (h0 : ∀ n k, s0.names n = some k → k < s0.objs)
    (hn : ∀ i < 64, s0.names ("v" ++ toString i) = none) (l : List Op) (hl : ∀ o ∈ l, VDecode o) (s : St κ)
    (hs : s = (execAll c s0 l).2) (hst : s.status = .halted) (input out : List Char) (hc : Command "vreg".toList input) :
    ∃ f : Nat → Option (BitVec 256), printVectorRegisters input s out = .ok (true, vectors f) ∧
      (∀ i < 64, f i = none ↔ Op.decode ("v" ++ toString i) 32 ∉ l) ∧
      ∀ i < 64, ∀ k, getBuffer ("v" ++ toString i) s = .ok k → (s.data k).length = 32 ∧ f i = some (vec (s.data k)) := by
  have hv0 : VSized s0 := ⟨h0, fun i hi k hk => by rw [hn i hi] at hk; cases hk⟩
  have hv : VSized s := hs ▸ vsized_execAll c l s0 hv0 hl
  refine ⟨_, C105_vreg_state s hv hst input out hc, fun i hi => ?_, fun i hi k hk => ?_⟩
  · rw [Option.map_eq_none_iff, hs, execAll_names]
    constructor
    · exact fun h => h.2 32
    · intro h
      refine ⟨hn i hi, fun z hz => h ?_⟩
      have := hl _ hz i hi rfl
      subst this
      exact hz
  · have e : s.names ("v" ++ toString i) = some k := by
      unfold getBuffer at hk
      rw [if_neg (by simp [hst])] at hk
      split at hk
      · cases hk
      · cases hk; assumption
    simp only [e, Option.map_some]
    exact ⟨hv.2 i hi k e, trivial⟩

/-- A loop that never aborts and is undefined at one of its indices is undefined. -/
theorem foldlM_ub {α β : Type} (f : β → α → Outcome β) (hna : ∀ b a, f b a ≠ .abort) (i : α) (h : ∀ b, f b i = .ub) :
    ∀ (l : List α), i ∈ l → ∀ b, l.foldlM f b = .ub := by
  intro l
  induction l with
  | nil => intro hi; cases hi
  | cons a l ih =>
    intro hi b
    rw [List.foldlM_cons]
    cases e : f b a with
    | ub => rfl
    | abort => exact absurd e (hna b a)
    | ok b' =>
      rw [Outcome.ok_bind]
      rcases List.mem_cons.1 hi with rfl | hi
      · rw [h] at e; cases e
      · exact ih hi b'

theorem foldlM_ne_abort {α β : Type} (f : β → α → Outcome β) (hna : ∀ b a, f b a ≠ .abort) :
    ∀ (l : List α) (b : β), l.foldlM f b ≠ .abort := by
  intro l
  induction l with
  | nil => intro b h; cases h
  | cons a l ih =>
    intro b
    rw [List.foldlM_cons]
    cases e : f b a with
    | ub => intro h; cases h
    | abort => exact absurd e (hna b a)
    | ok b' => exact ih b'

theorem getWord_ne_abort (d : List (BitVec 8)) (j : Nat) : getWord d j ≠ .abort := by
  unfold getWord; split <;> exact fun h => by cases h

theorem dataStep_ne_abort (d : List (BitVec 8)) (p : List Char × List Char) (j : Nat) :
    (getWord d j >>= fun v => Outcome.ok (p.1 ++ (p.2 ++ hex8 v), [':'])) ≠ .abort := by
  cases e : getWord d j with
  | ok v => intro h; cases h
  | ub => intro h; cases h
  | abort => exact absurd e (getWord_ne_abort d j)

theorem dataText_ne_abort (d : List (BitVec 8)) : dataText d ≠ .abort := by
  unfold dataText
  cases e : (List.range 8).foldlM (fun (p : List Char × List Char) j => do
      let v ← getWord d j
      Outcome.ok (p.1 ++ (p.2 ++ hex8 v), [':'])) (([], []) : List Char × List Char) with
  | ok r => intro h; cases h
  | ub => intro h; cases h
  | abort => exact absurd e (foldlM_ne_abort _ (dataStep_ne_abort d) _ _)

theorem dataText_short {d : List (BitVec 8)} (h : d.length < 32) : dataText d = .ub := by
  unfold dataText
  rw [foldlM_ub _ (dataStep_ne_abort d) 7 (fun b => by
    have : getWord d 7 = .ub := by unfold getWord; rw [if_neg (by omega)]
    rw [this]; rfl) (List.range 8) (by decide)]
  rfl

/-- C105: the size of 32 bytes is needed: as soon as one vector register that exists is shorter, `vreg info` on a halted core reads
beyond its buffer. -/
theorem C105_vreg_short (s : St κ) (hst : s.status = .halted) (i : Nat) (hi : i < 64) (k : Nat)
    (hk : s.names ("v" ++ toString i) = some k) (hlen : (s.data k).length < 32) (input out : List Char)
    (hc : Command "vreg".toList input) : printVectorRegisters input s out = .ub := by
  have hr : isInfo "vreg".toList input = true := (isInfo_iff 'v' _ input (by decide)).2 hc
  unfold printVectorRegisters
  rw [if_pos hr]
  rw [foldlM_ub _ (fun o j => ?_) i (fun o => ?_) (List.range 64) (List.mem_range.2 hi)]
  · rfl
  · cases getBuffer ("v" ++ toString j) s with
    | error _ => intro h; cases h
    | ok q =>
      cases e : dataText (s.data q) with
      | ok t => simp only [e]; intro h; cases h
      | ub => simp only [e]; intro h; cases h
      | abort => exact absurd e (dataText_ne_abort _)
  · have : getBuffer ("v" ++ toString i) s = .ok k := by unfold getBuffer; rw [if_neg (by simp [hst]), hk]
    simp only [this, dataText_short hlen]
    rfl

/-- C105: while the core runs both commands are recognised and print nothing. -/
theorem C105_running (c : Csrs κ) (alias : Nat → String) (s : St κ) (h : s.status ≠ .halted) (input out : List Char) :
    (Command "reg".toList input → printRegisters c alias input s out = (true, [])) ∧
    (Command "vreg".toList input → printVectorRegisters input s out = .ok (true, [])) := by
  refine ⟨fun hc => ?_, fun hc => ?_⟩
  · have hr : isInfo "reg".toList input = true := (isInfo_iff 'r' _ input (by decide)).2 hc
    unfold printRegisters
    rw [if_pos hr]
    have : ∀ n, readRegister c n s = .error .failedPrecondition := fun n => by simp [readRegister, h]
    simp only [this]
    congr 1
  · have hr : isInfo "vreg".toList input = true := (isInfo_iff 'v' _ input (by decide)).2 hc
    unfold printVectorRegisters
    rw [if_pos hr]
    have : ∀ n, getBuffer n s = .error .failedPrecondition := fun n => by simp [getBuffer, h]
    simp only [this]
    have key : ∀ (l : List Nat) (o : List Char), l.foldlM (fun out _ => (Outcome.ok out : Outcome (List Char))) o = .ok o := by
      intro l
      induction l with
      | nil => intro o; rfl
      | cons a l ih => intro o; rw [List.foldlM_cons]; exact ih o
    rw [key]
    rfl

/-- C105: the listings tell everything: two states with the same listing have the same registers, and the same vector registers
exist with the same contents. -/
theorem C105_faithful (alias : Nat → String) :
    (∀ x y : Nat → BitVec 32, scalars alias x = scalars alias y ↔ ∀ i < 32, x i = y i) ∧
    (∀ f g : Nat → Option (BitVec 256), vectors f = vectors g ↔ ∀ i < 64, f i = g i) ∧
    ∀ d e : List (BitVec 8), d.length = 32 → e.length = 32 → (vec d = vec e ↔ d = e) := by
  refine ⟨fun x y => ⟨scalars_inj, fun h => ?_⟩, fun f g => ⟨vectors_inj, fun h => ?_⟩, fun d e hd he => ⟨vec_inj hd he, fun h => h ▸ rfl⟩⟩
  · unfold scalars
    exact flatMap_congr_mem _ _ _ fun i hi => by rw [h i (List.mem_range.1 hi)]
  · unfold vectors
    exact flatMap_congr_mem _ _ _ fun i hi => by rw [h i (List.mem_range.1 hi)]

/-! ### Examples -/

example : Command "reg".toList " reg \t info\n".toList := ⟨[' '], [' ', '\t', ' '], ['\n'], rfl, rfl, rfl, by simp, rfl⟩

example : isInfo "reg".toList "reginfo".toList = false ∧ isInfo "reg".toList "reg info x".toList = false ∧
    isInfo "reg".toList "reg info".toList = true ∧ isInfo "vreg".toList "reg info".toList = false := by decide

/-- A listing of the scalar registers begins with x0 and shows what was written. -/
example : ((printRegisters noCsrs abi "reg info".toList
    (execAll noCsrs (addNames abi bareSt) [.write "ra" 0x1f]).2 []).2.take 39) =
    "zero\t = [00000000]\nra\t = [0000001f]\nsp\t".toList := by decide +kernel

/-- A vector register is listed once it has been decoded. -/
example :
    let s := (execAll noCsrs (addNames abi bareSt) [.decode "v3" 32, .poke "v3" ((List.range 32).map (BitVec.ofNat 8))]).2
    printVectorRegisters "vreg info".toList s [] = .ok (true,
      "v3\t = [03020100:07060504:0b0a0908:0f0e0d0c:13121110:17161514:1b1a1918:1f1e1d1c]\n".toList) ∧
    printVectorRegisters "vreg info".toList (addNames abi bareSt) [] = .ok (true, []) := by decide +kernel

/-- A vector register that was made with 31 bytes. -/
example : printVectorRegisters "vreg info".toList (execAll noCsrs (addNames abi bareSt) [.decode "v3" 31]).2 [] = .ub := by decide +kernel

end Verif.Props
