import Verif.Proofs.DecodeAux

/-! # Checks of the decoder's bit tests against the whole table -/

namespace Verif.Proofs
open Verif Verif.Model

/-- The value the row requires for a field. -/
def fixedFld (r : Row) (p n : Nat) : Option Nat :=
  (r.eq.find? fun f => f.pos == p && f.width == n).map (·.val)

theorem fixedFld_field {r : Row} {w : BitVec 32} (h : r.matches w = true) {p n v : Nat}
    (hf : fixedFld r p n = some v) : field w p n = v := by
  simp only [fixedFld, Option.map_eq_some_iff] at hf
  obtain ⟨f, hf, hv⟩ := hf
  have h1 := List.find?_some hf
  have h2 := List.mem_of_find?_eq_some hf
  simp only [Bool.and_eq_true, beq_iff_eq] at h1
  rw [← hv, ← h1.1, ← h1.2]
  exact matches_eq h h2

/-- Opcodes that the operand getters treat specially. -/
def plainName (r : Row) : Bool := !r.isAconv && !r.isDw && !r.isVdwconv && !r.isAdwinit && !r.isVcget && !r.isAcset

/-- The operations whose semantic function does not read a second source. -/
def oneSrc : VOp → Bool
  | .un .. | .packed .. => true
  | _ => false

/-- The source factor is `F` for every value of `sz` the row admits. -/
def src1Ok (r : Row) (f1 f2 F : Nat) : Bool :=
  [0, 1, 2, 3].all fun sz =>
    fixedFld r 12 2 ≠ none && fixedFld r 12 2 ≠ some sz ||
      (if src1Bits f1 f2 sz ≠ 0 then src1Bits f1 f2 sz else 1) == F

/-- Agreement of a row with the operand getters. -/
def vecRowOk (r : Row) : Bool :=
  match r.sem with
  | .vec op sc st =>
    match fixedFld r 2 3, fixedFld r 26 6, fixedFld r 5 1, fixedFld r 0 2 with
    | some f1, some f2, some m, some form =>
      (m == if st then 1 else 0) && (if oneSrc op then form != 3 else if sc then form == 2 else form == 0 || form == 1) &&
        ((if widenBits f1 f2 then 2 else 1) == op.dstFactor) && src1Ok r f1 f2 op.src1Factor &&
        plainName r && r.src.head? == some .vs1 && (oneSrc op || r.src[1]? == some .vs2) &&
        (!oneSrc op || !sc)
    | _, _, _, _ => false
  | _ => true

set_option maxRecDepth 100000 in
theorem allRows_vecOk : allRows.all vecRowOk = true := by decide +kernel

/-- Value of the scalar operand `xs2` of the word. -/
def xs2 (w : BitVec 32) (s : Arch) : BitVec 32 := if fVs2 w = 0 then 0 else s.x (fVs2 w % 32)

/-- The vector instruction encoded by a word. -/
def instOf (w : BitVec 32) (s : Arch) (sc st : Bool) : VInst where
  vd := fVd w
  vs1 := fVs1 w
  op2 := if sc then .scalar (xs2 w s) else .vreg (fVs2 w)
  strip := st

theorem exec_oneSrc (op : VOp) (h : oneSrc op = true) (sc sc' st : Bool) (vd n : Nat) (s0 s1 s1' : Src) (rf : VRF) :
    op.exec sc st ⟨vd, n, s0, s1⟩ rf = op.exec sc' st ⟨vd, n, s0, s1'⟩ rf := by
  cases op <;> first | rfl | exact absurd h Bool.false_ne_true

theorem fld_lt (w : BitVec 32) (p n : Nat) : field w p n < 2 ^ n := by
  rw [field_nat]; exact Nat.mod_lt _ (Nat.two_pow_pos n)

theorem exec_vec (maxPhys : Nat) (fresh : Nat → VReg) {r : Row} (hr : r ∈ allRows) {w : BitVec 32}
    (h : r.matches w = true) {op : VOp} {sc st : Bool} (hs : r.sem = .vec op sc st) (s : Arch) :
    execRow maxPhys fresh r w s = some (do
      let v ← op.run (instOf w s sc st) s.v
      .ok (false, { s with v := v })) := by
  have hok := List.all_eq_true.1 allRows_vecOk r hr
  simp only [vecRowOk, hs] at hok
  split at hok
  · rename_i f1 f2 m form e1 e2 em ef
    simp only [Bool.and_eq_true, beq_iff_eq, plainName, Bool.not_eq_true'] at hok
    obtain ⟨⟨⟨⟨⟨⟨⟨hm, hform⟩, hw⟩, hsrc⟩, hpl⟩, hv1⟩, hv2⟩, hsc⟩ := hok
    obtain ⟨⟨⟨⟨⟨n1, n2⟩, n3⟩, n4⟩, n5⟩, n6⟩ := hpl
    have e1 : fFunc1 w = f1 := fixedFld_field h e1
    have e2 : fFunc2 w = f2 := fixedFld_field h e2
    have em : field w 5 1 = m := fixedFld_field h em
    have ef : fForm w = form := fixedFld_field h ef
    have hM : fM w = st := by
      rw [fM, em, hm]; cases st <;> rfl
    have hF : src1Factor r w = op.src1Factor := by
      simp only [src1Ok, List.all_eq_true, Bool.or_eq_true, Bool.and_eq_true, decide_eq_true_eq, beq_iff_eq] at hsrc
      have hz : fSz w ∈ [0, 1, 2, 3] := by
        have := fld_lt w 12 2
        have : fSz w < 4 := this
        simp; omega
      have := hsrc _ hz
      simp only [src1Factor, e1, e2, n1, n6, Bool.or_self, Bool.false_eq_true, if_false]
      rcases this with ⟨a, b⟩ | this
      · exfalso
        cases hh : fixedFld r 12 2 with
        | none => exact a hh
        | some z => exact b (by rw [hh]; exact congrArg some (fixedFld_field h hh).symm)
      · exact this
    have hlen : dstVdLen r w = numOpsOf st * op.dstFactor := by
      simp only [dstVdLen, hM, n5, n4, n3, Bool.or_false, isWidenDst, e1, e2, hw]
    have hf3 : form ≠ 3 := by
      intro hf
      subst hf
      cases oneSrc op <;> cases sc <;> simp at hform
    have hs0 : SrcOpd.toSrc s (source r w 0) = .vec (fVs1 w) (numOpsOf st * op.src1Factor) := by
      have : r.src[0]? = some .vs1 := by rw [← hv1]; cases r.src <;> rfl
      simp [source, this, srcOpd, srcVs1, ef, hf3, n2, n4, hM, hF, SrcOpd.toSrc]
    simp only [execRow, hs]
    refine congrArg some ?_
    refine congrArg (fun z => Outcome.bind z _) ?_
    rw [hs0, hlen]
    by_cases h1 : oneSrc op = true
    · have : sc = false := by cases sc <;> simp_all
      subst this
      exact exec_oneSrc op h1 _ _ _ _ _ _ _ _ _
    · simp only [h1, if_false, Bool.false_or, beq_iff_eq, Bool.false_eq_true] at hform hv2
      cases sc
      · have hs1 : SrcOpd.toSrc s (source r w 1) = .vec (fVs2 w) (numOpsOf st) := by
          have hf2 : form ≠ 2 := by
            intro hf; subst hf; simp at hform
          simp [source, hv2, srcOpd, srcVs2, ef, hf3, hf2, n1, hM, SrcOpd.toSrc]
        rw [hs1]; rfl
      · have hs1 : SrcOpd.toSrc s (source r w 1) = .scalar (xs2 w s) := by
          have hf2 : form = 2 := by simpa using hform
          simp only [source, hv2, srcOpd, srcVs2, ef, hf2, true_or, if_true, xs2]
          by_cases h0 : fVs2 w = 0 <;> simp [h0, SrcOpd.toSrc]
        rw [hs1]; rfl
  · exact absurd hok (by decide)

end Verif.Proofs
