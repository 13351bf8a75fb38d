import Verif.Proofs.DecodeTab
import Verif.Proofs.Total
import Verif.Proofs.VecMemProp
import Verif.Proofs.ConvAux

/-! # Execution of the decoded instructions other than the lane operations -/

namespace Verif.Proofs
open Verif Verif.Model

/-- Rows of the lane operations that cannot fail: all but the 32-bit shifts by a signed amount. -/
def wordShift : VOp → Bool
  | .bin (.shift _) T => decide (T.bits = 32)
  | _ => false

def vecWfOk (r : Row) : Bool :=
  match r.sem with
  | .vec op sc st => opWf op sc st || wordShift op
  | _ => true

set_option maxRecDepth 100000 in
theorem allRows_vecWf : allRows.all vecWfOk = true := by decide +kernel

/-- The forms of the memory instructions. -/
def formOf (len stride xs2 : Bool) : Option Spec.PostInc :=
  match len, stride, xs2 with
  | false, false, false => some .unit
  | false, false, true => some .reg
  | true, false, true => some .length
  | false, true, true => some .stride
  | true, true, true => some .tile
  | _, _, _ => none

theorem formOf_form (i : VMemInst) {k : Spec.PostInc} (h : formOf i.hasLength i.hasStride i.rs2.isSome = some k) :
    Form i k := by
  unfold formOf at h
  split at h <;> first | (cases h; done) | (cases h; exact ⟨by assumption, by assumption, by assumption⟩)

/-- Agreement of a memory row with the operand getters. -/
def memRowOk (r : Row) : Bool :=
  match r.sem with
  | .vld T len stride strip xs2 _ =>
    fixedFld r 0 2 == some 3 && fixedFld r 5 1 == some (if strip then 1 else 0) && fixedFld r 2 3 == some 7 &&
      plainName r && decide (T.bits ≤ 32) && (formOf len stride xs2).isSome
  | .vst T len stride strip xs2 _ =>
    fixedFld r 0 2 == some 3 && fixedFld r 5 1 == some (if strip then 1 else 0) &&
      decide (T.bits ≤ 32) && (formOf len stride xs2).isSome
  | .vstq T strip _ =>
    fixedFld r 0 2 == some 3 && fixedFld r 5 1 == some (if strip then 1 else 0) && decide (T.bits ≤ 32)
  | .vdup T strip =>
    fixedFld r 0 2 == some 3 && fixedFld r 5 1 == some (if strip then 1 else 0) && fixedFld r 2 3 == some 7 &&
      plainName r && decide (T.bits ≤ 32) && r.src == [.vs2]
  | .getvl _ _ isRs1 isRs2 => (!isRs1 || r.src[0]? == some .rs1) && (!isRs2 || r.src[1]? == some .rs2)
  | .vcget => r.isVcget
  | .aconv => r.isAconv && !r.isDw && r.src == [.vs1, .vs2, .vs3] && fixedFld r 0 3 == some 5 && fixedFld r 3 2 == some 0
  | .dwconv wr => r.isDw && !r.isAconv && !r.isVcget && r.src == [.vs1, .rs2, .vs3] && fixedFld r 0 3 == some 5 &&
      fixedFld r 3 2 == some 2 && r.isVdwconv == wr
  | .acset _ => r.isAcset && !r.isDw && r.src == [.vs1] && fixedFld r 5 1 == some 0
  | .adwinit => r.isAdwinit && !r.isDw && !r.isAcset && !r.isAconv && !r.isVcget && r.src == [.vs1] && fixedFld r 5 1 == some 0
  | _ => true

set_option maxRecDepth 100000 in
theorem allRows_memOk : allRows.all memRowOk = true := by decide +kernel

theorem fM_of {w : BitVec 32} {st : Bool} (h : field w 5 1 = if st then 1 else 0) : fM w = st := by
  rw [fM, h]; cases st <;> rfl

/-- The group sizes of a row with `func1 = 7` are those of the strip-mine bit. -/
theorem dst_len7 {r : Row} {w : BitVec 32} {st : Bool} (h1 : fFunc1 w = 7) (hM : fM w = st) (hp : plainName r = true) :
    dstVdLen r w = numOpsOf st := by
  simp only [plainName, Bool.and_eq_true, Bool.not_eq_true'] at hp
  obtain ⟨⟨⟨⟨⟨n1, n2⟩, n3⟩, n4⟩, n5⟩, n6⟩ := hp
  simp [dstVdLen, isWidenDst, widenBits, h1, hM, n3, n4, n5]

theorem exec_vld (maxPhys : Nat) (fresh : Nat → VReg) {r : Row} (hr : r ∈ allRows) {w : BitVec 32}
    (h : r.matches w = true) {T : CTy} {len stride strip xs2 pi : Bool} (hs : r.sem = .vld T len stride strip xs2 pi) (s : Arch) :
    (T.bits ≤ 32 ∧ ∃ k, Form (memInst r w T len stride strip xs2 pi) k) ∧
    execRow maxPhys fresh r w s = some (do
      let m ← (memInst r w T len stride strip xs2 pi).vld maxPhys (memState s)
      .ok (false, memBack s m)) := by
  have hok := List.all_eq_true.1 allRows_memOk r hr
  simp only [memRowOk, hs, Bool.and_eq_true, beq_iff_eq, decide_eq_true_eq, Option.isSome_iff_exists] at hok
  obtain ⟨⟨⟨⟨⟨h0, hm⟩, hf⟩, hp⟩, hT⟩, k, hk⟩ := hok
  refine ⟨⟨hT, k, formOf_form _ ?_⟩, ?_⟩
  · rw [← hk]; cases xs2 <;> rfl
  · have hM := fM_of (fixedFld_field h hm)
    have hform : fForm w = 3 := fixedFld_field h h0
    simp only [execRow, hs]
    rw [if_pos ⟨hform, dst_len7 (fixedFld_field h hf) hM hp⟩]

theorem exec_vst (maxPhys : Nat) (fresh : Nat → VReg) {r : Row} (hr : r ∈ allRows) {w : BitVec 32}
    (h : r.matches w = true) {T : CTy} {len stride strip xs2 pi : Bool} (hs : r.sem = .vst T len stride strip xs2 pi) (s : Arch) :
    (T.bits ≤ 32 ∧ ∃ k, Form (memInst r w T len stride strip xs2 pi) k) ∧
    execRow maxPhys fresh r w s = some (do
      let m ← (memInst r w T len stride strip xs2 pi).vst maxPhys (memState s)
      .ok (false, memBack s m)) := by
  have hok := List.all_eq_true.1 allRows_memOk r hr
  simp only [memRowOk, hs, Bool.and_eq_true, beq_iff_eq, decide_eq_true_eq, Option.isSome_iff_exists] at hok
  obtain ⟨⟨⟨h0, hm⟩, hT⟩, k, hk⟩ := hok
  refine ⟨⟨hT, k, formOf_form _ ?_⟩, ?_⟩
  · rw [← hk]; cases xs2 <;> rfl
  · have hM := fM_of (fixedFld_field h hm)
    have hform : fForm w = 3 := fixedFld_field h h0
    simp only [execRow, hs]
    rw [if_pos ⟨hform, by rw [srcVd, hM]⟩]

theorem exec_vstq (maxPhys : Nat) (fresh : Nat → VReg) {r : Row} (hr : r ∈ allRows) {w : BitVec 32}
    (h : r.matches w = true) {T : CTy} {strip pi : Bool} (hs : r.sem = .vstq T strip pi) (s : Arch) :
    (T.bits ≤ 32 ∧ Form (memInst r w T false true strip true pi) .stride) ∧
    execRow maxPhys fresh r w s = some (do
      let m ← (memInst r w T false true strip true pi).vstq maxPhys (memState s)
      .ok (false, memBack s m)) := by
  have hok := List.all_eq_true.1 allRows_memOk r hr
  simp only [memRowOk, hs, Bool.and_eq_true, beq_iff_eq, decide_eq_true_eq] at hok
  obtain ⟨⟨h0, hm⟩, hT⟩ := hok
  refine ⟨⟨hT, rfl, rfl, rfl⟩, ?_⟩
  have hM := fM_of (fixedFld_field h hm)
  have hform : fForm w = 3 := fixedFld_field h h0
  simp only [execRow, hs]
  rw [if_pos ⟨hform, by rw [srcVd, hM]⟩]

theorem exec_vdup (maxPhys : Nat) (fresh : Nat → VReg) {r : Row} (hr : r ∈ allRows) {w : BitVec 32}
    (h : r.matches w = true) {T : CTy} {strip : Bool} (hs : r.sem = .vdup T strip) (s : Arch) :
    T.bits ≤ 32 ∧
    execRow maxPhys fresh r w s = some (do
      let v ← vdup T strip (fVd w) (numOpsOf strip) (xs2 w s) s.v
      .ok (false, { s with v := v })) := by
  have hok := List.all_eq_true.1 allRows_memOk r hr
  simp only [memRowOk, hs, Bool.and_eq_true, beq_iff_eq, decide_eq_true_eq] at hok
  obtain ⟨⟨⟨⟨⟨h0, hm⟩, hf⟩, hp⟩, hT⟩, hsrc⟩ := hok
  refine ⟨hT, ?_⟩
  have hM := fM_of (fixedFld_field h hm)
  have hform : fForm w = 3 := fixedFld_field h h0
  have hv : SrcOpd.scalarVal s (source r w 0) = .ok (xs2 w s) := by
    simp only [source, hsrc, srcOpd, srcVs2, hform, xs2]
    by_cases h0 : fVs2 w = 0 <;> simp [h0, SrcOpd.scalarVal]
  simp only [execRow, hs]
  rw [hv, Outcome.ok_bind, dst_len7 (fixedFld_field h hf) hM hp]

/-- Value of a scalar source register of the base formats. -/
def xr (s : Arch) (n : Nat) : BitVec 32 := if n = 0 then 0 else s.x n

theorem scalarVal_rs (s : Arch) (n : Nat) : SrcOpd.scalarVal s (some (srcRs n)) = .ok (xr s n) := by
  unfold srcRs xr
  by_cases h : n = 0 <;> simp [h, SrcOpd.scalarVal]

theorem exec_getvl (maxPhys : Nat) (fresh : Nat → VReg) {r : Row} (hr : r ∈ allRows) {w : BitVec 32}
    {T : CTy} {strip b1 b2 : Bool} (hs : r.sem = .getvl T strip b1 b2) (s : Arch) :
    execRow maxPhys fresh r w s = some (Outcome.ok (false, ({ s with
      x := writeX s.x (fRd w) (getVl T strip (if b1 then some (xr s (fRs1 w)) else none)
        (if b2 then some (xr s (fRs2 w)) else none)) } : Arch))) := by
  have hok := List.all_eq_true.1 allRows_memOk r hr
  simp only [memRowOk, hs, Bool.and_eq_true, beq_iff_eq, Bool.or_eq_true, Bool.not_eq_true'] at hok
  obtain ⟨h1, h2⟩ := hok
  simp only [execRow, hs]
  have e1 : (if b1 = true then Option.some <$> SrcOpd.scalarVal s (source r w 0) else Outcome.ok none) =
      .ok (if b1 then some (xr s (fRs1 w)) else none) := by
    cases b1
    · rfl
    · have : r.src[0]? = some .rs1 := by simpa using h1
      simp only [source, this, if_true]
      show Option.some <$> SrcOpd.scalarVal s (some (srcRs (fRs1 w))) = _
      rw [scalarVal_rs]; rfl
  have e2 : (if b2 = true then Option.some <$> SrcOpd.scalarVal s (source r w 1) else Outcome.ok none) =
      .ok (if b2 then some (xr s (fRs2 w)) else none) := by
    cases b2
    · rfl
    · have : r.src[1]? = some .rs2 := by simpa using h2
      simp only [source, this, if_true]
      show Option.some <$> SrcOpd.scalarVal s (some (srcRs (fRs2 w))) = _
      rw [scalarVal_rs]; rfl
  cases b1 <;> cases b2 <;> simp only [if_true, Bool.false_eq_true, if_false] at e1 e2 ⊢ <;>
    (try rw [e1]) <;> (try rw [Outcome.ok_bind]) <;> (try rw [e2]) <;> rfl

theorem exec_vcget (maxPhys : Nat) (fresh : Nat → VReg) {r : Row} (hr : r ∈ allRows) {w : BitVec 32}
    (hs : r.sem = .vcget) (s : Arch) :
    execRow maxPhys fresh r w s = some (do
      let p ← vcget (fVd w) 8 s.v s.acc
      .ok (false, { s with v := p.1, acc := p.2 })) := by
  have hok := List.all_eq_true.1 allRows_memOk r hr
  simp only [memRowOk, hs] at hok
  have : dstVdLen r w = 8 := by simp [dstVdLen, isWidenDst, hok, numOpsOf]
  simp only [execRow, hs, this]

theorem field_sub (w : BitVec 32) : field w 0 2 = field w 0 3 % 4 ∧ field w 2 3 = field w 0 3 / 4 + 2 * field w 3 2 := by
  simp only [field_nat]
  generalize w.toNat = x
  omega

theorem exec_aconv (maxPhys : Nat) (fresh : Nat → VReg) {r : Row} (hr : r ∈ allRows) {w : BitVec 32}
    (h : r.matches w = true) (hs : r.sem = .aconv) (s : Arch) :
    ∃ n, 8 ≤ n ∧ execRow maxPhys fresh r w s = some (do
      let p ← vconv (xs2 w s) (fVs1 w) n (fVs3 w) 8 s.v s.acc
      .ok (p.1, { s with acc := p.2 })) := by
  have hok := List.all_eq_true.1 allRows_memOk r hr
  simp only [memRowOk, hs, Bool.and_eq_true, beq_iff_eq, Bool.not_eq_true'] at hok
  obtain ⟨⟨⟨⟨ha, hd⟩, hsrc⟩, h0⟩, h3⟩ := hok
  have e0 : field w 0 3 = 5 := fixedFld_field h h0
  have e3 : field w 3 2 = 0 := fixedFld_field h h3
  have hform : fForm w = 1 := by rw [fForm, (field_sub w).1, e0]
  have hf1 : fFunc1 w = 1 := by rw [fFunc1, (field_sub w).2, e0, e3]
  refine ⟨numOpsOf (fM w || r.isAdwinit) * 8, ?_, ?_⟩
  · unfold numOpsOf; split <;> omega
  · simp only [execRow, hs]
    have g1 : SrcOpd.group (source r w 0) = .ok (fVs1 w, numOpsOf (fM w || r.isAdwinit) * 8) := by
      simp [source, hsrc, srcOpd, srcVs1, hform, hd, src1Factor, src1Bits, hf1, ha, SrcOpd.group]
    have g2 : SrcOpd.scalarVal s (source r w 1) = .ok (xs2 w s) := by
      simp only [source, hsrc, srcOpd, srcVs2, hform, ha, xs2]
      by_cases h0 : fVs2 w = 0 <;> simp [h0, SrcOpd.scalarVal, srcOpd, srcVs2, hform, ha]
    have g3 : SrcOpd.group (source r w 2) = .ok (fVs3 w, 8) := by
      simp [source, hsrc, srcOpd, srcVs3, ha, SrcOpd.group]
    rw [g1, Outcome.ok_bind, g2, Outcome.ok_bind, g3, Outcome.ok_bind]

theorem exec_dwconv (maxPhys : Nat) (fresh : Nat → VReg) {r : Row} (hr : r ∈ allRows) {w : BitVec 32}
    (h : r.matches w = true) {wr : Bool} (hs : r.sem = .dwconv wr) (s : Arch) :
    execRow maxPhys fresh r w s = some (do
      let p ← vdwconv wr (xr s (fRs2 w)) (fVs1 w) 9 (fVs3 w) 4 (fVd w) 4 s.v s.dw
      .ok (p.1, { s with v := p.2.1, dw := p.2.2 })) := by
  have hok := List.all_eq_true.1 allRows_memOk r hr
  simp only [memRowOk, hs, Bool.and_eq_true, beq_iff_eq, Bool.not_eq_true'] at hok
  obtain ⟨⟨⟨⟨⟨⟨hd, ha⟩, hv⟩, hsrc⟩, h0⟩, h3⟩, hwr⟩ := hok
  have e0 : field w 0 3 = 5 := fixedFld_field h h0
  have e3 : field w 3 2 = 2 := fixedFld_field h h3
  have hform : fForm w = 1 := by rw [fForm, (field_sub w).1, e0]
  have hf1 : fFunc1 w = 5 := by rw [fFunc1, (field_sub w).2, e0, e3]
  simp only [execRow, hs]
  have g1 : SrcOpd.group (source r w 0) = .ok (fVs1 w, 9) := by
    simp [source, hsrc, srcOpd, srcVs1, hform, hd, SrcOpd.group]
  have g2 : SrcOpd.scalarVal s (source r w 1) = .ok (xr s (fRs2 w)) := by
    have : source r w 1 = some (srcRs (fRs2 w)) := by simp [source, hsrc, srcOpd]
    rw [this, scalarVal_rs]
  have g3 : SrcOpd.group (source r w 2) = .ok (fVs3 w, 4) := by
    simp [source, hsrc, srcOpd, srcVs3, ha, SrcOpd.group]
  rw [g1, Outcome.ok_bind, g2, Outcome.ok_bind, g3, Outcome.ok_bind]
  have hw : isWidenDst r w = false := by simp [isWidenDst, widenBits, hf1, hv]
  cases wr
  · rfl
  · rw [show dstVdLen r w = 4 by simp [dstVdLen, hw, hwr, numOpsOf]]

/-- The encoding of `acset`, `actr` and `adwinit` used by the assembler: `func1 = 1`, `form = 2`. -/
def AccForm (w : BitVec 32) : Prop := fFunc1 w = 1 ∧ fForm w = 2

theorem exec_acset (maxPhys : Nat) (fresh : Nat → VReg) {r : Row} (hr : r ∈ allRows) {w : BitVec 32}
    (h : r.matches w = true) (hf : AccForm w) {t : Bool} (hs : r.sem = .acset t) (s : Arch) :
    ∃ n, 8 ≤ n ∧ execRow maxPhys fresh r w s = some (do
      let a ← acset t (fVs1 w) n s.v s.acc
      .ok (false, { s with acc := a })) := by
  have hok := List.all_eq_true.1 allRows_memOk r hr
  simp only [memRowOk, hs, Bool.and_eq_true, beq_iff_eq, Bool.not_eq_true'] at hok
  obtain ⟨⟨⟨ha, hd⟩, hsrc⟩, hm⟩ := hok
  refine ⟨numOpsOf (fM w || r.isAdwinit) * 8, ?_, ?_⟩
  · unfold numOpsOf; split <;> omega
  · simp only [execRow, hs]
    have g1 : SrcOpd.group (source r w 0) = .ok (fVs1 w, numOpsOf (fM w || r.isAdwinit) * 8) := by
      simp [source, hsrc, srcOpd, srcVs1, hf.2, hd, src1Factor, src1Bits, hf.1, ha, SrcOpd.group]
    rw [g1, Outcome.ok_bind]

theorem exec_adwinit (maxPhys : Nat) (fresh : Nat → VReg) {r : Row} (hr : r ∈ allRows) {w : BitVec 32}
    (hf : AccForm w) (hs : r.sem = .adwinit) (s : Arch) :
    ∃ n, 4 ≤ n ∧ execRow maxPhys fresh r w s = some (do
      let p ← adwinit (fVs1 w) 4 (fVd w) n fresh s.v s.dw
      .ok (false, { s with v := p.1, dw := p.2 })) := by
  have hok := List.all_eq_true.1 allRows_memOk r hr
  simp only [memRowOk, hs, Bool.and_eq_true, beq_iff_eq, Bool.not_eq_true'] at hok
  obtain ⟨⟨⟨⟨⟨⟨ha, hd⟩, hac⟩, hco⟩, hv⟩, hsrc⟩, hm⟩ := hok
  refine ⟨dstVdLen r w, ?_, ?_⟩
  · simp only [dstVdLen, ha, Bool.or_true, Bool.true_or]
    split <;> simp [numOpsOf]
  · simp only [execRow, hs]
    have g1 : SrcOpd.group (source r w 0) = .ok (fVs1 w, 4) := by
      simp [source, hsrc, srcOpd, srcVs1, hf.2, hd, src1Factor, src1Bits, hf.1, ha, hac, hco, numOpsOf, SrcOpd.group]
    rw [g1, Outcome.ok_bind]

end Verif.Proofs
