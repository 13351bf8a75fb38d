import Verif.Proofs.Footprint
import Verif.Proofs.Kernel
import Verif.Props.Decode
import Verif.Props.Footprint
import Verif.Spec.Words

/-!
# C100: from the word to the result, for the instructions that are not lane-wise

The operands are read off the word (`Spec.bitsAt`); C60 says which instruction a word is, C37 that it completes.
-/

namespace Verif.Props
open Verif Verif.Model Verif.Proofs

/-- The address step of an instruction, read off the word. -/
theorem addrStep_of (r : Row) (w : BitVec 32) (T : CTy) (len stride strip xs2 pi : Bool) (hf : fForm w = 3)
    (hx : (formOf len stride xs2).isSome = true) (maxPhys rows : Nat) (s : Arch) (x : Nat → BitVec 32)
    (h : ∀ q, x q =
      if (memInst r w T len stride strip xs2 pi).postInc = true ∧ q = (memInst r w T len stride strip xs2 pi).rs1 ∧ q ≠ 0 then
        BitVec.ofNat 32 ((access (memInst r w T len stride strip xs2 pi) maxPhys (memState s)).base +
          if 0 < (access (memInst r w T len stride strip xs2 pi) maxPhys (memState s)).count then
            (Spec.incOf len stride xs2).bytes (access (memInst r w T len stride strip xs2 pi) maxPhys (memState s)).count
              (T.bits / 8) (access (memInst r w T len stride strip xs2 pi) maxPhys (memState s)).regs rows
              (arg2 (memInst r w T len stride strip xs2 pi) (memState s)) else 0)
      else (memState s).x q) :
    Spec.AddrStep (Spec.accessOf maxPhys T len stride strip w s.x) (Spec.incOf len stride xs2) rows pi w s.x fun n => x (n + 1) := by
  intro q
  show x (q + 1) = _
  rw [h (q + 1), access_of r w T len stride strip xs2 pi hf hx]
  have e0 : fVs1 w = Spec.bitsAt w 14 6 := field_eq ..
  have e1 := fVs1_half w
  have hrs : (q + 1 = (memInst r w T len stride strip xs2 pi).rs1 ∧ q + 1 ≠ 0) ↔ Spec.bitsAt w 14 6 ≠ 0 ∧ q = Spec.bitsAt w 15 5 := by
    show (q + 1 = scalarIdx (srcVs1 r w) ∧ _) ↔ _
    rw [srcVs1, if_pos hf, ← e0, ← e1]
    by_cases h0 : fVs1 w = 0
    · rw [if_pos h0]; simp [scalarIdx, h0]
    · rw [if_neg h0]; simp [scalarIdx, h0]
  have hpi : (memInst r w T len stride strip xs2 pi).postInc = pi := rfl
  rw [hpi]
  simp only [hrs]
  have harg : (Spec.incOf len stride xs2).bytes (Spec.accessOf maxPhys T len stride strip w s.x).count (T.bits / 8)
      (Spec.accessOf maxPhys T len stride strip w s.x).regs rows (arg2 (memInst r w T len stride strip xs2 pi) (memState s)) =
      (Spec.incOf len stride xs2).bytes (Spec.accessOf maxPhys T len stride strip w s.x).count (T.bits / 8)
      (Spec.accessOf maxPhys T len stride strip w s.x).regs rows (Spec.argScalar w s.x).toNat := by
    cases xs2
    · cases len <;> cases stride <;> first | rfl | exact absurd hx (by decide)
    · congr 1
      show (readX (memState s).x (scalarIdx (srcVs2 r w))).toNat = _
      rw [srcVs2, if_pos (.inr (.inl hf)), Spec.argScalar, ← show fVs2 w = Spec.bitsAt w 20 6 from field_eq .., ← fVs2_mod]
      by_cases h0 : fVs2 w = 0
      · rw [if_pos h0, if_pos h0]; rfl
      · rw [if_neg h0, if_neg h0]; rfl
  rw [harg]
  rfl

theorem form_inc {r : Row} {w : BitVec 32} {T : CTy} {len stride strip xs2 pi : Bool} {k : Spec.PostInc}
    (h : Form (memInst r w T len stride strip xs2 pi) k) : k = Spec.incOf len stride xs2 := by
  rw [← form_kind h]
  unfold incKind Spec.incOf memInst
  cases len <;> cases stride <;> cases xs2 <;> rfl

/-- C100: a load fills its registers with the elements in memory, and with zeros from the count on. -/
theorem C100_vld (maxPhys : Nat) (fresh : Nat → VReg) (r : Row) (hr : r ∈ allRows) (w : BitVec 32) (hw : r.matches w = true)
    (T : CTy) (len stride strip xs2 pi : Bool) (hs : r.sem = .vld T len stride strip xs2 pi) (s : Arch) :
    ∃ s', execRow maxPhys fresh r w s = some (.ok (false, s')) ∧ s'.mem = s.mem ∧ s'.acc = s.acc ∧ s'.dw = s.dw ∧
      (∀ e < (Spec.accessOf maxPhys T len stride strip w s.x).cap, Spec.groupNat T.bits s'.v (Spec.bitsAt w 6 6) e =
        if e < (Spec.accessOf maxPhys T len stride strip w s.x).count then
          Spec.loadLE (T.bits / 8) s.mem ((Spec.accessOf maxPhys T len stride strip w s.x).addr (Spec.lanes T.bits) e) else 0) ∧
      Spec.Frame (Spec.bitsAt w 6 6) (if strip then 4 else 1) s.v s'.v ∧
      Spec.AddrStep (Spec.accessOf maxPhys T len stride strip w s.x) (Spec.incOf len stride xs2) 1 pi w s.x s'.x := by
  obtain ⟨⟨hT, k, hk⟩, he⟩ := exec_vld maxPhys fresh hr hw hs s
  have hok := List.all_eq_true.1 allRows_memOk r hr
  simp only [memRowOk, hs, Bool.and_eq_true, beq_iff_eq] at hok
  have hf : fForm w = 3 := fixedFld_field hw hok.1.1.1.1.1
  have ha := access_of r w T len stride strip xs2 pi hf hok.2 maxPhys s
  obtain ⟨m, h1, h2, h3, h4, h5⟩ := vld_run _ k hk maxPhys (memState s)
  rw [h1, Outcome.ok_bind] at he
  have e6 : (memInst r w T len stride strip xs2 pi).vd = Spec.bitsAt w 6 6 := field_eq ..
  refine ⟨_, he, h2, rfl, rfl, ?_, ?_, ?_⟩
  · rw [ha, e6] at h3; exact h3
  · rw [e6] at h4; exact h4
  · rw [form_inc hk] at h5
    exact addrStep_of r w T len stride strip xs2 pi hf hok.2 maxPhys 1 s m.x h5

/-- C100: a store writes the elements of its registers. -/
theorem C100_vst (maxPhys : Nat) (fresh : Nat → VReg) (r : Row) (hr : r ∈ allRows) (w : BitVec 32) (hw : r.matches w = true)
    (T : CTy) (len stride strip xs2 pi : Bool) (hs : r.sem = .vst T len stride strip xs2 pi) (s : Arch) :
    ∃ s', execRow maxPhys fresh r w s = some (.ok (false, s')) ∧ s'.v = s.v ∧ s'.acc = s.acc ∧ s'.dw = s.dw ∧
      Spec.Stores (Spec.accessOf maxPhys T len stride strip w s.x).count (T.bits / 8)
        ((Spec.accessOf maxPhys T len stride strip w s.x).addr (Spec.lanes T.bits)) (Spec.groupNat T.bits s.v (Spec.bitsAt w 6 6))
        s.mem s'.mem ∧
      Spec.AddrStep (Spec.accessOf maxPhys T len stride strip w s.x) (Spec.incOf len stride xs2) 1 pi w s.x s'.x := by
  obtain ⟨⟨hT, k, hk⟩, he⟩ := exec_vst maxPhys fresh hr hw hs s
  have hok := List.all_eq_true.1 allRows_memOk r hr
  simp only [memRowOk, hs, Bool.and_eq_true, beq_iff_eq] at hok
  have hf : fForm w = 3 := fixedFld_field hw hok.1.1.1
  have ha := access_of r w T len stride strip xs2 pi hf hok.2 maxPhys s
  obtain ⟨m, h1, h2, h3, h5⟩ := vst_run _ false hT k hk maxPhys (memState s)
  rw [show VMemInst.vst _ _ _ = _ from h1, Outcome.ok_bind] at he
  have e6 : (memInst r w T len stride strip xs2 pi).vd = Spec.bitsAt w 6 6 := field_eq ..
  refine ⟨_, he, h2, rfl, rfl, ?_, ?_⟩
  · rw [ha, e6] at h3; exact h3
  · rw [form_inc hk] at h5
    exact addrStep_of r w T len stride strip xs2 pi hf hok.2 maxPhys 1 s m.x h5

/-- C100: a quad store writes the quarters of its registers, one stride apart. -/
theorem C100_vstq (maxPhys : Nat) (fresh : Nat → VReg) (r : Row) (hr : r ∈ allRows) (w : BitVec 32) (hw : r.matches w = true)
    (T : CTy) (strip pi : Bool) (hs : r.sem = .vstq T strip pi) (s : Arch) :
    ∃ s', execRow maxPhys fresh r w s = some (.ok (false, s')) ∧ s'.v = s.v ∧ s'.acc = s.acc ∧ s'.dw = s.dw ∧
      Spec.Stores (Spec.accessOf maxPhys T false true strip w s.x).count (T.bits / 8)
        ((Spec.accessOf maxPhys T false true strip w s.x).addr (Spec.lanes T.bits / 4)) (Spec.groupNat T.bits s.v (Spec.bitsAt w 6 6))
        s.mem s'.mem ∧
      Spec.AddrStep (Spec.accessOf maxPhys T false true strip w s.x) .stride 4 pi w s.x s'.x := by
  obtain ⟨⟨hT, hk⟩, he⟩ := exec_vstq maxPhys fresh hr hw hs s
  have hok := List.all_eq_true.1 allRows_memOk r hr
  simp only [memRowOk, hs, Bool.and_eq_true, beq_iff_eq] at hok
  have hf : fForm w = 3 := fixedFld_field hw hok.1.1
  have ha := access_of r w T false true strip true pi hf rfl maxPhys s
  obtain ⟨m, h1, h2, h3, h5⟩ := vst_run _ true hT _ hk maxPhys (memState s)
  have h1 : (memInst r w T false true strip true pi).vstq maxPhys (memState s) = .ok m := h1
  rw [h1, Outcome.ok_bind] at he
  have e6 : (memInst r w T false true strip true pi).vd = Spec.bitsAt w 6 6 := field_eq ..
  refine ⟨_, he, h2, rfl, rfl, ?_, ?_⟩
  · rw [ha, e6] at h3; exact h3
  · exact addrStep_of r w T false true strip true pi hf rfl maxPhys 4 s m.x h5

/-- C100: `vdup` writes the scalar of the second source field to every lane. -/
theorem C100_vdup (maxPhys : Nat) (fresh : Nat → VReg) (r : Row) (hr : r ∈ allRows) (w : BitVec 32) (hw : r.matches w = true)
    (T : CTy) (strip : Bool) (hs : r.sem = .vdup T strip) (s : Arch) :
    ∃ v', execRow maxPhys fresh r w s = some (.ok (false, { s with v := v' })) ∧
      (∀ k < (if strip then 4 else 1), ∀ e < Spec.lanes T.bits,
        Spec.lane T.signed T.bits (v' (Spec.bitsAt w 6 6 + k)) e = Spec.scalarElem T.signed T.bits (Spec.argScalar w s.x)) ∧
      Spec.Frame (Spec.bitsAt w 6 6) (if strip then 4 else 1) s.v v' := by
  obtain ⟨hT, he⟩ := exec_vdup maxPhys fresh hr hw hs s
  have ex : xs2 w s = Spec.argScalar w s.x := by
    rw [xs2, Spec.argScalar, fVs2_mod, show fVs2 w = Spec.bitsAt w 20 6 from field_eq ..]
  have e6 : fVd w = Spec.bitsAt w 6 6 := field_eq ..
  obtain ⟨v', h1, h2⟩ := C30_vdup T hT strip (Spec.bitsAt w 6 6) (Spec.argScalar w s.x) s.v
  have hno : numOpsOf strip = if strip then 4 else 1 := by cases strip <;> rfl
  rw [ex, e6, hno, h1, Outcome.ok_bind] at he
  exact ⟨v', he, h2⟩

/-- C100: `getvl` and `getmaxvl` write to the register `rd` the largest number that exceeds neither the capacity nor a scalar
named by the word. -/
theorem C100_getvl (maxPhys : Nat) (fresh : Nat → VReg) (r : Row) (hr : r ∈ allRows) (w : BitVec 32)
    (T : CTy) (strip b1 b2 : Bool) (hs : r.sem = .getvl T strip b1 b2) (s : Arch) :
    ∃ (x' : Nat → BitVec 32) (vl : BitVec 32), execRow maxPhys fresh r w s = some (.ok (false, { s with x := x' })) ∧
      (∀ q, x' q = if q = Spec.bitsAt w 7 5 ∧ q ≠ 0 then vl else s.x q) ∧
      ∀ m, m ≤ vl.toNat ↔ m ≤ (if strip then 4 else 1) * Spec.lanes T.bits ∧
        (b1 = true → m ≤ (if Spec.bitsAt w 15 5 = 0 then 0 else s.x (Spec.bitsAt w 15 5)).toNat) ∧
        (b2 = true → m ≤ (if Spec.bitsAt w 20 5 = 0 then 0 else s.x (Spec.bitsAt w 20 5)).toNat) := by
  refine ⟨_, getVl T strip (if b1 = true then some (xr s (fRs1 w)) else none) (if b2 = true then some (xr s (fRs2 w)) else none),
    exec_getvl maxPhys fresh hr hs s, fun q => ?_, fun m => ?_⟩
  · rw [show fRd w = Spec.bitsAt w 7 5 from field_eq ..]
    unfold writeX
    by_cases h : q = Spec.bitsAt w 7 5
    · subst h; simp
    · rw [if_neg (fun h' => h h'.1), if_neg (fun h' => h h'.1)]
  · rw [C29_getvl, show fRs1 w = Spec.bitsAt w 15 5 from field_eq .., show fRs2 w = Spec.bitsAt w 20 5 from field_eq ..]
    unfold xr
    cases b1 <;> cases b2 <;> simp

/-- C100: `vcget` moves the accumulator to eight registers and clears it. -/
theorem C100_vcget (maxPhys : Nat) (fresh : Nat → VReg) (r : Row) (hr : r ∈ allRows) (w : BitVec 32) (hs : r.sem = .vcget) (s : Arch) :
    ∃ v' acc', execRow maxPhys fresh r w s = some (.ok (false, { s with v := v', acc := acc' })) ∧
      (∀ k < 8, ∀ e < 8, (v' (Spec.bitsAt w 6 6 + k)).extractLsb' (e * 32) 32 = s.acc k e) ∧
      (∀ i < 8, ∀ c < 8, acc' i c = 0) ∧ Spec.Frame (Spec.bitsAt w 6 6) 8 s.v v' := by
  have he := exec_vcget maxPhys fresh hr (w := w) hs s
  rw [show fVd w = Spec.bitsAt w 6 6 from field_eq ..] at he
  obtain ⟨v', acc', h1, h2⟩ := C33_vcget (Spec.bitsAt w 6 6) s.v s.acc
  rw [h1, Outcome.ok_bind] at he
  exact ⟨v', acc', he, h2⟩

/-- C100: `acset` (`actr` with `t`) copies eight registers to the accumulator, in the encoding with `func1` 1 and `form` 2. -/
theorem C100_acset (maxPhys : Nat) (fresh : Nat → VReg) (r : Row) (hr : r ∈ allRows) (w : BitVec 32) (hw : r.matches w = true)
    (hf : Spec.bitsAt w 2 3 = 1 ∧ Spec.bitsAt w 0 2 = 2) (t : Bool) (hs : r.sem = .acset t) (s : Arch) :
    ∃ acc', execRow maxPhys fresh r w s = some (.ok (false, { s with acc := acc' })) ∧
      ∀ i < 8, ∀ c < 8, acc' i c = if t then (s.v (Spec.bitsAt w 14 6 + c)).extractLsb' (i * 32) 32
        else (s.v (Spec.bitsAt w 14 6 + i)).extractLsb' (c * 32) 32 := by
  obtain ⟨n, hn, he⟩ := exec_acset maxPhys fresh hr hw ⟨(field_eq ..).trans hf.1, (field_eq ..).trans hf.2⟩ hs s
  rw [acset_len _ _ _ hn, show fVs1 w = Spec.bitsAt w 14 6 from field_eq ..] at he
  obtain ⟨acc', h1, h2⟩ := C33_acset t (Spec.bitsAt w 14 6) s.v s.acc
  rw [h1, Outcome.ok_bind] at he
  exact ⟨acc', he, h2⟩

/-- The registers of `adwinit` are multiples of four, so that no destination register is a later source register. -/
theorem adwinit_apart (r : Row) (hr : r ∈ allRows) (w : BitVec 32) (hw : r.matches w = true) (hs : r.sem = .adwinit) :
    ∀ j i, j < i → i < 4 → Spec.bitsAt w 6 6 + j ≠ Spec.bitsAt w 14 6 + i := by
  have h : (allRows.all fun r => !(r.sem == .adwinit) || (fixedFld r 14 2 == some 0 && fixedFld r 6 2 == some 0)) = true := by
    decide +kernel
  have h := List.all_eq_true.1 h r hr
  simp only [hs, beq_self_eq_true, Bool.not_true, Bool.false_or, Bool.and_eq_true, beq_iff_eq] at h
  have h1 := (field_eq ..).symm.trans (fixedFld_field hw h.1)
  have h2 := (field_eq ..).symm.trans (fixedFld_field hw h.2)
  simp only [Spec.bitsAt] at h1 h2 ⊢
  omega

/-- C100: `adwinit` copies four registers to the accumulator of the depthwise convolutions, in the same encoding (any other:
`C101_adwinit`). -/
theorem C100_adwinit (maxPhys : Nat) (fresh : Nat → VReg) (r : Row) (hr : r ∈ allRows) (w : BitVec 32)
    (hw : r.matches w = true) (hf : Spec.bitsAt w 2 3 = 1 ∧ Spec.bitsAt w 0 2 = 2) (hs : r.sem = .adwinit) (s : Arch) :
    ∃ v' dw', execRow maxPhys fresh r w s = some (.ok (false, { s with v := v', dw := dw' })) ∧
      (∀ k < 4, ∀ e < 8, dw' (8 * k + e) = some ((s.v (Spec.bitsAt w 14 6 + k)).extractLsb' (e * 32) 32)) ∧
      (∀ k < 4, ∀ b < 32, (v' (Spec.bitsAt w 6 6 + k)).extractLsb' (b * 8) 8 =
        (if b < 8 then s.v (Spec.bitsAt w 14 6 + k) else fresh k).extractLsb' (b * 8) 8) ∧
      Spec.Frame (Spec.bitsAt w 6 6) 4 s.v v' := by
  obtain ⟨n, hn, he⟩ := exec_adwinit maxPhys fresh hr ⟨(field_eq ..).trans hf.1, (field_eq ..).trans hf.2⟩ hs s
  rw [adwinit_len _ _ _ hn, show fVs1 w = Spec.bitsAt w 14 6 from field_eq .., show fVd w = Spec.bitsAt w 6 6 from field_eq ..] at he
  obtain ⟨v', dw', h1, h2⟩ := adwinit_run (Spec.bitsAt w 14 6) (Spec.bitsAt w 6 6)
    (adwinit_apart r hr w hw hs) fresh s.v s.dw
  rw [h1, Outcome.ok_bind] at he
  exact ⟨v', dw', he, h2⟩

/-- C100: `aconv` with a legal command in the scalar of the second source field accumulates the products; with another it
raises the illegal-instruction trap and changes nothing. -/
theorem C100_aconv (maxPhys : Nat) (fresh : Nat → VReg) (r : Row) (hr : r ∈ allRows) (w : BitVec 32) (hw : r.matches w = true)
    (hs : r.sem = .aconv) (s : Arch) :
    (¬ ConvLegal (Spec.argScalar w s.x) → execRow maxPhys fresh r w s = some (.ok (true, s))) ∧
    (ConvLegal (Spec.argScalar w s.x) → ∃ acc', execRow maxPhys fresh r w s = some (.ok (false, { s with acc := acc' })) ∧
      ∀ i < 8, ∀ c < 8, acc' (Spec.cellRow i c) (Spec.cellCol i c) = s.acc (Spec.cellRow i c) (Spec.cellCol i c) +
        BitVec.ofInt 32 (Spec.convDot (decide (Spec.bitsAt (Spec.argScalar w s.x) 21 1 = 1)) (decide (Spec.bitsAt (Spec.argScalar w s.x) 31 1 = 1))
          (Spec.sbitsAt (Spec.argScalar w s.x) 12 9) (Spec.sbitsAt (Spec.argScalar w s.x) 22 9) (Spec.bitsAt (Spec.argScalar w s.x) 2 5)
          (Spec.bitsAt (Spec.argScalar w s.x) 7 5 + 1 - Spec.bitsAt (Spec.argScalar w s.x) 2 5)
          (fun i => s.v (Spec.bitsAt w 14 6 + i)) (fun k => s.v (Spec.bitsAt w 26 6 + k)) i c)) := by
  obtain ⟨n, hn, he⟩ := exec_aconv maxPhys fresh hr hw hs s
  have ex : xs2 w s = Spec.argScalar w s.x := by
    rw [xs2, Spec.argScalar, fVs2_mod, show fVs2 w = Spec.bitsAt w 20 6 from field_eq ..]
  rw [ex, show fVs1 w = Spec.bitsAt w 14 6 from field_eq .., show fVs3 w = Spec.bitsAt w 26 6 from field_eq ..] at he
  refine ⟨fun h => ?_, fun h => ?_⟩
  · rw [C32_aconv _ h, Outcome.ok_bind] at he
    exact he
  · obtain ⟨acc', h1, h2⟩ := C31_aconv _ h (Spec.bitsAt w 14 6) (Spec.bitsAt w 26 6) s.v s.acc
    rw [vconv_len _ _ _ _ hn, h1, Outcome.ok_bind] at he
    exact ⟨acc', he, h2⟩

/-- The command of a depthwise convolution. -/
def dwCmd (w : BitVec 32) (x : Nat → BitVec 32) : BitVec 32 := if Spec.bitsAt w 20 5 = 0 then 0 else x (Spec.bitsAt w 20 5)

/-- C100: a depthwise convolution adds three products to each of its 32 sums, and `vdwconv` writes the sums to four registers.
Missing: an uninitialised accumulator and sums that overflow, which are undefined (C34). -/
theorem C100_dwconv_partial (maxPhys : Nat) (fresh : Nat → VReg) (r : Row) (hr : r ∈ allRows) (w : BitVec 32) (hw : r.matches w = true)
    (wr : Bool) (hs : r.sem = .dwconv wr) (s : Arch) (c : Nat → BitVec 32) (hc : ∀ q < 32, s.dw q = some (c q))
    (h : Spec.bitsAt (dwCmd w s.x) 2 2 ≠ 3)
    (hfit : ∀ i < 32, ∀ n ≤ 3,
      -2 ^ 31 ≤ (c (dwCell i)).toInt + Spec.sum n (dwProduct (dwCmd w s.x) (Spec.bitsAt w 14 6) (Spec.bitsAt w 26 6) s.v i) ∧
      (c (dwCell i)).toInt + Spec.sum n (dwProduct (dwCmd w s.x) (Spec.bitsAt w 14 6) (Spec.bitsAt w 26 6) s.v i) < 2 ^ 31) :
    ∃ (v' : VRF) (dw' : DwAcc) (c' : Nat → BitVec 32), execRow maxPhys fresh r w s = some (.ok (false, { s with v := v', dw := dw' })) ∧
      (∀ q < 32, dw' q = some (c' q)) ∧
      (∀ i < 32, (c' (dwCell i)).toInt =
        (c (dwCell i)).toInt + Spec.sum 3 (dwProduct (dwCmd w s.x) (Spec.bitsAt w 14 6) (Spec.bitsAt w 26 6) s.v i)) ∧
      (wr = false → v' = s.v) ∧
      (wr = true → (∀ k < 4, ∀ e < 8, (v' (Spec.bitsAt w 6 6 + k)).extractLsb' (e * 32) 32 = c' (8 * k + e)) ∧
        Spec.Frame (Spec.bitsAt w 6 6) 4 s.v v') := by
  have he := C37_dwconv maxPhys fresh r hr w hw wr hs s
  obtain ⟨v', dw', c', h1, h2⟩ := C34_dwconv_partial wr (dwCmd w s.x) h (Spec.bitsAt w 14 6) (Spec.bitsAt w 26 6) (Spec.bitsAt w 6 6)
    s.v s.dw c hc hfit
  rw [show (if Spec.bitsAt w 20 5 = 0 then 0 else s.x (Spec.bitsAt w 20 5)) = dwCmd w s.x from rfl, h1, Outcome.ok_bind] at he
  exact ⟨v', dw', c', he, h2⟩

/-- `vst.b.lp.xx v8, x1, x2` with the address 0x80000100 in x1 and 3 in x2 stores three bytes and leaves 0x103 in x1. -/
example : ∃ r ∈ allRows, r.name = [.vst, .b, .lp, .xx] ∧ r.matches 0x3420821f#32 = true ∧
    ∃ s', execRow 0x3fffff (fun _ => 0) r 0x3420821f#32 footArch = some (.ok (false, s')) ∧ s'.x 1 = 0x103 ∧ s'.x 2 = 3 := by
  have h1 : (allRows.any fun r => r.name == [.vst, .b, .lp, .xx] && r.matches 0x3420821f#32 &&
    r.sem == .vst .i8 true false false true true) = true := by decide +kernel
  simp only [List.any_eq_true, Bool.and_eq_true, beq_iff_eq] at h1
  obtain ⟨r, hr, ⟨hn, hm⟩, hs⟩ := h1
  obtain ⟨s', e, -, -, -, -, hx⟩ := C100_vst 0x3fffff (fun _ => 0) r hr _ hm _ _ _ _ _ _ hs footArch
  have ha : Spec.accessOf 0x3fffff .i8 true false false 0x3420821f#32 footArch.x = ⟨8, 1, some 3, none, 0x100⟩ := by
    simp only [Spec.accessOf, Spec.argScalar, Spec.addrScalar, Spec.bitsAt, Spec.effBase, footArch]; rfl
  rw [ha] at hx
  refine ⟨r, hr, hn, hm, s', e, ?_, ?_⟩
  · rw [hx 1, if_pos (by decide)]; rfl
  · rw [hx 2, if_neg (by decide)]; rfl

/-- Every kind of instruction of the theorems exists: words that match a row of each. -/
example : (allRows.any fun r => r.name == [.getvl, .b, .x, .m] && match r.sem with | .getvl .. => true | _ => false) = true ∧
    (allRows.any fun r => match r.sem with | .vdup .. => true | _ => false) = true ∧
    (allRows.any fun r => match r.sem with | .vstq .. => true | _ => false) = true ∧
    (allRows.any fun r => match r.sem with | .vcget => true | _ => false) = true ∧
    (allRows.any fun r => r.sem == .acset true) = true ∧ (allRows.any fun r => r.sem == .acset false) = true ∧
    (allRows.any fun r => r.sem == .aconv) = true ∧ (allRows.any fun r => r.sem == .adwinit) = true ∧
    (allRows.any fun r => r.sem == .dwconv true) = true ∧ (allRows.any fun r => r.sem == .dwconv false) = true := by
  decide +kernel

end Verif.Props
