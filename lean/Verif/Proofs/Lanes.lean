import Verif.Model.VecFrame
import Verif.Spec.Vector
import Verif.Proofs.CIntLemmas
import Mathlib.Tactic.Ring
import Mathlib.Tactic.Linarith

/-! # Lanes of a register -/

namespace Verif.Proofs
open Verif Verif.Model CVal

theorem packLanes_testBit (w : Nat) (hw : 0 < w) : ∀ (l : List (BitVec w)) (k : Nat),
    (packLanes w l).testBit k = (l.getD (k / w) 0#w).getLsbD (k % w)
  | [], k => by simp [packLanes]
  | x :: xs, k => by
    rw [packLanes, Nat.testBit_or, Nat.testBit_shiftLeft]
    by_cases h : k < w
    · rw [Nat.div_eq_of_lt h, Nat.mod_eq_of_lt h]
      simp [Nat.not_le.2 h, BitVec.getLsbD]
    · have ih := packLanes_testBit w hw xs (k - w)
      have h1 : x.toNat.testBit k = false := by
        apply Nat.testBit_lt_two_pow
        exact lt_of_lt_of_le x.isLt (Nat.pow_le_pow_right (by omega) (by omega))
      have e : k = (k - w) + w := by omega
      rw [h1, ih]
      conv_rhs => rw [e]
      rw [Nat.add_div_right _ hw, Nat.add_mod_right]
      simp [Nat.not_lt.1 h]

theorem lanesOf_mul (T : CTy) : lanesOf T * T.bits = 256 := by cases T <;> rfl

theorem lanesOf_pos (T : CTy) : 0 < lanesOf T := by cases T <;> decide

theorem bits_pos (T : CTy) : 0 < T.bits := by cases T <;> decide

theorem lanesOf_eq (T : CTy) : lanesOf T = Spec.lanes T.bits := by cases T <;> rfl

theorem packReg_extract (T : CTy) (l : List CVal) (i : Nat) (hi : i < lanesOf T) (hl : i < l.length) :
    (packReg T l).extractLsb' (i * T.bits) T.bits = BitVec.ofInt T.bits l[i].v := by
  have hp := bits_pos T
  have hm := lanesOf_mul T
  apply BitVec.eq_of_getLsbD_eq
  intro k hk
  have h256 : i * T.bits + k < 256 := by
    have : (i + 1) * T.bits ≤ lanesOf T * T.bits := Nat.mul_le_mul_right _ hi
    rw [Nat.add_mul] at this; omega
  rw [BitVec.getLsbD_extractLsb', packReg, BitVec.getLsbD_ofNat, packLanes_testBit _ hp]
  have e1 : (i * T.bits + k) / T.bits = i := by
    rw [Nat.mul_comm, Nat.mul_add_div hp, Nat.div_eq_of_lt hk]; rfl
  have e2 : (i * T.bits + k) % T.bits = k := by
    rw [Nat.mul_comm, Nat.mul_add_mod, Nat.mod_eq_of_lt hk]
  simp [h256, hk, e1, e2, List.getD, hl]

/-- The value of a bit pattern is its specification value. -/
theorem ofBits_value (T : CTy) (x : BitVec T.bits) : ofBits T x = ⟨T, Spec.value T.signed T.bits x⟩ := by
  rw [ofBits]
  congr 1
  rw [← wrap_spec, Spec.wrap, Spec.value]
  cases T.signed
  · simp only [Bool.false_eq_true, if_false]
    have h := x.isLt
    exact Int.emod_eq_of_lt (by omega) (by exact_mod_cast h)
  · simp only [if_true]
    rw [BitVec.toInt_eq_toNat_bmod]

theorem regElt_lane (T : CTy) (r : VReg) (i : Nat) : regElt T r i = ⟨T, Spec.lane T.signed T.bits r i⟩ := by
  rw [regElt, ofBits_value, Spec.lane]

theorem value_inRange (T : CTy) (x : BitVec T.bits) : T.InRange (Spec.value T.signed T.bits x) := by
  have := ofBits_value T x
  rw [ofBits] at this
  have e : Spec.value T.signed T.bits x = T.wrap x.toNat := by
    injection this with _ h; exact h.symm
  rw [e]; exact wrap_inRange T _

theorem lane_inRange (T : CTy) (r : VReg) (i : Nat) : T.InRange (Spec.lane T.signed T.bits r i) :=
  value_inRange T _

theorem value_ofInt (T : CTy) (x : Int) (h : T.InRange x) : Spec.value T.signed T.bits (BitVec.ofInt T.bits x) = x := by
  have h2 := wrap_of_inRange h
  rw [← wrap_spec, Spec.wrap] at h2
  rw [Spec.value]
  cases hs : T.signed <;> rw [hs] at h2
  · simp only [Bool.false_eq_true, if_false, BitVec.toNat_ofInt] at *
    have h0 : 0 ≤ x % 2 ^ T.bits := Int.emod_nonneg _ (by positivity)
    have e : (x % ((2 ^ T.bits : Nat) : Int)) = x := by push_cast; exact h2
    rw [e]
    exact Int.toNat_of_nonneg (h2 ▸ h0)
  · simp only [if_true, BitVec.toInt_ofInt] at *
    rw [← h2]; push_cast; simp

theorem packReg_lane (T : CTy) (l : List CVal) (i : Nat) (hi : i < lanesOf T) (hl : i < l.length)
    (hr : T.InRange l[i].v) : Spec.lane T.signed T.bits (packReg T l) i = l[i].v := by
  rw [Spec.lane, packReg_extract T l i hi hl, value_ofInt T _ hr]

theorem scalar_elem (T : CTy) (hb : T.bits ≤ 32) (x : BitVec 32) :
    ofBits T x = ⟨T, Spec.scalarElem T.signed T.bits x⟩ := by
  rw [Spec.scalarElem, ← ofBits_value, ofBits, ofBits]
  congr 1
  rw [← wrap_spec, ← wrap_spec, Spec.wrap, Spec.wrap, BitVec.truncate_eq_setWidth, BitVec.toNat_setWidth]
  cases T.signed
  · simp
  · simp only [if_true]
    have := Int.emod_bmod (x.toNat : Int) (2 ^ T.bits)
    rw [← this]
    push_cast
    rfl

theorem scalarElem_inRange (T : CTy) (x : BitVec 32) : T.InRange (Spec.scalarElem T.signed T.bits x) :=
  value_inRange T _

/-- Reading a vector operand inside its group. -/
theorem readElt_vec (T : CTy) (rf : VRF) (b n k e i : Nat) (hi : i = k * lanesOf T + e) (he : e < lanesOf T)
    (hk : k < n) : readElt T rf (.vec b n) i = .ok ⟨T, Spec.lane T.signed T.bits (rf (b + k)) e⟩ := by
  have e1 : i / lanesOf T = k := by
    rw [hi, Nat.mul_comm, Nat.mul_add_div (lanesOf_pos T), Nat.div_eq_of_lt he]; rfl
  have e2 : i % lanesOf T = e := by
    rw [hi, Nat.mul_comm, Nat.mul_add_mod, Nat.mod_eq_of_lt he]
  simp only [readElt, e1, e2, hk, if_true, regElt_lane]

theorem readElt_scalar (T : CTy) (hb : T.bits ≤ 32) (rf : VRF) (x : BitVec 32) :
    readElt T rf (.scalar x) 0 = .ok ⟨T, Spec.scalarElem T.signed T.bits x⟩ := by
  simp only [readElt, if_true, scalar_elem T hb]

end Verif.Proofs
