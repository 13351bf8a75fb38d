import Verif.Model.VecElem
import Verif.Proofs.CIntSimp

/-! Element-level correctness of the additive, comparison and saturating operations. -/

namespace Verif.Proofs
open Verif Verif.Model CVal

/-- Evaluate the operation at each type and finish by linear arithmetic. -/
macro "elem_solve" T:ident : tactic => `(tactic|
  (cty_cases $T <;> range_split <;> cop_eval <;> first
    | done
    | (apply ok_mk_inj; omega)
    | (simp only [decide_eq_true_eq, Bool.and_eq_true, Bool.or_eq_true, Bool.not_eq_true']
       repeat' split
       all_goals (apply ok_mk_inj; omega))))

theorem vAdd_ok (T : CTy) (hb : T.bits ≤ 32) (a b : Int)
    (ha : T.InRange a) (hb' : T.InRange b) :
    vAdd T ⟨T, a⟩ ⟨T, b⟩ = .ok ⟨T, Spec.wrap T.signed T.bits (a + b)⟩ := by
  rw [wrap_spec]; unfold vAdd; elem_solve T

theorem vSub_ok (T : CTy) (hb : T.bits ≤ 32) (a b : Int)
    (ha : T.InRange a) (hb' : T.InRange b) :
    vSub T ⟨T, a⟩ ⟨T, b⟩ = .ok ⟨T, Spec.wrap T.signed T.bits (a - b)⟩ := by
  rw [wrap_spec]; unfold vSub; elem_solve T

theorem vRSub_ok (T : CTy) (hb : T.bits ≤ 32) (a b : Int)
    (ha : T.InRange a) (hb' : T.InRange b) :
    vRSub T ⟨T, a⟩ ⟨T, b⟩ = .ok ⟨T, Spec.wrap T.signed T.bits (b - a)⟩ := by
  rw [wrap_spec]; unfold vRSub; elem_solve T

theorem vAdd3_ok (T : CTy) (hb : T.bits ≤ 32) (d a b : Int)
    (hd : T.InRange d) (ha : T.InRange a) (hb' : T.InRange b) :
    vAdd3 T ⟨T, d⟩ ⟨T, a⟩ ⟨T, b⟩ = .ok ⟨T, Spec.wrap T.signed T.bits (d + a + b)⟩ := by
  rw [wrap_spec]; unfold vAdd3; elem_solve T

/-- Comparison in the promoted type is comparison of the mathematical values. -/
theorem usual_same_wrap (T : CTy) (a : Int) (ha : T.InRange a) : (CTy.usual T T).wrap a = a := by
  apply wrap_of_inRange; cases T <;> simp [cint] at * <;> omega

theorem vEq_ok (T : CTy) (a b : Int) (ha : T.InRange a) (hb : T.InRange b) :
    vEq T ⟨T, a⟩ ⟨T, b⟩ = .ok ⟨T, Spec.truth (a = b)⟩ := by
  simp [vEq, eq, ofBool, usual_same_wrap, ha, hb, Spec.truth]
theorem vNe_ok (T : CTy) (a b : Int) (ha : T.InRange a) (hb : T.InRange b) :
    vNe T ⟨T, a⟩ ⟨T, b⟩ = .ok ⟨T, Spec.truth (a ≠ b)⟩ := by
  simp [vNe, ne, eq, ofBool, usual_same_wrap, ha, hb, Spec.truth]
theorem vLt_ok (T : CTy) (a b : Int) (ha : T.InRange a) (hb : T.InRange b) :
    vLt T ⟨T, a⟩ ⟨T, b⟩ = .ok ⟨T, Spec.truth (a < b)⟩ := by
  simp [vLt, lt, ofBool, usual_same_wrap, ha, hb, Spec.truth]
theorem vLe_ok (T : CTy) (a b : Int) (ha : T.InRange a) (hb : T.InRange b) :
    vLe T ⟨T, a⟩ ⟨T, b⟩ = .ok ⟨T, Spec.truth (a ≤ b)⟩ := by
  simp [vLe, le, ofBool, usual_same_wrap, ha, hb, Spec.truth]
theorem vGt_ok (T : CTy) (a b : Int) (ha : T.InRange a) (hb : T.InRange b) :
    vGt T ⟨T, a⟩ ⟨T, b⟩ = .ok ⟨T, Spec.truth (a > b)⟩ := by
  simp [vGt, gt, lt, ofBool, usual_same_wrap, ha, hb, Spec.truth]
theorem vGe_ok (T : CTy) (a b : Int) (ha : T.InRange a) (hb : T.InRange b) :
    vGe T ⟨T, a⟩ ⟨T, b⟩ = .ok ⟨T, Spec.truth (a ≥ b)⟩ := by
  simp [vGe, ge, le, ofBool, usual_same_wrap, ha, hb, Spec.truth]

theorem vAbsd_ok (T : CTy) (hb : T.bits ≤ 32) (a b : Int)
    (ha : T.InRange a) (hb' : T.InRange b) :
    vAbsd T ⟨T, a⟩ ⟨T, b⟩ = .ok ⟨T.toU, Spec.absd a b⟩ := by
  unfold vAbsd Spec.absd
  by_cases h : a > b
  · have hgt : gt (⟨T, a⟩ : CVal) ⟨T, b⟩ = true := by
      simp [gt, lt, usual_same_wrap, ha, hb']; omega
    simp only [hgt, if_true]; elem_solve T
  · have hgt : gt (⟨T, a⟩ : CVal) ⟨T, b⟩ = false := by
      simp [gt, lt, usual_same_wrap, ha, hb']; omega
    simp only [hgt, Bool.false_eq_true, if_false]; elem_solve T

theorem vMax_ok (T : CTy) (a b : Int) (ha : T.InRange a) (hb : T.InRange b) :
    vMax T ⟨T, a⟩ ⟨T, b⟩ = .ok ⟨T, max a b⟩ := by
  simp only [vMax, lt, usual_same_wrap T a ha, usual_same_wrap T b hb]
  by_cases h : a < b
  · simp [h]; omega
  · simp [h]; omega
theorem vMin_ok (T : CTy) (a b : Int) (ha : T.InRange a) (hb : T.InRange b) :
    vMin T ⟨T, a⟩ ⟨T, b⟩ = .ok ⟨T, min a b⟩ := by
  simp only [vMin, lt, usual_same_wrap T a ha, usual_same_wrap T b hb]
  by_cases h : b < a
  · simp [h]; omega
  · simp [h]; omega

theorem vAddsu_ok (T : CTy) (hs : T.signed = false) (hb : T.bits ≤ 32) (a b : Int)
    (ha : T.InRange a) (hb' : T.InRange b) :
    vAddsu T ⟨T, a⟩ ⟨T, b⟩ = .ok ⟨T, Spec.sat false T.bits (a + b)⟩ := by
  rw [← hs, sat_spec]; unfold vAddsu; elem_solve T

theorem vSubsu_ok (T : CTy) (hs : T.signed = false) (hb : T.bits ≤ 32) (a b : Int)
    (ha : T.InRange a) (hb' : T.InRange b) :
    vSubsu T ⟨T, a⟩ ⟨T, b⟩ = .ok ⟨T, Spec.sat false T.bits (a - b)⟩ := by
  rw [← hs, sat_spec]; unfold vSubsu; elem_solve T

/-- `x < 0` / `x >= 0` on an `int` value. -/
theorem lt_zero_i32 (c : Int) (h : CTy.i32.InRange c) : lt ⟨.i32, c⟩ (lit 0) = decide (c < 0) := by
  simp [cint] at *; omega
theorem ge_zero_i32 (c : Int) (h : CTy.i32.InRange c) : ge ⟨.i32, c⟩ (lit 0) = decide (¬ c < 0) := by
  simp [cint] at *; omega

theorem vAdds_ok (T : CTy) (hs : T.signed = true) (hb : T.bits ≤ 32) (a b : Int)
    (ha : T.InRange a) (hb' : T.InRange b) :
    vAdds T ⟨T, a⟩ ⟨T, b⟩ = .ok ⟨T, Spec.sat true T.bits (a + b)⟩ := by
  have hsum : (add (cast T.toU ⟨T, a⟩) (cast T.toU ⟨T, b⟩) >>= fun s =>
      Outcome.ok (cast T (cast T.toU s))) = .ok ⟨T, T.wrap (a + b)⟩ := by
    elem_solve T
  obtain ⟨c, hc1, hc2, hc3⟩ := lxor_signed T hs hb a b ha hb'
  obtain ⟨d, hd1, hd2, hd3⟩ := lxor_signed T hs hb (T.wrap (a + b)) a (wrap_inRange T _) ha
  have hgt : gt (⟨T, a⟩ : CVal) (lit 0) = decide (0 < a) := by
    cases T <;> simp [cint] at * <;> omega
  have key : vAdds T ⟨T, a⟩ ⟨T, b⟩ = (add (cast T.toU ⟨T, a⟩) (cast T.toU ⟨T, b⟩) >>= fun s =>
      Outcome.ok (cast T (cast T.toU s))) >>= fun sum =>
      if ge (lxor ⟨T, a⟩ ⟨T, b⟩) (lit 0) && lt (lxor sum ⟨T, a⟩) (lit 0) then
        .ok (if gt ⟨T, a⟩ (lit 0) then tmax T else tmin T) else .ok sum := by
    rw [bind_assoc]; rfl
  rw [key, hsum, Outcome.ok_bind, hc1, hd1, hgt, lt_zero_i32 _ hd2, ge_zero_i32 _ hc2, ← hs, sat_spec]
  simp only [hc3, hd3]
  clear hc1 hd1 hc3 hd3 hgt key hsum
  elem_solve T

theorem vSubs_ok (T : CTy) (hs : T.signed = true) (hb : T.bits ≤ 32) (a b : Int)
    (ha : T.InRange a) (hb' : T.InRange b) :
    vSubs T ⟨T, a⟩ ⟨T, b⟩ = .ok ⟨T, Spec.sat true T.bits (a - b)⟩ := by
  have hsum : (sub (cast T.toU ⟨T, a⟩) (cast T.toU ⟨T, b⟩) >>= fun s =>
      Outcome.ok (cast T (cast T.toU s))) = .ok ⟨T, T.wrap (a - b)⟩ := by
    elem_solve T
  obtain ⟨c, hc1, hc2, hc3⟩ := lxor_signed T hs hb a b ha hb'
  obtain ⟨d, hd1, hd2, hd3⟩ := lxor_signed T hs hb (T.wrap (a - b)) b (wrap_inRange T _) hb'
  have hlt : lt (⟨T, b⟩ : CVal) (lit 0) = decide (b < 0) := by
    cases T <;> simp [cint] at * <;> omega
  have key : vSubs T ⟨T, a⟩ ⟨T, b⟩ = (sub (cast T.toU ⟨T, a⟩) (cast T.toU ⟨T, b⟩) >>= fun s =>
      Outcome.ok (cast T (cast T.toU s))) >>= fun sub =>
      if lt (lxor ⟨T, a⟩ ⟨T, b⟩) (lit 0) && ge (lxor sub ⟨T, b⟩) (lit 0) then
        .ok (if lt ⟨T, b⟩ (lit 0) then tmax T else tmin T) else .ok sub := by
    rw [bind_assoc]; rfl
  rw [key, hsum, Outcome.ok_bind, hc1, hd1, hlt, lt_zero_i32 _ hc2, ge_zero_i32 _ hd2, ← hs, sat_spec]
  simp only [hc3, hd3]
  clear hc1 hd1 hc3 hd3 hlt key hsum
  elem_solve T

/-- Double-width type of the same signedness. -/
theorem vAddw_ok (T : CTy) (hb : T.bits ≤ 16) (a b : Int) (ha : T.InRange a) (hb' : T.InRange b) :
    vAddw T.wide ⟨T, a⟩ ⟨T, b⟩ = .ok ⟨T.wide, a + b⟩ := by
  unfold vAddw; elem_solve T

theorem vSubw_ok (T : CTy) (hb : T.bits ≤ 16) (a b : Int) (ha : T.InRange a) (hb' : T.InRange b) :
    vSubw T.wide ⟨T, a⟩ ⟨T, b⟩ = .ok ⟨T.wide, Spec.wrap T.signed (2 * T.bits) (a - b)⟩ := by
  have h := wrap_spec T.wide (a - b)
  have e1 : T.wide.signed = T.signed := by cases T <;> rfl
  have e2 : T.wide.bits = 2 * T.bits := by cases T <;> simp [cint] at *
  rw [e1, e2] at h; rw [h]
  unfold vSubw; elem_solve T

theorem vAcc_ok (T : CTy) (hb : T.bits ≤ 16) (a b : Int) (ha : T.wide.InRange a) (hb' : T.InRange b) :
    vAcc T.wide ⟨T.wide, a⟩ ⟨T, b⟩ = .ok ⟨T.wide, Spec.wrap T.signed (2 * T.bits) (a + b)⟩ := by
  have h := wrap_spec T.wide (a + b)
  have e1 : T.wide.signed = T.signed := by cases T <;> rfl
  have e2 : T.wide.bits = 2 * T.bits := by cases T <;> simp [cint] at *
  rw [e1, e2] at h; rw [h]
  unfold vAcc; elem_solve T

theorem vHadd_ok (round : Bool) (T : CTy) (hb : T.bits ≤ 32) (a b : Int)
    (ha : T.InRange a) (hb' : T.InRange b) :
    vHadd round T ⟨T, a⟩ ⟨T, b⟩ =
      .ok ⟨T, Spec.wrap T.signed T.bits (Int.fdiv (a + b + if round then 1 else 0) 2)⟩ := by
  rw [wrap_spec, Int.fdiv_eq_ediv_of_nonneg _ (by omega)]
  unfold vHadd; elem_solve T

theorem vHsub_ok (round : Bool) (T : CTy) (hb : T.bits ≤ 32) (a b : Int)
    (ha : T.InRange a) (hb' : T.InRange b) :
    vHsub round T ⟨T, a⟩ ⟨T, b⟩ =
      .ok ⟨T, Spec.wrap T.signed T.bits (Int.fdiv (a - b + if round then 1 else 0) 2)⟩ := by
  rw [wrap_spec, Int.fdiv_eq_ediv_of_nonneg _ (by omega)]
  unfold vHsub; elem_solve T

end Verif.Proofs
