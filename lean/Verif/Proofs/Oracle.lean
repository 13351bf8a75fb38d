import Verif.Spec.VecOracle
import Verif.Proofs.ElemArith
import Verif.Proofs.ElemMul
import Verif.Proofs.ElemBits
import Verif.Proofs.ElemShift2

/-! # The test's element oracles agree with the element functions of the implementation -/

namespace Verif.Proofs
open Verif Verif.Model CVal

theorem o_add (T : CTy) (hb : T.bits ≤ 32) (a b : Int) (ha : T.InRange a) (hb' : T.InRange b) :
    Spec.Oracle.add T ⟨T, a⟩ ⟨T, b⟩ = vAdd T ⟨T, a⟩ ⟨T, b⟩ := by
  rw [vAdd_ok T hb a b ha hb', wrap_spec]; unfold Spec.Oracle.add Spec.Oracle.ext; elem_solve T

theorem o_sub (T : CTy) (hb : T.bits ≤ 32) (a b : Int) (ha : T.InRange a) (hb' : T.InRange b) :
    Spec.Oracle.sub T ⟨T, a⟩ ⟨T, b⟩ = vSub T ⟨T, a⟩ ⟨T, b⟩ := by
  rw [vSub_ok T hb a b ha hb', wrap_spec]; unfold Spec.Oracle.sub Spec.Oracle.ext; elem_solve T

theorem o_rsub (T : CTy) (hb : T.bits ≤ 32) (a b : Int) (ha : T.InRange a) (hb' : T.InRange b) :
    Spec.Oracle.rsub T ⟨T, a⟩ ⟨T, b⟩ = vRSub T ⟨T, a⟩ ⟨T, b⟩ := by
  rw [vRSub_ok T hb a b ha hb', wrap_spec]; unfold Spec.Oracle.rsub Spec.Oracle.ext; elem_solve T

theorem o_add3 (T : CTy) (hb : T.bits ≤ 32) (d a b : Int) (hd : T.InRange d) (ha : T.InRange a) (hb' : T.InRange b) :
    Spec.Oracle.add3 T ⟨T, d⟩ ⟨T, a⟩ ⟨T, b⟩ = vAdd3 T ⟨T, d⟩ ⟨T, a⟩ ⟨T, b⟩ := by
  rw [vAdd3_ok T hb d a b hd ha hb', wrap_spec]; unfold Spec.Oracle.add3 Spec.Oracle.ext; elem_solve T

theorem o_absd (T : CTy) (hb : T.bits ≤ 32) (a b : Int) (ha : T.InRange a) (hb' : T.InRange b) :
    Spec.Oracle.absd T.toU ⟨T, a⟩ ⟨T, b⟩ = vAbsd T ⟨T, a⟩ ⟨T, b⟩ := by
  rw [vAbsd_ok T hb a b ha hb']; unfold Spec.Oracle.absd Spec.Oracle.ext Spec.absd
  have e : ∀ x, T.InRange x → CVal.cast .i64 (⟨T, x⟩ : CVal) = ⟨.i64, x⟩ := by
    intro x hx; cty_cases T <;> range_split <;> cop_eval
  rw [e a ha, e b hb']
  by_cases h : a > b
  · have hgt : CVal.gt (⟨.i64, a⟩ : CVal) ⟨.i64, b⟩ = true := by
      clear e; cty_cases T <;> range_split <;> cop_eval <;> simp <;> omega
    clear e
    simp only [hgt, if_true]; elem_solve T
  · have hgt : CVal.gt (⟨.i64, a⟩ : CVal) ⟨.i64, b⟩ = false := by
      clear e; cty_cases T <;> range_split <;> cop_eval <;> simp <;> omega
    clear e
    simp only [hgt, Bool.false_eq_true, if_false]; elem_solve T

theorem cast_self (T : CTy) (x : CVal) (h : x.ty = T) (hr : T.InRange x.v) : CVal.cast T x = x := by
  cases x; subst h; exact cast_mk _ _ _ hr.1 hr.2

theorem o_max (T : CTy) (a b : Int) (ha : T.InRange a) (hb' : T.InRange b) :
    Spec.Oracle.max T ⟨T, a⟩ ⟨T, b⟩ = vMax T ⟨T, a⟩ ⟨T, b⟩ := by
  unfold Spec.Oracle.max vMax Spec.Oracle.cmax
  split <;> rw [cast_self T _ rfl (by assumption)]

theorem o_min (T : CTy) (a b : Int) (ha : T.InRange a) (hb' : T.InRange b) :
    Spec.Oracle.min T ⟨T, a⟩ ⟨T, b⟩ = vMin T ⟨T, a⟩ ⟨T, b⟩ := by
  unfold Spec.Oracle.min vMin Spec.Oracle.cmin
  split <;> rw [cast_self T _ rfl (by assumption)]

theorem cmin_ok (W : CTy) (x y : Int) (hx : W.InRange x) (hy : W.InRange y) :
    Spec.Oracle.cmin ⟨W, x⟩ ⟨W, y⟩ = ⟨W, min x y⟩ := by
  unfold Spec.Oracle.cmin
  rw [lt_same W y x hy hx]
  by_cases h : y < x
  · rw [if_pos (by simpa using h), min_eq_right h.le]
  · rw [if_neg (by simpa using h), min_eq_left (by omega)]

theorem cmax_ok (W : CTy) (x y : Int) (hx : W.InRange x) (hy : W.InRange y) :
    Spec.Oracle.cmax ⟨W, x⟩ ⟨W, y⟩ = ⟨W, max x y⟩ := by
  unfold Spec.Oracle.cmax
  rw [lt_same W x y hx hy]
  by_cases h : x < y
  · rw [if_pos (by simpa using h), max_eq_right h.le]
  · rw [if_neg (by simpa using h), max_eq_left (by omega)]

theorem lim_i64 (T : CTy) (hb : T.bits ≤ 32) : CVal.cast .i64 (tmin T) = ⟨.i64, T.lo⟩ ∧
    CVal.cast .i64 (tmax T) = ⟨.i64, T.hi⟩ ∧ CTy.InRange .i64 T.lo ∧ CTy.InRange .i64 T.hi := by
  cty_cases T <;> decide

theorem hi_u64' (T : CTy) (hb : T.bits ≤ 32) : CVal.cast .u64 (tmax T) = ⟨.u64, T.hi⟩ ∧ CTy.InRange .u64 T.hi := by
  cty_cases T <;> decide

/-- Clamping in a wider type. -/
theorem clampS_ok (T : CTy) (hs : T.signed = true) (hb : T.bits ≤ 32) (x : Int) (hx : CTy.InRange .i64 x) :
    Spec.Oracle.clampS T ⟨.i64, x⟩ = ⟨T, Spec.sat true T.bits x⟩ := by
  rw [← hs, sat_spec]
  obtain ⟨h1, h2, h3, h4⟩ := lim_i64 T hb
  have hlh := lo_le_hi T
  have hm : CTy.InRange .i64 (max T.lo x) := by
    rw [inRange_i64] at *; omega
  unfold Spec.Oracle.clampS
  rw [h1, h2, cmax_ok _ _ _ h3 hx, cmin_ok _ _ _ hm h4, cast_mk _ _ _ (by omega) (by omega)]
  congr 1; omega

theorem o_adds (T : CTy) (hs : T.signed = true) (hb : T.bits ≤ 32) (a b : Int) (ha : T.InRange a) (hb' : T.InRange b) :
    Spec.Oracle.adds T ⟨T, a⟩ ⟨T, b⟩ = vAdds T ⟨T, a⟩ ⟨T, b⟩ := by
  rw [vAdds_ok T hs hb a b ha hb']
  have e : CVal.add (Spec.Oracle.ext ⟨T, a⟩) (Spec.Oracle.ext ⟨T, b⟩) = .ok ⟨.i64, a + b⟩ := by
    unfold Spec.Oracle.ext; elem_solve T
  unfold Spec.Oracle.adds
  rw [e, Outcome.ok_bind, clampS_ok T hs hb _ (by clear e; cty_cases T <;> range_split <;> omega)]

theorem o_subs (T : CTy) (hs : T.signed = true) (hb : T.bits ≤ 32) (a b : Int) (ha : T.InRange a) (hb' : T.InRange b) :
    Spec.Oracle.subs T ⟨T, a⟩ ⟨T, b⟩ = vSubs T ⟨T, a⟩ ⟨T, b⟩ := by
  rw [vSubs_ok T hs hb a b ha hb']
  have e : CVal.sub (Spec.Oracle.ext ⟨T, a⟩) (Spec.Oracle.ext ⟨T, b⟩) = .ok ⟨.i64, a - b⟩ := by
    unfold Spec.Oracle.ext; elem_solve T
  unfold Spec.Oracle.subs
  rw [e, Outcome.ok_bind, clampS_ok T hs hb _ (by clear e; cty_cases T <;> range_split <;> omega)]

theorem o_addsu (T : CTy) (hs : T.signed = false) (hb : T.bits ≤ 32) (a b : Int) (ha : T.InRange a) (hb' : T.InRange b) :
    Spec.Oracle.addsu T ⟨T, a⟩ ⟨T, b⟩ = vAddsu T ⟨T, a⟩ ⟨T, b⟩ := by
  rw [vAddsu_ok T hs hb a b ha hb', ← hs, sat_spec]
  have e : CVal.add (Spec.Oracle.uext ⟨T, a⟩) (Spec.Oracle.uext ⟨T, b⟩) = .ok ⟨.u64, a + b⟩ := by
    unfold Spec.Oracle.uext; elem_solve T
  obtain ⟨h1, h2⟩ := hi_u64' T hb
  have h3 : CTy.InRange .u64 (a + b) := by clear e h1 h2; cty_cases T <;> range_split <;> omega
  have h4 : T.lo = 0 := by clear e h1 h2; cases T <;> first | rfl | simp [CTy.signed] at hs
  have h5 := lo_le_hi T
  unfold Spec.Oracle.addsu
  rw [e, Outcome.ok_bind, h1, cmin_ok _ _ _ h2 h3]
  rw [inRange_u64] at h3
  rw [cast_mk _ _ _ (by omega) (by omega), max_eq_right (by omega)]

theorem o_subsu (T : CTy) (a b : CVal) : Spec.Oracle.subsu T a b = vSubsu T a b := rfl

theorem o_acc (T : CTy) (hb : T.bits ≤ 16) (a b : Int) (ha : T.wide.InRange a) (hb' : T.InRange b) :
    Spec.Oracle.acc T.wide ⟨T.wide, a⟩ ⟨T, b⟩ = vAcc T.wide ⟨T.wide, a⟩ ⟨T, b⟩ := by
  unfold vAcc Spec.Oracle.acc Spec.Oracle.ext; elem_solve T

theorem o_hadd (round : Bool) (T : CTy) (hb : T.bits ≤ 32) (a b : Int) (ha : T.InRange a) (hb' : T.InRange b) :
    Spec.Oracle.hadd round T ⟨T, a⟩ ⟨T, b⟩ = vHadd round T ⟨T, a⟩ ⟨T, b⟩ := by
  rw [vHadd_ok round T hb a b ha hb', wrap_spec, Int.fdiv_eq_ediv_of_nonneg _ (by omega)]
  cases round <;> unfold Spec.Oracle.hadd Spec.Oracle.plusOne Spec.Oracle.ext Spec.Oracle.uext <;> cty_cases T <;>
    simp only [CTy.signed, Bool.false_eq_true, if_false, if_true] <;> range_split <;> cop_eval <;> apply ok_mk_inj <;> omega

theorem o_hsub (round : Bool) (T : CTy) (hb : T.bits ≤ 32) (a b : Int) (ha : T.InRange a) (hb' : T.InRange b) :
    Spec.Oracle.hsub round T ⟨T, a⟩ ⟨T, b⟩ = vHsub round T ⟨T, a⟩ ⟨T, b⟩ := by
  rw [vHsub_ok round T hb a b ha hb', wrap_spec, Int.fdiv_eq_ediv_of_nonneg _ (by omega)]
  cases round <;> unfold Spec.Oracle.hsub Spec.Oracle.plusOne Spec.Oracle.ext Spec.Oracle.uext <;> cty_cases T <;>
    simp only [CTy.signed, Bool.false_eq_true, if_false, if_true] <;> range_split <;> cop_eval <;> apply ok_mk_inj <;> omega

end Verif.Proofs
