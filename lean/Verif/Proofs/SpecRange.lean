import Verif.Proofs.ElemMul
import Verif.Proofs.ElemShift2
import Verif.Proofs.ElemBits
import Verif.Proofs.Seq

/-! # Specification values are representable -/

namespace Verif.Proofs
open Verif Verif.Model CVal

theorem specWrap_inRange (T : CTy) (x : Int) : T.InRange (Spec.wrap T.signed T.bits x) := by
  rw [wrap_spec]; exact wrap_inRange T x

theorem truth_inRange (T : CTy) (p : Prop) [Decidable p] : T.InRange (Spec.truth p) := by
  unfold Spec.truth; split <;> cases T <;> decide

theorem max_inRange (T : CTy) (a b : Int) (ha : T.InRange a) (hb : T.InRange b) : T.InRange (max a b) := by
  rcases le_total a b with h | h
  · rwa [max_eq_right h]
  · rwa [max_eq_left h]

theorem min_inRange (T : CTy) (a b : Int) (ha : T.InRange a) (hb : T.InRange b) : T.InRange (min a b) := by
  rcases le_total a b with h | h
  · rwa [min_eq_left h]
  · rwa [min_eq_right h]

theorem absd_inRange (T : CTy) (hb : T.bits ≤ 32) (a b : Int) (ha : T.InRange a) (hb' : T.InRange b) :
    T.toU.InRange (Spec.absd a b) := by
  unfold Spec.absd
  cty_cases T <;> range_split <;> simp only [CTy.toU, inRange_u8, inRange_u16, inRange_u32] <;> omega

theorem cast_inRange (T : CTy) (c : CVal) : T.InRange (CVal.cast T c).v := wrap_inRange T _

theorem mulh_inRange (round : Bool) (T : CTy) (hb : T.bits ≤ 32) (a b : Int) (ha : T.InRange a) (hb' : T.InRange b) :
    T.InRange (Int.fdiv (a * b + if round then 2 ^ (T.bits - 1) else 0) (2 ^ T.bits)) := by
  have h := vMulh_ok round T hb a b ha hb'
  have e : ∀ c, vMulh round T ⟨T, a⟩ ⟨T, b⟩ = .ok c → T.InRange c.v := by
    intro c hc
    unfold vMulh at hc
    simp only [bind, Outcome.bind] at hc
    repeat (split at hc <;> try contradiction)
    all_goals (injection hc with hc; rw [← hc]; exact cast_inRange T _)
  exact e _ h

theorem srx_inRange (T : CTy) (a : Int) (n : Nat) (ha : T.InRange a) : T.InRange (Int.fdiv a (2 ^ n)) := by
  have hp : (0 : Int) < 2 ^ n := by positivity
  rw [Int.fdiv_eq_ediv_of_nonneg _ hp.le]
  have h1 : (1 : Int) ≤ 2 ^ n := hp
  apply inRange_of_le T a _ ha
  · rcases le_total 0 a with h | h
    · rw [min_eq_right h]; exact Int.ediv_nonneg h hp.le
    · rw [min_eq_left h, Int.le_ediv_iff_mul_le hp]; nlinarith
  · rcases le_total 0 a with h | h
    · rw [max_eq_left h]; exact Int.ediv_le_self _ h
    · rw [max_eq_right h]; exact le_trans (Int.ediv_le_ediv hp h) (by simp)

end Verif.Proofs
