import Verif.Proofs.ElemShift

/-! Element-level correctness of the unsigned saturating shift and of the narrowing shift. -/

namespace Verif.Proofs
open Verif Verif.Model CVal

theorem cast_mk (T t : CTy) (x : Int) (h1 : T.lo ≤ x) (h2 : x ≤ T.hi) : CVal.cast T ⟨t, x⟩ = ⟨T, x⟩ := by
  rw [CVal.cast, wrap_of_inRange ⟨h1, h2⟩]

theorem wrap_toS (T : CTy) (b : Int) : T.toS.wrap b = Spec.wrap true T.bits b := by
  rw [show T.bits = T.toS.bits by cases T <;> rfl, show true = T.toS.signed by cases T <;> rfl, wrap_spec]

theorem shiftBoth_zero (round : Bool) (s : Int) : Spec.shiftBoth round s 0 = 0 := by
  unfold Spec.shiftBoth
  split
  · have := shiftRight_bounds round s.toNat 0
    simp at this; omega
  · simp

theorem vShiftU_ok (round : Bool) (T : CTy) (hs : T.signed = false) (hb : T.bits ≤ 32) (a b : Int)
    (ha : T.InRange a) (hub : ¬ (a ≠ 0 ∧ Spec.wrap true T.bits b = -2147483648)) :
    vShiftU round T ⟨T, a⟩ ⟨T, b⟩ =
      .ok ⟨T, Spec.sat false T.bits (Spec.shiftBoth round (Spec.wrap true T.bits b) a)⟩ := by
  rw [← hs, sat_spec]
  unfold vShiftU
  have hsh : CVal.cast .i32 (CVal.cast T.toS ⟨T, b⟩) = ⟨.i32, Spec.wrap true T.bits b⟩ := by
    rw [← wrap_toS]
    have := wrap_inRange T.toS b
    simp only [CVal.cast]
    generalize T.toS.wrap b = c at *
    cty_cases T <;> simp only [CTy.toS] at this <;> range_split <;> cop_eval
  have hsr : T.toS.InRange (Spec.wrap true T.bits b) := by rw [← wrap_toS]; exact wrap_inRange _ _
  rw [hsh]
  clear hsh
  generalize Spec.wrap true T.bits b = c at *
  have e1 : eq (⟨T, a⟩ : CVal) (lit 0) = decide (a = 0) := by
    cty_cases T <;> range_split <;> cop_eval
  have hsz : ((T.size : Int) * 8) = T.bits := by cases T <;> rfl
  simp only [ne, e1, hsz]
  by_cases h0 : a = 0
  · subst h0
    rw [shiftBoth_zero]
    simp only [decide_true, if_true]
    cty_cases T <;> rfl
  · rw [if_neg (by simpa using h0)]
    simp only [h0, decide_false, Bool.not_false, Bool.true_and]
    have ha0 : 0 < a := by
      have := ha.1
      have : T.lo = 0 := by cty_cases T <;> rfl
      omega
    have hgt : gt ⟨.i32, c⟩ (lit (T.bits : Int)) = decide ((T.bits : Int) < c) := by
      cty_cases T <;> simp only [CTy.toS] at hsr <;> range_split <;>
        simp only [CTy.bits, Int.cast_ofNat_Int] <;> cop_eval <;> rfl
    have hgt0 : gt ⟨.i32, c⟩ (lit 0) = decide (0 < c) := by
      cty_cases T <;> simp only [CTy.toS] at hsr <;> range_split <;> cop_eval
    have hlt : lt ⟨.i32, c⟩ (lit (-(T.bits : Int))) = decide (c < -(T.bits : Int)) := by
      cty_cases T <;> simp only [CTy.toS] at hsr <;> range_split <;>
        simp only [CTy.bits, Int.cast_ofNat_Int] <;> cop_eval <;> rfl
    have hhi : T.hi = 2 ^ T.bits - 1 := by cty_cases T <;> rfl
    have hlo : T.lo = 0 := by cty_cases T <;> rfl
    have hbits : 0 < T.bits := by cases T <;> decide
    have hshift : ∃ q, shiftU round T ⟨T, a⟩ ⟨.i32, c⟩ = .ok ⟨T.wide, q⟩ ∧ T.wide.InRange q ∧
        (-T.bits ≤ c → q = Spec.shiftBoth round c a) := by
      unfold shiftU
      simp only [hsz, hgt, hgt0]
      by_cases hbig : (T.bits : Int) < c
      · have hx : Spec.shiftBoth round c a = 0 := by
          unfold Spec.shiftBoth
          rw [if_pos (by omega), shiftRight_large round (T.bits + 1) c (by omega) (by omega)]
          · rw [if_neg (by omega)]
          · have : (0 : Int) < 2 ^ (T.bits + 1 - 1) := Int.pow_pos (by omega)
            omega
          · have := ha.2; simp; omega
        refine ⟨0, ?_, by cases T <;> decide, fun _ => hx.symm⟩
        rw [if_pos (by simpa using hbig)]
        cases T <;> rfl
      · rw [if_neg (by simpa using hbig)]
        by_cases hpos : 0 < c
        · have hx : Spec.shiftBoth round c a = Spec.shiftRight round c.toNat a := by
            unfold Spec.shiftBoth; rw [if_pos (by omega)]
          have hbd := shiftRight_bounds round c.toNat a
          refine ⟨_, ?_, inRange_wide_of_le T hb a _ ha hbd.1 hbd.2, fun _ => hx.symm⟩
          rw [if_pos (by simpa using hpos)]
          exact shiftRightW_ok round T .u64 .i32 (Or.inr rfl) hb ⟨rfl, by decide⟩ a c ha (fun _ => hpos)
            (by omega) (by omega) (by rw [inRange_i32]; omega)
        · have hmin : -2147483648 < c := by
            cty_cases T <;> simp only [CTy.toS] at hsr <;> range_split <;> omega
          obtain ⟨q1, q2⟩ := shiftLeftU_ok T hs hb a c ha hmin (by omega)
          refine ⟨_, ?_, q2, fun hw => ?_⟩
          · rw [if_neg (by simpa using hpos)]; exact q1
          · unfold Spec.shiftBoth
            rw [min_eq_left (by omega)]
            split
            · have hb0 : c = 0 := by omega
              subst hb0; simp [Spec.shiftRight]
            · rfl
    obtain ⟨q, hq1, hq2, hq3⟩ := hshift
    rw [hq1, Outcome.ok_bind, hlt]
    have hg : gt ⟨T.wide, q⟩ (tmax T) = decide (T.hi < q) := by
      cty_cases T <;> range_split <;> cop_eval
    have hnn : 0 ≤ Spec.shiftBoth round c a := by
      unfold Spec.shiftBoth
      split
      · have := (shiftRight_bounds round c.toNat a).1; omega
      · have : (0 : Int) < 2 ^ (-c).toNat := Int.pow_pos (by omega)
        nlinarith
    have hbig : c < -T.bits → T.hi < Spec.shiftBoth round c a := fun h => by
      have hP : (2 : Int) ^ T.bits ≤ 2 ^ (-c).toNat := pow_le_pow_right₀ (by omega) (by omega)
      unfold Spec.shiftBoth
      rw [if_neg (by omega), hhi]
      have hPp : (0 : Int) < 2 ^ (-c).toNat := Int.pow_pos (by omega)
      have : 1 * (2 : Int) ^ (-c).toNat ≤ a * 2 ^ (-c).toNat := Int.mul_le_mul_of_nonneg_right (by omega) hPp.le
      omega
    have hhi0 : 0 ≤ T.hi := by cases T <;> decide
    rw [hg]
    simp only [Bool.or_eq_true, decide_eq_true_eq, tmax]
    by_cases h1 : c < -T.bits
    · have := hbig h1
      rw [if_pos (Or.inl h1)]; apply ok_mk_inj; omega
    · have h2 := hq3 (by omega)
      subst h2
      by_cases h3 : T.hi < Spec.shiftBoth round c a
      · rw [if_pos (Or.inr h3)]; apply ok_mk_inj; omega
      · rw [if_neg (by omega), cast_mk _ _ _ (by omega) (by omega)]; apply ok_mk_inj; omega

/-- All of `CoralNPUVShiftHelper`: the shift amount is the second lane read as signed. -/
theorem vShift_ok (round : Bool) (T : CTy) (hb : T.bits ≤ 32) (a b : Int)
    (ha : T.InRange a) (hb' : T.InRange b)
    (hub : ¬ (a ≠ 0 ∧ Spec.wrap true T.bits b = -2147483648)) :
    vShift round T ⟨T, a⟩ ⟨T, b⟩ =
      .ok ⟨T, Spec.sat T.signed T.bits (Spec.shiftBoth round (Spec.wrap true T.bits b) a)⟩ := by
  unfold vShift
  by_cases hs : T.signed = true
  · rw [if_pos hs, hs]
    have e : Spec.wrap true T.bits b = b := by
      rw [← hs, wrap_spec]; exact wrap_of_inRange hb'
    rw [e] at hub ⊢
    exact vShiftS_ok round T hs hb a b ha hb' hub
  · rw [if_neg hs]
    have hs : T.signed = false := by simpa using hs
    rw [hs]
    exact vShiftU_ok round T hs hb a b ha hub

/-- The excluded case is undefined behaviour. -/
theorem vShift_ub (round : Bool) (T : CTy) (hb : T.bits = 32) (a b : Int) (ha : T.InRange a)
    (ha0 : a ≠ 0) (h : Spec.wrap true T.bits b = -2147483648) :
    vShift round T ⟨T, a⟩ ⟨T, b⟩ = .ub := by
  rw [← wrap_toS] at h
  have hleft : leftAmount T ⟨.i32, -2147483648⟩ = .ub := by
    cases T <;> first | (exfalso; simp [CTy.bits] at hb; done) | rfl
  have e1 : eq (⟨T, a⟩ : CVal) (lit 0) = decide (a = 0) := by
    have : T.bits ≤ 32 := by omega
    cty_cases T <;> range_split <;> cop_eval
  cases T <;> first | (exfalso; simp [CTy.bits] at hb; done) | skip
  · have hs : CVal.cast .i32 (⟨.i32, b⟩ : CVal) = ⟨.i32, -2147483648⟩ := by rw [CVal.cast, ← h]; rfl
    simp only [vShift, vShiftS, CTy.signed, if_true, hs, e1, ha0, decide_false, Bool.false_eq_true, if_false]
    have : shiftS round .i32 ⟨.i32, a⟩ ⟨.i32, -2147483648⟩ = .ub := by
      have c1 : ge (⟨.i32, -2147483648⟩ : CVal) (lit ((CTy.size .i32 : Int) * 8)) = false := by decide
      have c2 : gt (⟨.i32, -2147483648⟩ : CVal) (lit 0) = false := by decide
      simp only [shiftS, c1, c2, Bool.and_false, Bool.false_eq_true, if_false, shiftLeftS, hleft, Outcome.ub_bind]
    rw [this]; rfl
  · have hs : CVal.cast .i32 (CVal.cast .i32 (⟨.u32, b⟩ : CVal)) = ⟨.i32, -2147483648⟩ := by
      simp only [CVal.cast]; rw [show CTy.wrap .i32 b = -2147483648 from h]; rfl
    simp only [vShift, vShiftU, CTy.signed, CTy.toS, hs, e1, ha0, decide_false, Bool.false_eq_true, if_false]
    have : shiftU round .u32 ⟨.u32, a⟩ ⟨.i32, -2147483648⟩ = .ub := by
      have c1 : gt (⟨.i32, -2147483648⟩ : CVal) (lit ((CTy.size .u32 : Int) * 8)) = false := by decide
      have c2 : gt (⟨.i32, -2147483648⟩ : CVal) (lit 0) = false := by decide
      simp only [shiftU, c1, c2, Bool.false_eq_true, if_false, shiftLeftU, hleft, Outcome.ub_bind]
    rw [this]; rfl

/-- The narrowing shift: source twice or four times as wide as the destination. -/
theorem vSrans_ok (round : Bool) (Td Ts : CTy) (hsg : Td.signed = Ts.signed) (hd : Td.bits ≤ 16)
    (hT : Ts.bits = 2 * Td.bits ∨ Ts.bits = 4 * Td.bits) (hTs : Ts.bits ≤ 32)
    (a b : Int) (ha : Ts.InRange a) :
    vSrans round Td Ts ⟨Ts, a⟩ ⟨Td, b⟩ =
      .ok ⟨Td, Spec.sat Td.signed Td.bits (Spec.shiftRight round (b % Ts.bits).toNat a)⟩ := by
  have hm0 : (0 : Int) ≤ b % Ts.bits := Int.emod_nonneg _ (by cases Ts <;> decide)
  have hm1 : b % Ts.bits < Ts.bits := Int.emod_lt_of_pos _ (by cases Ts <;> decide)
  have hland : CVal.cast Td (land ⟨Td, b⟩ (lit ((Ts.size : Int) * 8 - 1))) = ⟨Td, b % Ts.bits⟩ := by
    have h : land ⟨Td, b⟩ (lit ((Ts.size : Int) * 8 - 1)) = ⟨.i32, b % Ts.bits⟩ := by
      cases Td <;> first | (exfalso; simp [CTy.bits] at hd; done) | skip
      all_goals
        cty_cases Ts
      all_goals
        first
          | exact land_mask _ _ _ 3 _ (by decide) (by decide)
          | exact land_mask _ _ _ 4 _ (by decide) (by decide)
          | exact land_mask _ _ _ 5 _ (by decide) (by decide)
    rw [h, CVal.cast]
    congr 1
    apply wrap_of_inRange
    generalize b % (Ts.bits : Int) = m at *
    have : m < 32 := by omega
    cases Td <;> range_split <;> omega
  have htd : SmallTy Td := by
    cases Td <;> first | (exfalso; simp [CTy.bits] at hd; done) | exact ⟨rfl, by decide⟩
  have hmr : Td.InRange (b % Ts.bits) := by
    generalize b % (Ts.bits : Int) = m at *
    have : m < 32 := by omega
    cases Td <;> range_split <;> omega
  unfold vSrans
  simp only [hland]
  generalize b % (Ts.bits : Int) = m at *
  have hne : ne ⟨Td, m⟩ (lit 0) = decide (m ≠ 0) := by
    cases Td <;> first | (exfalso; simp [CTy.bits] at hd; done) | skip
    all_goals range_split <;> cop_eval <;> simp
  rw [hne, shiftRightW_ok _ Ts .i64 Td (Or.inl rfl) hTs htd a m ha (by simp; omega) hm0 (by omega) hmr,
    Outcome.ok_bind]
  have hround : Spec.shiftRight (decide (m ≠ 0) && round) m.toNat a = Spec.shiftRight round m.toNat a := by
    unfold Spec.shiftRight
    by_cases h : m = 0
    · simp [h]
    · have : decide (m ≠ 0) = true := by simpa using h
      rw [this, Bool.true_and]
  rw [hround]
  have hbd := shiftRight_bounds round m.toNat a
  have hz : a = 0 → Spec.shiftRight round m.toNat a = 0 := fun h => by
    subst h; simp at hbd; omega
  have hqr := inRange_wide_of_le Ts hTs a _ ha hbd.1 hbd.2
  generalize Spec.shiftRight round m.toNat a = q at *
  have hl : lt ⟨Ts.wide, q⟩ (tmin Td) = decide (q < Td.lo) := by
    cases Td <;> first | (exfalso; simp [CTy.bits] at hd; done) | skip
    all_goals cty_cases Ts
    all_goals range_split <;> cop_eval
  have hg : gt ⟨Ts.wide, q⟩ (tmax Td) = decide (Td.hi < q) := by
    cases Td <;> first | (exfalso; simp [CTy.bits] at hd; done) | skip
    all_goals cty_cases Ts
    all_goals range_split <;> cop_eval
  have he : eq ⟨Ts, a⟩ (lit 0) = decide (a = 0) := by
    cty_cases Ts <;> range_split <;> cop_eval
  have hlohi : Td.lo ≤ 0 ∧ 0 ≤ Td.hi := by cases Td <;> decide
  rw [hl, hg, he, sat_spec]
  simp only [decide_eq_true_eq, tmin, tmax]
  split
  · apply ok_mk_inj; omega
  · split
    · apply ok_mk_inj; omega
    · split
      · rename_i h
        have := hz h
        rw [lit, cast_mk _ _ _ (by omega) (by omega)]; apply ok_mk_inj; omega
      · rw [cast_mk _ _ _ (by omega) (by omega)]; apply ok_mk_inj; omega

end Verif.Proofs
