import Verif.Proofs.ElemShift2

/-! Element-level correctness of the multiplications and of the select. -/

namespace Verif.Proofs
open Verif Verif.Model CVal

/-- Bounds on a product of two lanes. -/
theorem mul_bounds (T : CTy) (a b : Int) (ha : T.InRange a) (hb : T.InRange b) :
    (T.signed = true → -(2 ^ (2 * T.bits - 2)) + 2 ^ (T.bits - 1) ≤ a * b ∧ a * b ≤ 2 ^ (2 * T.bits - 2)) ∧
    (T.signed = false → 0 ≤ a * b ∧ a * b ≤ (2 ^ T.bits - 1) * (2 ^ T.bits - 1)) := by
  have hs : ∀ M : Int, 1 ≤ M → -M ≤ a → a ≤ M - 1 → -M ≤ b → b ≤ M - 1 →
      -(M * M) + M ≤ a * b ∧ a * b ≤ M * M := by
    intro M hM h1 h2 h3 h4
    constructor
    · rcases lt_or_ge a 0 with h | h <;> rcases lt_or_ge b 0 with h' | h' <;> nlinarith
    · rcases lt_or_ge a 0 with h | h <;> rcases lt_or_ge b 0 with h' | h' <;> nlinarith
  have hu : ∀ M : Int, 0 ≤ a → a ≤ M → 0 ≤ b → b ≤ M → 0 ≤ a * b ∧ a * b ≤ M * M := by
    intro M h1 h2 h3 h4
    exact ⟨Int.mul_nonneg h1 h3, by nlinarith⟩
  refine ⟨fun hsg => ?_, fun hsg => ?_⟩
  · have hbits : 0 < T.bits := by cases T <;> decide
    have e : (2 : Int) ^ (2 * T.bits - 2) = 2 ^ (T.bits - 1) * 2 ^ (T.bits - 1) := by
      rw [← pow_add]; congr 1; omega
    have hlo : T.lo = -(2 ^ (T.bits - 1)) := by cases T <;> first | rfl | simp [CTy.signed] at hsg
    have hhi : T.hi = 2 ^ (T.bits - 1) - 1 := by cases T <;> first | rfl | simp [CTy.signed] at hsg
    have h1 := ha.1; have h2 := ha.2; have h3 := hb.1; have h4 := hb.2
    rw [e]
    exact hs (2 ^ (T.bits - 1)) (Int.pow_pos (by omega)) (by omega) (by omega) (by omega) (by omega)
  · have hlo : T.lo = 0 := by cases T <;> first | rfl | simp [CTy.signed] at hsg
    have hhi : T.hi = 2 ^ T.bits - 1 := by cases T <;> first | rfl | simp [CTy.signed] at hsg
    have h1 := ha.1; have h2 := ha.2; have h3 := hb.1; have h4 := hb.2
    exact hu (2 ^ T.bits - 1) (by omega) (by omega) (by omega) (by omega)

theorem wide_inRange (T : CTy) (hb : T.bits ≤ 32) (a : Int) (ha : T.InRange a) : T.wide.InRange a := by
  cty_cases T <;> range_split <;> omega

theorem cast_wide (T : CTy) (hb : T.bits ≤ 32) (a : Int) (ha : T.InRange a) :
    CVal.cast T.wide ⟨T, a⟩ = ⟨T.wide, a⟩ := by
  have := wide_inRange T hb a ha
  exact cast_mk _ _ _ this.1 this.2

/-- The double-width product never overflows. -/
theorem mul_inRange (T : CTy) (hb : T.bits ≤ 32) (a b : Int) (ha : T.InRange a) (hb' : T.InRange b) :
    T.wide.InRange (a * b) := by
  have h := mul_bounds T a b ha hb'
  generalize a * b = p at *
  cty_cases T <;> simp only [CTy.bits, CTy.signed, Nat.reduceMul, Nat.reduceSub, Int.reducePow, true_imp_iff,
    Int.reduceSub, Int.reduceMul, Int.reduceAdd, Int.reduceNeg] at h <;> range_split <;> omega

theorem mul_wide (T : CTy) (hb : T.bits ≤ 32) (a b : Int) (ha : T.InRange a) (hb' : T.InRange b) :
    mul (CVal.cast T.wide ⟨T, a⟩) (CVal.cast T.wide ⟨T, b⟩) = .ok ⟨CTy.usual T.wide T.wide, a * b⟩ := by
  rw [cast_wide T hb a ha, cast_wide T hb b hb']
  have h := mul_inRange T hb a b ha hb'
  have h1 := wide_inRange T hb a ha
  have h2 := wide_inRange T hb b hb'
  have e (x : Int) (hx : T.wide.InRange x) : (CTy.usual T.wide T.wide).InRange x := by
    cty_cases T <;> simp only [CTy.wide, CTy.usual, CTy.promote] at * <;> range_split <;> omega
  simp only [mul, wrap_of_inRange (e a h1), wrap_of_inRange (e b h2)]
  have h3 := e _ h
  unfold arith
  split
  · exact if_pos ⟨h3.1, h3.2⟩
  · rw [wrap_of_inRange h3]

theorem vMul_ok (T : CTy) (hb : T.bits ≤ 32) (a b : Int) (ha : T.InRange a) (hb' : T.InRange b) :
    vMul T ⟨T, a⟩ ⟨T, b⟩ = .ok ⟨T, Spec.wrap T.signed T.bits (a * b)⟩ := by
  unfold vMul; rw [mul_wide T hb a b ha hb', Outcome.ok_bind, wrap_spec]; rfl

theorem vMulw_ok (T : CTy) (hb : T.bits ≤ 16) (a b : Int) (ha : T.InRange a) (hb' : T.InRange b) :
    vMulw T.wide ⟨T, a⟩ ⟨T, b⟩ = .ok ⟨T.wide, a * b⟩ := by
  have h := mul_inRange T (by omega) a b ha hb'
  unfold vMulw
  rw [mul_wide T (by omega) a b ha hb', Outcome.ok_bind, cast_mk _ _ _ h.1 h.2]

theorem lt_same (T : CTy) (a b : Int) (ha : T.InRange a) (hb : T.InRange b) :
    lt ⟨T, a⟩ ⟨T, b⟩ = decide (a < b) := by
  simp only [lt, usual_same_wrap T a ha, usual_same_wrap T b hb]

theorem eq_same (T : CTy) (a b : Int) (ha : T.InRange a) (hb : T.InRange b) :
    eq ⟨T, a⟩ ⟨T, b⟩ = decide (a = b) := by
  simp only [eq, usual_same_wrap T a ha, usual_same_wrap T b hb]

theorem lo_le_hi (T : CTy) : T.lo ≤ T.hi := by cases T <;> decide

theorem vMuls_ok (T : CTy) (hb : T.bits ≤ 32) (a b : Int) (ha : T.InRange a) (hb' : T.InRange b) :
    vMuls T ⟨T, a⟩ ⟨T, b⟩ = .ok ⟨T, Spec.sat T.signed T.bits (a * b)⟩ := by
  have h := mul_inRange T hb a b ha hb'
  have hnn : T.signed = false → 0 ≤ a * b := fun hs => ((mul_bounds T a b ha hb').2 hs).1
  unfold vMuls
  rw [mul_wide T hb a b ha hb', Outcome.ok_bind, sat_spec]
  simp only []
  have hlh := lo_le_hi T
  have hhi : T.InRange T.hi := ⟨hlh, Int.le_refl _⟩
  have hlo : T.InRange T.lo := ⟨Int.le_refl _, hlh⟩
  rw [cast_mk _ _ _ h.1 h.2, tmax, tmin, cast_wide T hb _ hhi, cast_wide T hb _ hlo,
    lt_same _ _ _ h (wide_inRange T hb _ hhi)]
  have e : (if decide (a * b < T.hi) = true then (⟨T.wide, a * b⟩ : CVal) else ⟨T.wide, T.hi⟩) =
      ⟨T.wide, min T.hi (a * b)⟩ := by
    by_cases h1 : a * b < T.hi
    · rw [if_pos (by simpa using h1), min_eq_right h1.le]
    · rw [if_neg (by simpa using h1), min_eq_left (by omega)]
  rw [e]
  have hm : T.wide.InRange (min T.hi (a * b)) := by
    have := wide_inRange T hb _ hhi
    constructor
    · have := this.1; have := h.1; omega
    · have := this.2; have := h.2; omega
  by_cases hs : T.signed = true
  · rw [if_pos hs, lt_same _ _ _ (wide_inRange T hb _ hlo) hm]
    by_cases h2 : T.lo < min T.hi (a * b)
    · rw [if_pos (by simpa using h2), cast_mk _ _ _ (by omega) (by omega), max_eq_right (by omega)]
    · rw [if_neg (by simpa using h2), cast_mk _ _ _ (by omega) (by omega), max_eq_left (by omega)]
  · have hs : T.signed = false := by simpa using hs
    have := hnn hs
    have h0 : T.lo = 0 := by cases T <;> first | rfl | simp [CTy.signed] at hs
    rw [if_neg (by simp [hs]), cast_mk _ _ _ (by omega) (by omega), max_eq_right (by omega)]

theorem mulhRound_ok (round : Bool) (T : CTy) (hb : T.bits ≤ 32) :
    mulhRound round T = .ok ⟨T.wide, if round then 2 ^ (T.bits - 1) else 0⟩ := by
  unfold mulhRound
  cases round <;> cty_cases T <;> cop_eval <;>
    simp only [Int.cast_ofNat_Int, Int.reduceMul, Int.reduceToNat, Int.reducePow, Int.reduceSub, CTy.bits,
      Nat.reduceSub, Bool.false_eq_true, if_false, if_true] <;>
    (try cop_eval) <;> first | done | rfl | (apply ok_mk_inj; omega)

theorem vMulh_ok (round : Bool) (T : CTy) (hb : T.bits ≤ 32) (a b : Int) (ha : T.InRange a) (hb' : T.InRange b) :
    vMulh round T ⟨T, a⟩ ⟨T, b⟩ =
      .ok ⟨T, Int.fdiv (a * b + if round then 2 ^ (T.bits - 1) else 0) (2 ^ T.bits)⟩ := by
  have h := mul_inRange T hb a b ha hb'
  have hbd := mul_bounds T a b ha hb'
  rw [Int.fdiv_eq_ediv_of_nonneg _ (by exact pow_nonneg (by omega) _)]
  unfold vMulh
  rw [mul_wide T hb a b ha hb', Outcome.ok_bind]
  simp only []
  rw [cast_mk _ _ _ h.1 h.2, mulhRound_ok round T hb, Outcome.ok_bind]
  generalize a * b = p at *
  clear ha hb'
  cases round <;> cty_cases T <;> simp only [CTy.bits, CTy.signed, Nat.reduceMul, Nat.reduceSub, Int.reducePow,
    true_imp_iff, reduceCtorEq, false_imp_iff, and_true, true_and,
    Int.reduceSub, Int.reduceMul, Int.reduceAdd, Int.reduceNeg, Bool.false_eq_true, if_false, if_true,
    Int.add_zero] at hbd ⊢ <;> range_split <;> cop_eval <;>
    (try simp only [Int.cast_ofNat_Int, Int.reduceMul, Int.reduceToNat, Int.reducePow]) <;> (try cop_eval) <;>
    apply ok_mk_inj <;> omega

theorem dmulhRound_ok (round roundNeg : Bool) (T : CTy) (hs : T.signed = true) (hb : T.bits ≤ 32) (p : Int)
    (h1 : -(2 ^ (2 * T.bits - 2)) ≤ p) (h2 : p ≤ 2 ^ (2 * T.bits - 2)) :
    dmulhRound round roundNeg T ⟨T.wide, p⟩ = .ok ⟨T.wide, p +
      if round then (if roundNeg = true ∧ p < 0 then -(2 ^ (T.bits - 2)) else 2 ^ (T.bits - 2)) else 0⟩ := by
  unfold dmulhRound
  have hr : T.wide.InRange p := by
    cty_cases T <;> simp only [CTy.bits, Nat.reduceMul, Nat.reduceSub, Int.reducePow] at h1 h2 <;>
      range_split <;> omega
  have hl : lt ⟨T.wide, p⟩ (lit 0) = decide (p < 0) := by
    cty_cases T <;> range_split <;> cop_eval
  rw [hl]
  cases round
  · simp
  · simp only [if_true]
    by_cases hp : p < 0
    · cases roundNeg
      · simp only [hp, decide_true, Bool.and_false, Bool.false_eq_true, if_false, false_and]
        cty_cases T <;> simp only [CTy.bits, Nat.reduceMul, Nat.reduceSub, Int.reducePow] at h1 h2 ⊢ <;>
          range_split <;> cop_eval <;> simp only [Int.cast_ofNat_Int, Int.reduceMul, Int.reduceToNat, Int.reducePow,
            Int.reduceSub, Int.reduceDiv] <;> cop_eval <;> apply ok_mk_inj <;> omega
      · simp only [hp, decide_true, Bool.and_true, if_true, and_self]
        cty_cases T <;> simp only [CTy.bits, Nat.reduceMul, Nat.reduceSub, Int.reducePow] at h1 h2 ⊢ <;>
          range_split <;> cop_eval <;> simp only [Int.cast_ofNat_Int, Int.reduceMul, Int.reduceToNat, Int.reducePow,
            Int.reduceSub, Int.reduceDiv, Int.reduceNeg] <;> cop_eval <;> apply ok_mk_inj <;> omega
    · simp only [hp, decide_false, Bool.false_and, Bool.false_eq_true, if_false, and_false]
      cty_cases T <;> simp only [CTy.bits, Nat.reduceMul, Nat.reduceSub, Int.reducePow] at h1 h2 ⊢ <;>
        range_split <;> cop_eval <;> simp only [Int.cast_ofNat_Int, Int.reduceMul, Int.reduceToNat, Int.reducePow,
          Int.reduceSub, Int.reduceDiv] <;> cop_eval <;> apply ok_mk_inj <;> omega

theorem vDmulh_ok (round roundNeg : Bool) (T : CTy) (hs : T.signed = true) (hb : T.bits ≤ 32) (a b : Int)
    (ha : T.InRange a) (hb' : T.InRange b) :
    vDmulh round roundNeg T ⟨T, a⟩ ⟨T, b⟩ =
      .ok ⟨T, Spec.sat true T.bits (Spec.dmulh round roundNeg T.bits a b)⟩ := by
  have h := mul_inRange T hb a b ha hb'
  have hbd := (mul_bounds T a b ha hb').1 hs
  have hbits : 8 ≤ T.bits := by cases T <;> decide
  have hP : (0 : Int) < 2 ^ (T.bits - 1) := Int.pow_pos (by omega)
  unfold vDmulh
  rw [mul_wide T hb a b ha hb', Outcome.ok_bind, cast_mk _ _ _ h.1 h.2,
    dmulhRound_ok round roundNeg T hs hb _ (by omega) (by omega), Outcome.ok_bind]
  have hsat := sat_spec T (Spec.dmulh round roundNeg T.bits a b)
  rw [hs] at hsat
  rw [hsat]
  clear hsat
  have hlh := lo_le_hi T
  have hlo : T.InRange T.lo := ⟨Int.le_refl _, hlh⟩
  rw [tmin, eq_same _ _ _ ha hlo, eq_same _ _ _ hb' hlo]
  -- the product is maximal exactly when both lanes are the minimum
  have hmax : (a = T.lo ∧ b = T.lo) ∨ a * b ≤ 2 ^ (2 * T.bits - 2) - 2 ^ (T.bits - 1) := by
    have hM : ∀ M : Int, 1 ≤ M → -M ≤ a → a ≤ M - 1 → -M ≤ b → b ≤ M - 1 →
        (a = -M ∧ b = -M) ∨ a * b ≤ M * M - M := by
      intro M hM h1 h2 h3 h4
      by_cases ha' : a = -M
      · by_cases hb'' : b = -M
        · exact Or.inl ⟨ha', hb''⟩
        · right; subst ha'
          have : -M + 1 ≤ b := by omega
          nlinarith
      · right
        have : -M + 1 ≤ a := by omega
        rcases lt_or_ge a 0 with h | h <;> rcases lt_or_ge b 0 with h' | h' <;> nlinarith
    have e : (2 : Int) ^ (2 * T.bits - 2) = 2 ^ (T.bits - 1) * 2 ^ (T.bits - 1) := by
      rw [← pow_add]; congr 1; omega
    have hlo' : T.lo = -(2 ^ (T.bits - 1)) := by cases T <;> first | rfl | simp [CTy.signed] at hs
    have hhi' : T.hi = 2 ^ (T.bits - 1) - 1 := by cases T <;> first | rfl | simp [CTy.signed] at hs
    have h1 := ha.1; have h2 := ha.2; have h3 := hb'.1; have h4 := hb'.2
    rw [e, hlo']
    exact hM _ (by omega) (by omega) (by omega) (by omega) (by omega)
  have hmaxv : a = T.lo ∧ b = T.lo → a * b = 2 ^ (2 * T.bits - 2) := by
    rintro ⟨rfl, rfl⟩; cty_cases T <;> rfl
  have hn : CVal.lit ((T.size : Int) * 8 - 1) = ⟨.i32, T.bits - 1⟩ := by cases T <;> rfl
  rw [hn]
  unfold Spec.dmulh
  rw [Int.fdiv_eq_ediv_of_nonneg _ (by exact pow_nonneg (by omega) _)]
  have hz : (a = T.lo ∧ b = T.lo ∧ a * b = 2 ^ (2 * T.bits - 2)) ∨
      (¬ (a = T.lo ∧ b = T.lo) ∧ a * b ≤ 2 ^ (2 * T.bits - 2) - 2 ^ (T.bits - 1)) := by
    by_cases hh : a = T.lo ∧ b = T.lo
    · exact Or.inl ⟨hh.1, hh.2, hmaxv hh⟩
    · rcases hmax with hm | hm
      · exact absurd hm hh
      · exact Or.inr ⟨hh, hm⟩
  clear hmax hmaxv ha hb' hlo hn
  generalize a * b = p at *
  rcases hz with ⟨h1, h2, h3⟩ | ⟨h1, h3⟩
  · subst h3
    simp only [h1, h2, decide_true, Bool.and_self, if_true]
    cases round <;> cases roundNeg <;> cty_cases T <;> rfl
  · have hc : (decide (a = T.lo) && decide (b = T.lo)) = false := by
      by_cases ha : a = T.lo <;> simp_all
    have hif (x y : CVal) : (if (decide (a = T.lo) && decide (b = T.lo)) = true then x else y) = y := by
      rw [hc]; rfl
    simp only [hif]
    have hr : -(2 ^ (T.bits - 2)) ≤ (if round = true then (if roundNeg = true ∧ p < 0 then -(2 ^ (T.bits - 2) : Int)
        else 2 ^ (T.bits - 2)) else 0) ∧ (if round = true then (if roundNeg = true ∧ p < 0 then -(2 ^ (T.bits - 2) : Int)
        else 2 ^ (T.bits - 2)) else 0) ≤ 2 ^ (T.bits - 2) := by
      have : (0 : Int) < 2 ^ (T.bits - 2) := Int.pow_pos (by omega)
      split
      · split <;> omega
      · omega
    have hr2 : (if round = true then (if roundNeg = true ∧ p < 0 then -(2 ^ (T.bits - 1) : Int)
        else 2 ^ (T.bits - 1)) else 0) = 2 * (if round = true then (if roundNeg = true ∧ p < 0 then -(2 ^ (T.bits - 2) : Int)
        else 2 ^ (T.bits - 2)) else 0) := by
      have : (2 : Int) ^ (T.bits - 1) = 2 * 2 ^ (T.bits - 2) := by rw [← pow_succ']; congr 1; omega
      split
      · split <;> omega
      · omega
    rw [hr2]
    generalize (if round = true then (if roundNeg = true ∧ p < 0 then -(2 ^ (T.bits - 2) : Int)
        else 2 ^ (T.bits - 2)) else 0) = r at *
    clear hr2 hc hif h1 hlh
    cty_cases T <;> simp only [CTy.bits, CTy.signed, Nat.reduceMul, Nat.reduceSub, Int.reducePow,
      Int.cast_ofNat_Int, Int.reduceSub, Int.reduceAdd, Int.reduceNeg] at * <;> range_split <;> cop_eval <;>
      apply ok_mk_inj <;> omega

theorem macc_aux (T : CTy) (hb : T.bits ≤ 32) (p d : Int) (hd : T.InRange d)
    (h1 : T.signed = true → -(2 ^ (2 * T.bits - 2)) + 2 ^ (T.bits - 1) ≤ p ∧ p ≤ 2 ^ (2 * T.bits - 2))
    (hs : T.signed = true) :
    (add (CVal.cast T.wide ⟨T, d⟩) ⟨CTy.usual T.wide T.wide, p⟩ >>= fun s => Outcome.ok (CVal.cast T s)) =
      .ok ⟨T, T.wrap (d + p)⟩ := by
  have h1 := h1 hs
  cty_cases T <;> simp only [CTy.bits, Nat.reduceMul, Nat.reduceSub, Int.reducePow, Int.reduceAdd, Int.reduceNeg] at h1 <;>
    range_split <;> cop_eval <;> apply ok_mk_inj <;> omega

theorem vMacc_ok (T : CTy) (hs : T.signed = true) (hb : T.bits ≤ 32) (d a b : Int) (hd : T.InRange d)
    (ha : T.InRange a) (hb' : T.InRange b) :
    vMacc T ⟨T, d⟩ ⟨T, a⟩ ⟨T, b⟩ = .ok ⟨T, Spec.wrap T.signed T.bits (d + a * b)⟩ := by
  unfold vMacc
  rw [mul_wide T hb a b ha hb', Outcome.ok_bind, wrap_spec]
  exact macc_aux T hb _ d hd (mul_bounds T a b ha hb').1 hs

theorem vMadd_ok (T : CTy) (hs : T.signed = true) (hb : T.bits ≤ 32) (d a b : Int) (hd : T.InRange d)
    (ha : T.InRange a) (hb' : T.InRange b) :
    vMadd T ⟨T, d⟩ ⟨T, a⟩ ⟨T, b⟩ = .ok ⟨T, Spec.wrap T.signed T.bits (a + d * b)⟩ := by
  unfold vMadd
  rw [mul_wide T hb d b hd hb', Outcome.ok_bind, wrap_spec]
  exact macc_aux T hb _ a ha (mul_bounds T d b hd hb').1 hs

theorem vSel_ok (T : CTy) (hb : T.bits ≤ 32) (d a b : Int) :
    vSel T ⟨T, d⟩ ⟨T, a⟩ ⟨T, b⟩ = .ok ⟨T, if a % 2 = 1 then d else b⟩ := by
  have h : land ⟨T, a⟩ (lit 1) = ⟨CTy.usual T .i32, a % 2⟩ :=
    land_mask T .i32 a 1 1 (by decide) (by cases T <;> decide)
  have hn : ne ⟨CTy.usual T .i32, a % 2⟩ (lit 0) = decide (a % 2 = 1) := by
    have : a % 2 = 0 ∨ a % 2 = 1 := by omega
    rcases this with h | h <;> rw [h] <;> cases T <;> rfl
  unfold vSel
  rw [h, hn]
  by_cases hh : a % 2 = 1 <;> simp [hh]

end Verif.Proofs
