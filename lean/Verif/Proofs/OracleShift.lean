import Verif.Proofs.Oracle

/-! # The test's oracles for the shifts agree with the implementation -/

namespace Verif.Proofs
open Verif Verif.Model CVal

theorem inc_ok (round : Bool) (W tb : CTy) (hW : W = .i64 ∨ W = .u64) (htb : SmallTy tb) (b : Int)
    (hbr : tb.InRange b) (h0 : 0 < b) (hb : b ≤ 32) :
    Spec.Oracle.roundInc round W ⟨tb, b⟩ =
      .ok ⟨W, if round = true ∧ 0 < b.toNat then 2 ^ (b.toNat - 1) else 0⟩ := by
  have e : b.toNat - 1 = (b - 1).toNat := by omega
  have hP1 : (2 : Int) ^ (b - 1).toNat ≤ 2 ^ 31 := pow_le_pow_right₀ (by omega) (by omega)
  have hP0 : (0 : Int) < 2 ^ (b - 1).toNat := Int.pow_pos (by omega)
  unfold Spec.Oracle.roundInc
  cases round
  · simp only [Bool.false_eq_true, if_false, false_and]
    cases W <;> rfl
  · simp only [if_true, true_and]
    rw [if_pos (by omega), e]
    have e0 : CVal.sub ⟨tb, b⟩ (lit 1) = .ok ⟨.i32, b - 1⟩ := by
      cases tb <;> simp only [SmallTy, CTy.usual, CTy.promote, reduceCtorEq, false_and] at htb <;>
        range_split <;> cop_eval
    rw [e0, Outcome.ok_bind]
    rcases hW with rfl | rfl
    · rw [shl_i64 1 (b - 1) .i32 (by omega) (by omega) (by omega) (by omega)]; simp
    · rw [shl_u64 1 (b - 1) .i32 (by omega) (by omega), wrap_u64_id _ (by omega) (by omega)]; simp

/-- The right shift of a 64-bit value with the rounding increment. -/
theorem right_ok (round : Bool) (W tb : CTy) (hW : W = .i64 ∨ W = .u64) (a b : Int)
    (ha1 : -2147483648 ≤ a) (ha2 : a ≤ 4294967295) (hu : W = .u64 → 0 ≤ a) (h0 : 0 ≤ b) (hb : b ≤ 32) :
    (CVal.add ⟨W, a⟩ ⟨W, if round = true ∧ 0 < b.toNat then 2 ^ (b.toNat - 1) else 0⟩ >>= fun s => shr s ⟨tb, b⟩) =
      .ok ⟨W, Spec.shiftRight round b.toNat a⟩ := by
  have hr := round_incr round b.toNat
  have hP : (2 : Int) ^ b.toNat ≤ 2 ^ 32 := pow_le_pow_right₀ (by omega) (by omega)
  unfold Spec.shiftRight
  rw [Int.fdiv_eq_ediv_of_nonneg _ (by exact pow_nonneg (by omega) _)]
  have hr2 : (if round = true ∧ 0 < b.toNat then (2 ^ (b.toNat - 1) : Int) else 0) < 4294967296 := by
    refine lt_of_lt_of_le hr.2 hP
  have hr1 := hr.1
  clear hr
  generalize (if round = true ∧ 0 < b.toNat then (2 ^ (b.toNat - 1) : Int) else 0) = r at *
  rcases hW with rfl | rfl
  · have e : CVal.add ⟨.i64, a⟩ ⟨.i64, r⟩ = .ok ⟨.i64, a + r⟩ := by cop_eval
    rw [e, Outcome.ok_bind, shr_i64 _ _ _ h0 (by omega)]
  · have := hu rfl
    have e : CVal.add ⟨.u64, a⟩ ⟨.u64, r⟩ = .ok ⟨.u64, a + r⟩ := by cop_eval
    rw [e, Outcome.ok_bind, shr_u64 _ _ _ h0 (by omega)]

theorem ext_ok (T : CTy) (hb : T.bits ≤ 32) (a : Int) (ha : T.InRange a) : Spec.Oracle.ext ⟨T, a⟩ = ⟨.i64, a⟩ := by
  unfold Spec.Oracle.ext; cty_cases T <;> range_split <;> cop_eval

theorem uext_ok (T : CTy) (hs : T.signed = false) (hb : T.bits ≤ 32) (a : Int) (ha : T.InRange a) :
    Spec.Oracle.uext ⟨T, a⟩ = ⟨.u64, a⟩ := by
  unfold Spec.Oracle.uext; cty_cases T <;> range_split <;> cop_eval

/-- `-shamt <= kMaxShiftBit ? -shamt : kMaxShiftBit`, converted to an unsigned type. -/
theorem left_amount (T U : CTy) (hb : T.bits ≤ 32) (hU : U.signed = false) (hbU : T.bits ≤ U.bits) (b : Int)
    (h1 : -2147483648 < b) (h2 : b ≤ 0) :
    (neg ⟨.i32, b⟩ = .ok ⟨.i32, -b⟩) ∧
    CVal.cast U (if CVal.le ⟨.i32, -b⟩ (lit ((T.size : Int) * 8)) then ⟨.i32, -b⟩ else lit ((T.size : Int) * 8)) =
      ⟨U, min (-b) T.bits⟩ := by
  refine ⟨by cop_eval, ?_⟩
  have e2 : CVal.le ⟨.i32, -b⟩ (lit ((T.size : Int) * 8)) = decide (-b ≤ T.bits) := by
    cty_cases T <;> simp only [CTy.bits, CTy.size, Int.cast_ofNat_Int] <;> cop_eval <;> rfl
  rw [e2]
  have hU0 : U.lo = 0 := by cases U <;> first | rfl | simp [CTy.signed] at hU
  have hU1 : (T.bits : Int) ≤ U.hi := by
    clear e2
    cases U <;> simp only [CTy.signed, Bool.true_eq_false] at hU <;> cty_cases T <;>
      first | decide | (exfalso; simp [CTy.bits] at hbU; done)
  by_cases h : -b ≤ T.bits
  · simp only [h, decide_true, if_true]
    rw [min_eq_left h, cast_mk _ _ _ (by omega) (by omega)]
  · simp only [h, decide_false, Bool.false_eq_true, if_false]
    have hsz : ((T.size : Int) * 8) = T.bits := by cases T <;> rfl
    rw [min_eq_right (by omega), hsz, lit, cast_mk _ _ _ (by omega) (by omega)]

/-- The value of `shift` in the signed branch. -/
def shiftVal (round : Bool) (w : Nat) (a b : Int) : Int :=
  if (w : Int) ≤ b then (if a < 0 ∧ round = false then -1 else 0)
  else if 0 < b then Spec.shiftRight round b.toNat a else a * 2 ^ (min (-b) (w : Int)).toNat

theorem cmp_zero (T : CTy) (hb : T.bits ≤ 32) (a : Int) (ha : T.InRange a) :
    CVal.eq (⟨T, a⟩ : CVal) (lit 0) = decide (a = 0) ∧
    (T.signed = true → CVal.lt (⟨T, a⟩ : CVal) (lit 0) = decide (a < 0)) ∧
    CVal.gt (⟨T, a⟩ : CVal) (lit 0) = decide (0 < a) := by
  refine ⟨?_, fun hs => ?_, ?_⟩
  · cty_cases T <;> range_split <;> cop_eval
  · cty_cases T <;> range_split <;> cop_eval
  · cty_cases T <;> range_split <;> cop_eval

theorem cmp_amount (T : CTy) (hb : T.bits ≤ 32) (b : Int) (hb' : CTy.InRange .i32 b) :
    CVal.ge ⟨.i32, b⟩ (lit ((T.size : Int) * 8)) = decide ((T.bits : Int) ≤ b) ∧
    CVal.gt ⟨.i32, b⟩ (lit ((T.size : Int) * 8)) = decide ((T.bits : Int) < b) ∧
    CVal.gt ⟨.i32, b⟩ (lit 0) = decide (0 < b) ∧
    CVal.le ⟨.i32, b⟩ (lit (-((T.size : Int) * 8))) = decide (b ≤ -(T.bits : Int)) ∧
    CVal.lt ⟨.i32, b⟩ (lit (-((T.size : Int) * 8))) = decide (b < -(T.bits : Int)) := by
  refine ⟨?_, ?_, ?_, ?_, ?_⟩ <;> cty_cases T <;> range_split <;> cop_eval
  all_goals rfl

/-- A left shift of a sign-extended value, computed in `uint64_t` and read back as `int64_t`. -/
theorem left_i64 (a : Int) (m : Int) (tn : CTy) (h0 : 0 ≤ m) (hm : m ≤ 32)
    (hr : CTy.InRange .i64 (a * 2 ^ m.toNat)) :
    (shl (CVal.cast .u64 ⟨.i64, a⟩) ⟨tn, m⟩ >>= fun s => Outcome.ok (CVal.cast .i64 s)) =
      .ok ⟨.i64, a * 2 ^ m.toNat⟩ := by
  have e2 := emod_mul_emod' a (2 ^ m.toNat) 18446744073709551616
  simp only [CVal.cast, wrap_u64_def]
  rw [shl_u64 _ _ _ (by omega) (by omega)]
  rw [inRange_i64] at hr
  simp only [Outcome.ok_bind, wrap_i64_def, wrap_u64_def]
  generalize a * 2 ^ m.toNat = x at *
  generalize a % 18446744073709551616 * 2 ^ m.toNat = y at *
  apply ok_mk_inj; omega

theorem uext_cast (T : CTy) (hb : T.bits ≤ 32) (a : Int) (ha : T.InRange a) :
    Spec.Oracle.uext ⟨T, a⟩ = CVal.cast .u64 ⟨.i64, a⟩ := rfl

theorem left_range (T : CTy) (hb : T.bits ≤ 32) (a m : Int) (ha : T.InRange a) (h0 : 0 ≤ m) (hm : m ≤ T.bits) :
    T.wide.InRange (a * 2 ^ m.toNat) := by
  have hP0 : (1 : Int) ≤ 2 ^ m.toNat := Int.pow_pos (by omega)
  have hP1 : (2 : Int) ^ m.toNat ≤ 2 ^ T.bits := pow_le_pow_right₀ (by omega) (by omega)
  have hbnd := mul_pow_bounds a (2 ^ m.toNat) T.lo T.hi (2 ^ T.bits) ha.1 ha.2 hP0 hP1
    (by cases T <;> decide) (by cases T <;> decide)
  revert hbnd
  generalize a * 2 ^ m.toNat = x
  intro hbnd
  cty_cases T <;> simp only [lo_i8, lo_i16, lo_i32, hi_i8, hi_i16, hi_i32, lo_u8, lo_u16, lo_u32, hi_u8, hi_u16, hi_u32,
    CTy.bits, Int.reducePow, Int.reduceMul, Int.reduceNeg] at hbnd <;> range_split <;> omega

theorem wide_i64 (T : CTy) (hs : T.signed = true) (x : Int) (h : T.wide.InRange x) : CTy.InRange .i64 x := by
  cases T <;> simp only [CTy.signed, Bool.false_eq_true] at hs <;> range_split <;> omega

theorem wide_u64 (T : CTy) (hs : T.signed = false) (x : Int) (h : T.wide.InRange x) : CTy.InRange .u64 x := by
  cases T <;> simp only [CTy.signed, Bool.true_eq_false] at hs <;> range_split <;> omega

theorem shiftVal_range (round : Bool) (T : CTy) (hs : T.signed = true) (hb : T.bits ≤ 32) (a b : Int) (ha : T.InRange a) :
    T.wide.InRange (shiftVal round T.bits a b) := by
  unfold shiftVal
  split
  · split
    · cty_cases T <;> decide
    · cty_cases T <;> decide
  · split
    · have hbd := shiftRight_bounds round b.toNat a
      exact inRange_wide_of_le T hb a _ ha hbd.1 hbd.2
    · exact left_range T hb a _ ha (by omega) (by omega)

theorem oShiftValS_ok (round : Bool) (T : CTy) (hs : T.signed = true) (hb : T.bits ≤ 32) (a b : Int) (ha : T.InRange a)
    (h0 : a ≠ 0) (hb' : CTy.InRange .i32 b) (hmin : b ≠ -2147483648) :
    Spec.Oracle.shiftValS round T ⟨T, a⟩ ⟨.i32, b⟩ = .ok ⟨.i64, shiftVal round T.bits a b⟩ := by
  obtain ⟨z1, z2, z3⟩ := cmp_zero T hb a ha
  obtain ⟨c1, c2, c3, c4, c5⟩ := cmp_amount T hb b hb'
  have hr := wide_i64 T hs _ (shiftVal_range round T hs hb a b ha)
  have hwide : -2147483648 ≤ a ∧ a ≤ 4294967295 := by
    clear z1 z2 z3 c1 c2 c3 c4 c5 hr
    cty_cases T <;> range_split <;> omega
  have hbT : (0 : Int) < T.bits := by cases T <;> decide
  rw [inRange_i32] at hb'
  unfold Spec.Oracle.shiftValS
  simp only [z2 hs, z3, c1, c3]
  unfold shiftVal at *
  by_cases hbig : (T.bits : Int) ≤ b
  · rw [if_pos hbig]
    rcases lt_or_gt_of_ne h0 with hn | hp
    · simp only [hn, hbig, decide_true, Bool.and_self, if_true, true_and]
      cases round <;> rfl
    · have hn : ¬ a < 0 := by omega
      simp only [hn, hp, hbig, decide_true, decide_false, Bool.false_and, Bool.true_and, if_true, if_false,
        false_and, Bool.false_eq_true]
      rfl
  · rw [if_neg hbig] at hr ⊢
    simp only [hbig, decide_false, Bool.and_false, Bool.false_eq_true, if_false]
    by_cases hpos : 0 < b
    · rw [if_pos (by simpa using hpos), if_pos hpos, inc_ok round .i64 .i32 (Or.inl rfl) ⟨rfl, by decide⟩ b
        (by rw [inRange_i32]; omega) hpos (by omega), Outcome.ok_bind, ext_ok T hb a ha]
      exact right_ok round .i64 .i32 (Or.inl rfl) a b hwide.1 hwide.2 (by simp) hpos.le (by omega)
    · rw [if_neg (by simpa using hpos)]
      rw [if_neg hpos] at hr ⊢
      obtain ⟨q1, q2⟩ := left_amount T .u32 hb rfl hb b (by omega) (by omega)
      rw [q1, Outcome.ok_bind]
      simp only [q2]
      rw [uext_cast T hb a ha]
      exact left_i64 a _ .u32 (by omega) (by omega) hr

theorem mShiftValS_ok (round : Bool) (T : CTy) (hs : T.signed = true) (hb : T.bits ≤ 32) (a b : Int) (ha : T.InRange a)
    (h0 : a ≠ 0) (hb' : CTy.InRange .i32 b) (hmin : b ≠ -2147483648) :
    Model.shiftS round T ⟨T, a⟩ ⟨.i32, b⟩ = .ok ⟨T.wide, shiftVal round T.bits a b⟩ := by
  obtain ⟨z1, z2, z3⟩ := cmp_zero T hb a ha
  obtain ⟨c1, c2, c3, c4, c5⟩ := cmp_amount T hb b hb'
  have hbT : (0 : Int) < T.bits := by cases T <;> decide
  rw [inRange_i32] at hb'
  unfold Model.shiftS
  simp only [z2 hs, z3, c1, c3]
  unfold shiftVal at *
  by_cases hbig : (T.bits : Int) ≤ b
  · rw [if_pos hbig]
    rcases lt_or_gt_of_ne h0 with hn | hp
    · simp only [hn, hbig, decide_true, Bool.and_self, if_true, true_and]
      cases round <;> cty_cases T <;> rfl
    · have hn : ¬ a < 0 := by omega
      simp only [hn, hp, hbig, decide_true, decide_false, Bool.false_and, Bool.true_and, if_true, if_false,
        false_and, Bool.false_eq_true]
      cases T <;> rfl
  · rw [if_neg hbig]
    simp only [hbig, decide_false, Bool.and_false, Bool.false_eq_true, if_false]
    by_cases hpos : 0 < b
    · rw [if_pos (by simpa using hpos), if_pos hpos]
      exact shiftRightW_ok round T .i64 .i32 (Or.inl rfl) hb ⟨rfl, by decide⟩ a b ha (fun _ => hpos)
            (by omega) (by omega) (by rw [inRange_i32]; omega)
    · rw [if_neg (by simpa using hpos), if_neg hpos]
      exact (shiftLeftS_ok T hs hb a b ha (by omega) (by omega)).1

/-- `vshift` on signed lanes. -/
theorem o_shiftS (round : Bool) (T : CTy) (hs : T.signed = true) (hb : T.bits ≤ 32) (a b : Int)
    (ha : T.InRange a) (hb' : T.InRange b) :
    Spec.Oracle.shift round T ⟨T, a⟩ ⟨T, b⟩ = vShift round T ⟨T, a⟩ ⟨T, b⟩ := by
  have e0 : CVal.cast .i32 (CVal.cast T.toS (⟨T, b⟩ : CVal)) = ⟨.i32, b⟩ := by
    cty_cases T <;> range_split <;> cop_eval
  have e1 : CVal.cast .i32 (⟨T, b⟩ : CVal) = ⟨.i32, b⟩ := by
    cty_cases T <;> range_split <;> cop_eval
  have hb32 : CTy.InRange .i32 b := by
    clear e0 e1; cty_cases T <;> range_split <;> omega
  unfold Spec.Oracle.shift vShift
  simp only [hs, if_true, e0]
  unfold Spec.Oracle.shiftS vShiftS
  simp only [e1]
  obtain ⟨z1, z2, z3⟩ := cmp_zero T hb a ha
  obtain ⟨c1, c2, c3, c4, c5⟩ := cmp_amount T hb b hb32
  rw [z1]
  by_cases h0 : a = 0
  · simp only [h0, decide_true, if_true]
  · simp only [h0, decide_false, Bool.false_eq_true, if_false]
    by_cases hmin : b = -2147483648
    · have hT : T = .i32 := by
        clear z1 z2 z3 c1 c2 c3 c4 c5 e0 e1
        subst hmin
        cty_cases T <;> range_split <;> first | rfl | omega
      subst hmin hT
      have o1 : Spec.Oracle.shiftValS round .i32 ⟨.i32, a⟩ ⟨.i32, -2147483648⟩ = .ub := by
        have k : ¬ ((CTy.i32.bits : Nat) : Int) ≤ -2147483648 := by decide
        simp only [Spec.Oracle.shiftValS, c1, c3, k, decide_false, Bool.and_false, Bool.false_eq_true, if_false]
        rfl
      have o2 : Model.shiftS round .i32 ⟨.i32, a⟩ ⟨.i32, -2147483648⟩ = .ub := by
        have k : ¬ ((CTy.i32.bits : Nat) : Int) ≤ -2147483648 := by decide
        simp only [Model.shiftS, c1, c3, k, decide_false, Bool.and_false, Bool.false_eq_true, if_false]
        rfl
      rw [o1, o2, Outcome.ub_bind, Outcome.ub_bind]
    · rw [oShiftValS_ok round T hs hb a b ha h0 hb32 hmin, mShiftValS_ok round T hs hb a b ha h0 hb32 hmin,
        Outcome.ok_bind, Outcome.ok_bind]
      have hq := shiftVal_range round T hs hb a b ha
      generalize shiftVal round T.bits a b = q at *
      have n2 : ∃ p, shl ⟨.i64, 1⟩ (lit ((T.size : Int) * 8 - 1)) = .ok p ∧ CVal.sub p (lit 1) = .ok ⟨.i64, T.hi⟩ := by
        refine ⟨⟨.i64, T.hi + 1⟩, ?_, ?_⟩ <;> cty_cases T <;> decide +kernel
      obtain ⟨nm, n1, n3⟩ : ∃ nm, shl ⟨.u64, 2 ^ 64 - 1⟩ (lit ((T.size : Int) * 8 - 1)) = .ok nm ∧
          CVal.cast .i64 nm = ⟨.i64, T.lo⟩ := by
        refine ⟨⟨.u64, T.lo + 2 ^ 64⟩, ?_, ?_⟩ <;> cty_cases T <;> decide +kernel
      obtain ⟨p, n2, n4⟩ := n2
      simp only [n1, n2, n3, n4, Outcome.ok_bind, z2 hs, z3, c4]
      have hq64 := wide_i64 T hs q hq
      obtain ⟨-, -, l1, l2⟩ := lim_i64 T hb
      have t1 : CVal.lt ⟨.i64, q⟩ ⟨.i64, T.lo⟩ = decide (q < T.lo) := lt_same _ _ _ hq64 l1
      have t2 : CVal.gt ⟨.i64, q⟩ ⟨.i64, T.hi⟩ = decide (T.hi < q) := lt_same _ _ _ l2 hq64
      have t3 : CVal.lt ⟨T.wide, q⟩ (tmin T) = decide (q < T.lo) := by
        clear n1 n2 n3 n4 t1 t2 z1 z2 z3 c1 c2 c3 c4 c5 e0 e1
        cty_cases T <;> range_split <;> cop_eval
      have t4 : CVal.gt ⟨T.wide, q⟩ (tmax T) = decide (T.hi < q) := by
        clear n1 n2 n3 n4 t1 t2 t3 z1 z2 z3 c1 c2 c3 c4 c5 e0 e1
        cty_cases T <;> range_split <;> cop_eval
      have hlh := lo_le_hi T
      have k1 : CVal.cast T ⟨.i64, T.lo⟩ = tmin T := cast_mk _ _ _ (by omega) (by omega)
      have k2 : CVal.cast T ⟨.i64, T.hi⟩ = tmax T := cast_mk _ _ _ (by omega) (by omega)
      rw [t1, t2, t3, t4, k1, k2]
      rfl

/-- The value of `shift` in the unsigned branch. -/
def shiftValUn (round : Bool) (w : Nat) (a b : Int) : Int :=
  if (w : Int) < b then 0
  else if 0 < b then Spec.shiftRight round b.toNat a else a * 2 ^ (min (-b) (w : Int)).toNat

theorem shiftValUn_range (round : Bool) (T : CTy) (hb : T.bits ≤ 32) (a b : Int) (ha : T.InRange a) :
    T.wide.InRange (shiftValUn round T.bits a b) := by
  unfold shiftValUn
  split
  · cty_cases T <;> decide
  · split
    · have hbd := shiftRight_bounds round b.toNat a
      exact inRange_wide_of_le T hb a _ ha hbd.1 hbd.2
    · exact left_range T hb a _ ha (by omega) (by omega)

theorem oShiftValU_ok (round : Bool) (T : CTy) (hs : T.signed = false) (hb : T.bits ≤ 32) (a b : Int) (ha : T.InRange a)
    (hb' : CTy.InRange .i32 b) (hmin : b ≠ -2147483648) :
    Spec.Oracle.shiftValU round T ⟨T, a⟩ ⟨.i32, b⟩ = .ok ⟨.u64, shiftValUn round T.bits a b⟩ := by
  obtain ⟨c1, c2, c3, c4, c5⟩ := cmp_amount T hb b hb'
  have hr := wide_u64 T hs _ (shiftValUn_range round T hb a b ha)
  have hwide : 0 ≤ a ∧ a ≤ 4294967295 := by
    clear c1 c2 c3 c4 c5 hr
    cty_cases T <;> range_split <;> omega
  rw [inRange_i32] at hb'
  unfold Spec.Oracle.shiftValU
  simp only [c2, c3]
  unfold shiftValUn at *
  by_cases hbig : (T.bits : Int) < b
  · rw [if_pos (by simpa using hbig), if_pos hbig]; rfl
  · rw [if_neg hbig] at hr ⊢
    rw [if_neg (by simpa using hbig)]
    by_cases hpos : 0 < b
    · rw [if_pos (by simpa using hpos), if_pos hpos, inc_ok round .u64 .i32 (Or.inr rfl) ⟨rfl, by decide⟩ b
        (by rw [inRange_i32]; omega) hpos (by omega), Outcome.ok_bind, uext_ok T hs hb a ha]
      exact right_ok round .u64 .i32 (Or.inr rfl) a b (by omega) hwide.2 (by omega) hpos.le (by omega)
    · rw [if_neg (by simpa using hpos)]
      rw [if_neg hpos] at hr ⊢
      obtain ⟨q1, q2⟩ := left_amount T T.toU hb (by cases T <;> rfl) (by cases T <;> decide) b (by omega) (by omega)
      rw [q1, Outcome.ok_bind]
      simp only [q2]
      rw [uext_ok T hs hb a ha, shl_u64 _ _ _ (by omega) (by omega)]
      rw [inRange_u64] at hr
      rw [wrap_u64_id _ (by omega) (by omega)]

theorem mShiftValU_ok (round : Bool) (T : CTy) (hs : T.signed = false) (hb : T.bits ≤ 32) (a b : Int) (ha : T.InRange a)
    (hb' : CTy.InRange .i32 b) (hmin : b ≠ -2147483648) :
    Model.shiftU round T ⟨T, a⟩ ⟨.i32, b⟩ = .ok ⟨T.wide, shiftValUn round T.bits a b⟩ := by
  obtain ⟨c1, c2, c3, c4, c5⟩ := cmp_amount T hb b hb'
  rw [inRange_i32] at hb'
  unfold Model.shiftU
  simp only [c2, c3]
  unfold shiftValUn at *
  by_cases hbig : (T.bits : Int) < b
  · rw [if_pos (by simpa using hbig), if_pos hbig]; cases T <;> rfl
  · rw [if_neg hbig, if_neg (by simpa using hbig)]
    by_cases hpos : 0 < b
    · rw [if_pos (by simpa using hpos), if_pos hpos]
      exact shiftRightW_ok round T .u64 .i32 (Or.inr rfl) hb ⟨rfl, by decide⟩ a b ha (fun _ => hpos)
            (by omega) (by omega) (by rw [inRange_i32]; omega)
    · rw [if_neg (by simpa using hpos), if_neg hpos]
      exact (shiftLeftU_ok T hs hb a b ha (by omega) (by omega)).1

/-- `vshift` on unsigned lanes. -/
theorem o_shiftU (round : Bool) (T : CTy) (hs : T.signed = false) (hb : T.bits ≤ 32) (a b : Int)
    (ha : T.InRange a) :
    Spec.Oracle.shift round T ⟨T, a⟩ ⟨T, b⟩ = vShift round T ⟨T, a⟩ ⟨T, b⟩ := by
  have hb32 : ∃ c, CVal.cast .i32 (CVal.cast T.toS (⟨T, b⟩ : CVal)) = ⟨.i32, c⟩ ∧ CTy.InRange .i32 c ∧
      (c = -2147483648 → T = .u32) := by
    have := wrap_inRange T.toS b
    simp only [CVal.cast]
    generalize T.toS.wrap b = c at *
    cty_cases T <;> simp only [CTy.toS] at this <;> range_split <;> refine ⟨c, by cop_eval, by omega, fun h => ?_⟩ <;>
      first | trivial | (exfalso; omega)
  obtain ⟨c, e0, hb32, hc⟩ := hb32
  unfold Spec.Oracle.shift vShift
  simp only [hs, Bool.false_eq_true, if_false]
  unfold Spec.Oracle.shiftU vShiftU
  simp only [e0]
  obtain ⟨z1, z2, z3⟩ := cmp_zero T hb a ha
  obtain ⟨c1, c2, c3, c4, c5⟩ := cmp_amount T hb c hb32
  rw [z1]
  by_cases h0 : a = 0
  · simp only [h0, decide_true, if_true]
  · simp only [h0, decide_false, Bool.false_eq_true, if_false]
    by_cases hmin : c = -2147483648
    · have hT := hc hmin
      subst hmin hT
      have k : ¬ ((CTy.u32.bits : Nat) : Int) < -2147483648 := by decide
      have o1 : Spec.Oracle.shiftValU round .u32 ⟨.u32, a⟩ ⟨.i32, -2147483648⟩ = .ub := by
        simp only [Spec.Oracle.shiftValU, c2, c3, k, decide_false, Bool.false_eq_true, if_false]
        rfl
      have o2 : Model.shiftU round .u32 ⟨.u32, a⟩ ⟨.i32, -2147483648⟩ = .ub := by
        simp only [Model.shiftU, c2, c3, k, decide_false, Bool.false_eq_true, if_false]
        rfl
      rw [o1, o2, Outcome.ub_bind, Outcome.ub_bind]
    · rw [oShiftValU_ok round T hs hb a c ha hb32 hmin, mShiftValU_ok round T hs hb a c ha hb32 hmin,
        Outcome.ok_bind, Outcome.ok_bind]
      have hq := shiftValUn_range round T hb a c ha
      generalize shiftValUn round T.bits a c = q at *
      have n2 : shl ⟨.u64, 1⟩ (lit ((T.size : Int) * 8)) = .ok ⟨.u64, T.hi + 1⟩ := by
        cty_cases T <;> decide +kernel
      have n4 : CVal.sub ⟨.u64, T.hi + 1⟩ (lit 1) = .ok ⟨.u64, T.hi⟩ := by cty_cases T <;> decide +kernel
      simp only [n2, n4, Outcome.ok_bind, CVal.ne, z1, c5]
      have hq64 := wide_u64 T hs q hq
      have t2 : CVal.ge ⟨.u64, q⟩ ⟨.u64, T.hi + 1⟩ = decide (T.hi < q) := by
        clear n2 n4 z1 z2 z3 c1 c2 c3 c4 c5 e0
        cty_cases T <;> range_split <;> cop_eval <;> rfl
      have t4 : CVal.gt ⟨T.wide, q⟩ (tmax T) = decide (T.hi < q) := by
        clear n2 n4 t2 z1 z2 z3 c1 c2 c3 c4 c5 e0
        cty_cases T <;> range_split <;> cop_eval
      have hlh := lo_le_hi T
      have k2 : CVal.cast T ⟨.u64, T.hi⟩ = tmax T := cast_mk _ _ _ (by omega) (by omega)
      rw [t2, t4, k2]
      rfl

/-- `vshift`: the test's oracle is the implementation, the undefined amount included. -/
theorem o_shift (round : Bool) (T : CTy) (hb : T.bits ≤ 32) (a b : Int) (ha : T.InRange a) (hb' : T.InRange b) :
    Spec.Oracle.shift round T ⟨T, a⟩ ⟨T, b⟩ = vShift round T ⟨T, a⟩ ⟨T, b⟩ := by
  cases h : T.signed
  · exact o_shiftU round T h hb a b ha
  · exact o_shiftS round T h hb a b ha hb'

/-- `vsrans`/`vsraqs`, with and without rounding. -/
theorem o_srans (round : Bool) (Td Ts : CTy) (hsg : Td.signed = Ts.signed) (hd : Td.bits ≤ 16)
    (hT : Ts.bits = 2 * Td.bits ∨ Ts.bits = 4 * Td.bits) (hTs : Ts.bits ≤ 32)
    (a b : Int) (ha : Ts.InRange a) :
    Spec.Oracle.srans round Td ⟨Ts, a⟩ ⟨Td, b⟩ = vSrans round Td Ts ⟨Ts, a⟩ ⟨Td, b⟩ := by
  rw [vSrans_ok round Td Ts hsg hd hT hTs a b ha]
  have hm0 : (0 : Int) ≤ b % Ts.bits := Int.emod_nonneg _ (by cases Ts <;> decide)
  have hm1 : b % Ts.bits < Ts.bits := Int.emod_lt_of_pos _ (by cases Ts <;> decide)
  have hland : CVal.cast Td (land ⟨Td, b⟩ (lit ((Ts.size : Int) * 8 - 1))) = ⟨Td, b % Ts.bits⟩ := by
    have h : land ⟨Td, b⟩ (lit ((Ts.size : Int) * 8 - 1)) = ⟨.i32, b % Ts.bits⟩ := by
      cases Td <;> first | (exfalso; simp [CTy.bits] at hd; done) | skip
      all_goals
        cty_cases Ts
      all_goals
        first
          | exact land_mask _ _ _ 3 _ (by decide) (by decide)
          | exact land_mask _ _ _ 4 _ (by decide) (by decide)
          | exact land_mask _ _ _ 5 _ (by decide) (by decide)
    rw [h, CVal.cast]
    congr 1
    apply wrap_of_inRange
    generalize b % (Ts.bits : Int) = m at *
    have : m < 32 := by omega
    cases Td <;> range_split <;> omega
  have htd : SmallTy Td := by
    cases Td <;> first | (exfalso; simp [CTy.bits] at hd; done) | exact ⟨rfl, by decide⟩
  have hmr : Td.InRange (b % Ts.bits) := by
    generalize b % (Ts.bits : Int) = m at *
    have : m < 32 := by omega
    cases Td <;> range_split <;> omega
  unfold Spec.Oracle.srans
  simp only [hland]
  generalize b % (Ts.bits : Int) = m at *
  have hne : ne ⟨Td, m⟩ (lit 0) = decide (m ≠ 0) := by
    cases Td <;> first | (exfalso; simp [CTy.bits] at hd; done) | skip
    all_goals range_split <;> cop_eval <;> simp
  have ha64 : -2147483648 ≤ a ∧ a ≤ 4294967295 := by
    clear hland hne
    cty_cases Ts <;> range_split <;> omega
  have hval : Spec.Oracle.sransVal round ⟨Ts, a⟩ ⟨Td, m⟩ = .ok ⟨.i64, Spec.shiftRight round m.toNat a⟩ := by
    have hinc : Spec.Oracle.roundInc (decide (m ≠ 0)) .i64 ⟨Td, m⟩ =
        .ok ⟨.i64, if true = true ∧ 0 < m.toNat then 2 ^ (m.toNat - 1) else 0⟩ := by
      by_cases h : m = 0
      · subst h; rfl
      · have h' : decide (m ≠ 0) = true := by simpa using h
        rw [h']
        exact inc_ok true .i64 Td (Or.inl rfl) htd m hmr (by omega) (by omega)
    unfold Spec.Oracle.sransVal
    rw [ext_ok Ts hTs a ha]
    cases round
    · simp only [Bool.false_eq_true, if_false]
      rw [shr_i64 _ _ _ hm0 (by omega)]
      unfold Spec.shiftRight
      rw [Int.fdiv_eq_ediv_of_nonneg _ (by exact pow_nonneg (by omega) _)]
      simp
    · simp only [if_true]
      rw [hne, hinc, Outcome.ok_bind]
      exact right_ok true .i64 Td (Or.inl rfl) a m ha64.1 ha64.2 (by simp) hm0 (by omega)
  rw [hval, Outcome.ok_bind, sat_spec]
  have hbd := shiftRight_bounds round m.toNat a
  have hz : a = 0 → Spec.shiftRight round m.toNat a = 0 := fun h => by omega
  have hq : -2147483648 ≤ Spec.shiftRight round m.toNat a ∧ Spec.shiftRight round m.toNat a ≤ 4294967295 := by omega
  generalize Spec.shiftRight round m.toNat a = q at *
  have z1 := (cmp_zero Ts hTs a ha).1
  have t1 : CVal.lt ⟨.i64, q⟩ (tmin Td) = decide (q < Td.lo) := by
    clear hland hne hval z1
    cases Td <;> first | (exfalso; simp [CTy.bits] at hd; done) | skip
    all_goals range_split <;> cop_eval
  have t2 : CVal.gt ⟨.i64, q⟩ (tmax Td) = decide (Td.hi < q) := by
    clear hland hne hval z1 t1
    cases Td <;> first | (exfalso; simp [CTy.bits] at hd; done) | skip
    all_goals range_split <;> cop_eval
  rw [t1, t2, z1]
  have hlh := lo_le_hi Td
  simp only [decide_eq_true_eq, tmin, tmax]
  by_cases h1 : q < Td.lo
  · rw [if_pos h1]; apply ok_mk_inj; omega
  · rw [if_neg h1]
    by_cases h2 : Td.hi < q
    · rw [if_pos h2]; apply ok_mk_inj; omega
    · rw [if_neg h2]
      split
      · rename_i h3
        have := hz h3
        rw [lit, cast_mk _ _ _ (by omega) (by omega)]; apply ok_mk_inj; omega
      · rw [cast_mk _ _ _ (by omega) (by omega)]; apply ok_mk_inj; omega

end Verif.Proofs
