import Verif.Proofs.ElemArith
import Mathlib.Tactic.Linarith
import Mathlib.Tactic.Ring
import Mathlib.Algebra.Order.Ring.Int

/-! Element-level correctness of the shifting operations. -/

namespace Verif.Proofs
open Verif Verif.Model CVal

/-- Masking with `2^k - 1` at any type of more than `k` bits. -/
theorem land'_mask (t : CTy) (a : Int) (k : Nat) (hk : k < t.bits) :
    land' t a (2 ^ k - 1) = ⟨t, a % 2 ^ k⟩ := by
  have e : BitVec.ofInt t.bits (2 ^ k - 1) = BitVec.ofNat t.bits (2 ^ k - 1) := by
    have : (2 ^ k - 1 : Int) = ((2 ^ k - 1 : Nat) : Int) := by
      have : 0 < 2 ^ k := Nat.pow_pos (by omega)
      rw [Int.ofNat_sub (by omega)]; simp
    rw [this, BitVec.ofInt_natCast]
  rw [land', e, ofBits, toNat_and_mask _ _ (by omega), toNat_ofInt_mod _ _ _ (by omega)]
  congr 1
  apply wrap_of_inRange
  have h1 : (0 : Int) < 2 ^ k := Int.pow_pos (by omega)
  have h2 := Int.emod_nonneg a (Int.ne_of_gt h1)
  have h3 := Int.emod_lt_of_pos a h1
  have h4 : (2 : Int) ^ k ≤ 2 ^ (t.bits - 1) := pow_le_pow_right₀ (by omega) (by omega)
  have h5 : (2 : Int) ^ (t.bits - 1) * 2 = 2 ^ t.bits := by
    rw [← Int.pow_succ]; congr 1; omega
  refine ⟨?_, ?_⟩ <;> simp only [CTy.lo, CTy.hi] <;> split <;> omega

theorem land_mask (t u : CTy) (a : Int) (k : Nat) (m : Int) (hm : m = 2 ^ k - 1)
    (hk : k < (CTy.usual t u).bits) :
    land ⟨t, a⟩ ⟨u, m⟩ = ⟨CTy.usual t u, a % 2 ^ k⟩ := by
  rw [land, hm]; exact land'_mask _ _ _ hk

/-- The masked shift amount is `b mod w`. -/
theorem shiftAmount_ok (T : CTy) (hb : T.bits ≤ 32) (b : Int) :
    shiftAmount T ⟨T, b⟩ = ⟨.u64, b % T.bits⟩ := by
  have hu : CTy.usual T .u64 = .u64 := by cases T <;> rfl
  unfold shiftAmount
  cty_cases T
  all_goals
    first
      | exact land_mask _ _ _ 3 _ (by decide) (by decide)
      | exact land_mask _ _ _ 4 _ (by decide) (by decide)
      | exact land_mask _ _ _ 5 _ (by decide) (by decide)

theorem pow_toNat_le (n : Int) (k : Nat) (h : n ≤ k) : (2 : Int) ^ n.toNat ≤ 2 ^ k :=
  pow_le_pow_right₀ (by omega) (by omega)

theorem vSrx_ok (T : CTy) (hb : T.bits ≤ 32) (a b : Int) (ha : T.InRange a) :
    vSrx T ⟨T, a⟩ ⟨T, b⟩ = .ok ⟨T, Int.fdiv a (2 ^ (b % T.bits).toNat)⟩ := by
  unfold vSrx
  rw [shiftAmount_ok T hb]
  have hpos : (0 : Int) < 2 ^ (b % T.bits).toNat := Int.pow_pos (by omega)
  rw [Int.fdiv_eq_ediv_of_nonneg _ (by omega)]
  have hlo : min a 0 ≤ a / 2 ^ (b % T.bits).toNat := by
    rw [Int.le_ediv_iff_mul_le hpos]
    rcases lt_or_ge a 0 with h | h
    · rw [min_eq_left h.le]; nlinarith
    · rw [min_eq_right h]; omega
  have hhi : a / 2 ^ (b % T.bits).toNat ≤ max a 0 := by
    rcases lt_or_ge a 0 with h | h
    · have := Int.ediv_neg_of_neg_of_pos h hpos; omega
    · exact (Int.ediv_le_self _ h).trans (le_max_left _ _)
  have hm0 : (0 : Int) ≤ b % T.bits := Int.emod_nonneg _ (by cases T <;> decide)
  have hm1 : b % T.bits < T.bits := Int.emod_lt_of_pos _ (by cases T <;> decide)
  generalize b % (T.bits : Int) = m at *
  generalize hq : a / 2 ^ m.toNat = q at *
  have hsh : shr ⟨T, a⟩ ⟨.u64, m⟩ = .ok ⟨T.promote, q⟩ := by
    rw [← hq]; exact if_pos ⟨hm0, by revert hm1; cases T <;> simp [cint] <;> omega⟩
  rw [hsh]
  clear hsh hq hpos
  cty_cases T <;> range_split <;> cop_eval <;> apply ok_mk_inj <;> omega

theorem emod_mul_emod' (a M m : Int) : (a % m) * M % m = a * M % m := by
  rw [Int.mul_emod, Int.emod_emod_of_dvd _ (Int.dvd_refl m), ← Int.mul_emod]

theorem vSll_ok (T : CTy) (hs : T.signed = false) (hb : T.bits ≤ 32) (a b : Int) (ha : T.InRange a) :
    vSll T ⟨T, a⟩ ⟨T, b⟩ = .ok ⟨T, Spec.wrap false T.bits (a * 2 ^ (b % T.bits).toNat)⟩ := by
  unfold vSll
  rw [shiftAmount_ok T hb, ← hs, wrap_spec]
  have hpos : (0 : Int) < 2 ^ (b % T.bits).toNat := Int.pow_pos (by omega)
  have hm0 : (0 : Int) ≤ b % T.bits := Int.emod_nonneg _ (by cases T <;> decide)
  have hm1 : b % T.bits < T.bits := Int.emod_lt_of_pos _ (by cases T <;> decide)
  generalize b % (T.bits : Int) = m at *
  have hP : (2 : Int) ^ m.toNat ≤ 2 ^ (T.bits - 1) := pow_le_pow_right₀ (by omega) (by omega)
  have hk (h0 : 0 ≤ a) (u : Int) (h2 : a ≤ u) : a * 2 ^ m.toNat ≤ u * 2 ^ (T.bits - 1) := by nlinarith
  cty_cases T <;> simp only [CTy.bits, Int.cast_ofNat_Int] at * <;> range_split
  · have := hk (by omega) 255 (by omega)
    simp (disch := omega) only [cop]
  · have := hk (by omega) 65535 (by omega)
    simp (disch := omega) only [cop]
  · simp (disch := omega) only [cop]
    apply ok_mk_inj; omega

/-- Quotient bounds used for right shifts with rounding. -/
theorem shr_bounds (a r N : Int) (hr0 : 0 ≤ r) (hrN : r < N) :
    min a 0 ≤ (a + r) / N ∧ (a + r) / N ≤ max a 0 := by
  have hN : 0 < N := by omega
  constructor
  · rw [Int.le_ediv_iff_mul_le hN]
    rcases lt_or_ge a 0 with h | h
    · rw [min_eq_left h.le]; nlinarith
    · rw [min_eq_right h]; omega
  · apply Int.le_of_lt_add_one
    rw [Int.ediv_lt_iff_lt_mul hN]
    rcases lt_or_ge a 0 with h | h
    · rw [max_eq_right h.le]; omega
    · rw [max_eq_left h]; nlinarith

/-- The rounding increment of the specification. -/
theorem round_incr (round : Bool) (n : Nat) :
    0 ≤ (if round = true ∧ 0 < n then (2 ^ (n - 1) : Int) else 0) ∧
    (if round = true ∧ 0 < n then (2 ^ (n - 1) : Int) else 0) < 2 ^ n := by
  have h0 : (0 : Int) < 2 ^ n := Int.pow_pos (by omega)
  split
  · rename_i h
    exact ⟨pow_nonneg (by omega) _, pow_lt_pow_right₀ (by omega) (by omega)⟩
  · omega

theorem shiftRight_pos (round : Bool) (s : Int) (hs : 0 < s) (a : Int) :
    Spec.shiftRight round s.toNat a =
      (a + if round then (2 : Int) ^ (s - 1).toNat else 0) / (2 * 2 ^ (s - 1).toNat) := by
  have e : s.toNat = (s - 1).toNat + 1 := by omega
  unfold Spec.shiftRight
  rw [Int.fdiv_eq_ediv_of_nonneg _ (by exact pow_nonneg (by omega) _)]
  rw [e, pow_succ', Nat.add_sub_cancel]
  simp

/-- Large right shifts leave only the sign (or nothing after rounding). -/
theorem shiftRight_large (round : Bool) (w : Nat) (s : Int) (hw : 0 < w) (hs : w ≤ s) (a : Int)
    (h1 : -(2 ^ (w - 1) : Int) ≤ a) (h2 : a < 2 ^ (w - 1)) :
    Spec.shiftRight round s.toNat a = if a < 0 ∧ round = false then -1 else 0 := by
  rw [shiftRight_pos _ _ (by omega)]
  have hP : (2 : Int) ^ (w - 1) ≤ 2 ^ (s - 1).toNat := pow_le_pow_right₀ (by omega) (by omega)
  generalize (2 : Int) ^ (s - 1).toNat = P at *
  cases round
  · simp only [Bool.false_eq_true, if_false, Int.add_zero, and_true]
    split
    · rw [Int.ediv_eq_neg_one_of_neg_of_le] <;> omega
    · rw [Int.ediv_eq_zero_of_lt] <;> omega
  · simp only [if_true, Bool.true_eq_false, and_false, if_false]
    rw [Int.ediv_eq_zero_of_lt] <;> omega

/-- Bounds on a right shift with rounding. -/
theorem shiftRight_bounds (round : Bool) (n : Nat) (a : Int) :
    min a 0 ≤ Spec.shiftRight round n a ∧ Spec.shiftRight round n a ≤ max a 0 := by
  unfold Spec.shiftRight
  rw [Int.fdiv_eq_ediv_of_nonneg _ (by exact pow_nonneg (by omega) _)]
  exact shr_bounds a _ _ (round_incr round n).1 (round_incr round n).2

theorem inRange_wide_of_le (T : CTy) (hb : T.bits ≤ 32) (a q : Int) (ha : T.InRange a)
    (h1 : min a 0 ≤ q) (h2 : q ≤ max a 0) : T.wide.InRange q := by
  cty_cases T <;> range_split <;> omega

theorem inRange_of_le (T : CTy) (a q : Int) (ha : T.InRange a)
    (h1 : min a 0 ≤ q) (h2 : q ≤ max a 0) : T.InRange q := by
  cases T <;> range_split <;> omega

/-- Types that promote to `int`. -/
def SmallTy (t : CTy) : Prop := CTy.usual t .i32 = .i32 ∧ t.bits ≤ 32

theorem roundTerm_ok (round : Bool) (W one tb : CTy) (hone : one = .i64 ∨ one = .u64)
    (htb : SmallTy tb) (b : Int) (hbr : tb.InRange b) (h0 : round = true → 0 < b) (hb : b ≤ 32)
    (hW : W.InRange (2 ^ (b - 1).toNat)) :
    roundTerm round W ⟨one, 1⟩ ⟨tb, b⟩ =
      .ok ⟨W, if round = true ∧ 0 < b.toNat then 2 ^ (b.toNat - 1) else 0⟩ := by
  unfold roundTerm
  have e : b.toNat - 1 = (b - 1).toNat := by omega
  have hP1 : (2 : Int) ^ (b - 1).toNat ≤ 2 ^ 31 := pow_le_pow_right₀ (by omega) (by omega)
  have hP0 : (0 : Int) < 2 ^ (b - 1).toNat := Int.pow_pos (by omega)
  cases round
  · simp only [Bool.false_eq_true, if_false, false_and]
    cases W <;> rfl
  · have h0 := h0 rfl
    simp only [if_true, true_and]
    rw [if_pos (by omega), e]
    have e0 : sub ⟨tb, b⟩ (lit 1) = .ok ⟨.i32, b - 1⟩ := by
      cases tb <;> simp only [SmallTy, CTy.usual, CTy.promote, reduceCtorEq, false_and] at htb <;>
        range_split <;> cop_eval
    have e1 : shl ⟨one, 1⟩ ⟨.i32, b - 1⟩ = .ok ⟨one, 2 ^ (b - 1).toNat⟩ := by
      rcases hone with rfl | rfl
      · rw [shl_i64 1 (b - 1) .i32 (by omega) (by omega) (by omega) (by omega)]; simp
      · rw [shl_u64 1 (b - 1) .i32 (by omega) (by omega), wrap_u64_id _ (by omega) (by omega)]; simp
    rw [e0, Outcome.ok_bind, e1, Outcome.ok_bind, CVal.cast]
    apply ok_mk_inj
    exact wrap_of_inRange hW

/-- `(vs1 + round term) >> b` computed in the double-width type. -/
theorem shiftRightW_ok (round : Bool) (T one tb : CTy) (hone : one = .i64 ∨ one = .u64)
    (hb : T.bits ≤ 32) (htb : SmallTy tb) (a b : Int)
    (ha : T.InRange a) (h0 : round = true → 0 < b) (h1 : 0 ≤ b) (h2 : b ≤ T.bits) (h3 : tb.InRange b) :
    shiftRightW round T.wide ⟨one, 1⟩ ⟨T, a⟩ ⟨tb, b⟩ = .ok ⟨T.wide, Spec.shiftRight round b.toNat a⟩ := by
  have hP0 : (0 : Int) < 2 ^ (b - 1).toNat := Int.pow_pos (by omega)
  have hbits : 0 < T.bits := by cases T <;> decide
  have hP1 : (2 : Int) ^ (b - 1).toNat ≤ 2 ^ (T.bits - 1) := pow_le_pow_right₀ (by omega) (by omega)
  have hW : T.wide.InRange (2 ^ (b - 1).toNat) := by
    cty_cases T <;> simp only [CTy.bits, Nat.reduceSub, Int.reducePow] at hP1 <;> range_split <;> omega
  have hqb := shiftRight_bounds round b.toNat a
  have hqr := inRange_wide_of_le T hb a _ ha hqb.1 hqb.2
  unfold shiftRightW
  rw [roundTerm_ok round T.wide one tb hone htb b h3 h0 (by omega) hW, Outcome.ok_bind]
  unfold Spec.shiftRight at *
  rw [Int.fdiv_eq_ediv_of_nonneg _ (by exact pow_nonneg (by omega) _)] at *
  have hr : 0 ≤ (if round = true ∧ 0 < b.toNat then (2 ^ (b.toNat - 1) : Int) else 0) ∧
      (if round = true ∧ 0 < b.toNat then (2 ^ (b.toNat - 1) : Int) else 0) ≤ 2 ^ (T.bits - 1) := by
    refine ⟨(round_incr round b.toNat).1, ?_⟩
    split
    · have e : b.toNat - 1 = (b - 1).toNat := by omega
      rw [e]; exact hP1
    · exact pow_nonneg (by omega) _
  generalize (if round = true ∧ 0 < b.toNat then (2 ^ (b.toNat - 1) : Int) else 0) = r at *
  have e4 : add (CVal.cast T.wide ⟨T, a⟩) ⟨T.wide, r⟩ = .ok ⟨CTy.usual T.wide T.wide, a + r⟩ := by
    cty_cases T <;> simp only [CTy.bits, Nat.reduceSub, Int.reducePow] at hr <;> range_split <;>
      cop_eval <;> first | rfl | (apply ok_mk_inj; omega)
  rw [e4, Outcome.ok_bind]
  have e5 : shr ⟨CTy.usual T.wide T.wide, a + r⟩ ⟨tb, b⟩ =
      .ok ⟨CTy.usual T.wide T.wide, (a + r) / 2 ^ b.toNat⟩ := by
    have hp : CTy.promote (CTy.usual T.wide T.wide) = CTy.usual T.wide T.wide := by cases T <;> rfl
    have hlt : b < ((CTy.usual T.wide T.wide).bits : Int) := by
      cty_cases T <;> simp only [CTy.wide, CTy.usual, CTy.promote, CTy.bits] at * <;> omega
    unfold shr
    simp only [hp]
    rw [if_pos ⟨h1, hlt⟩]
  rw [e5, Outcome.ok_bind, CVal.cast, wrap_of_inRange hqr]

theorem leftAmount_ok (T : CTy) (hb : T.bits ≤ 32) (b : Int) (h1 : -2147483648 < b) (h2 : b ≤ 0) :
    leftAmount T ⟨.i32, b⟩ = .ok ⟨T.toU, min (-b) T.bits⟩ := by
  unfold leftAmount
  have e : neg ⟨.i32, b⟩ = .ok ⟨.i32, -b⟩ := by cop_eval
  have e2 : le ⟨.i32, -b⟩ (lit ((T.size : Int) * 8)) = decide (-b ≤ T.bits) := by
    cty_cases T <;> simp only [CTy.bits, CTy.size, Int.cast_ofNat_Int] <;> cop_eval <;> rfl
  rw [e, Outcome.ok_bind, e2]
  by_cases h : -b ≤ T.bits
  · simp only [h, decide_true, if_true]
    rw [min_eq_left h]
    cty_cases T <;> simp only [CTy.bits, Int.cast_ofNat_Int] at h <;> cop_eval
  · simp only [h, decide_false, Bool.false_eq_true, if_false]
    rw [min_eq_right (by omega)]
    cty_cases T <;> rfl

theorem mul_pow_bounds (a P lo hi M : Int) (h1 : lo ≤ a) (h2 : a ≤ hi) (hP : 1 ≤ P) (hM : P ≤ M)
    (hlo : lo ≤ 0) (hhi : 0 ≤ hi) : lo * M ≤ a * P ∧ a * P ≤ hi * M := by
  constructor
  · rcases lt_or_ge a 0 with h | h <;> nlinarith
  · rcases lt_or_ge a 0 with h | h <;> nlinarith

theorem shiftLeftS_ok (T : CTy) (hs : T.signed = true) (hb : T.bits ≤ 32) (a b : Int)
    (ha : T.InRange a) (h1 : -2147483648 < b) (h2 : b ≤ 0) :
    shiftLeftS T ⟨T, a⟩ ⟨.i32, b⟩ = .ok ⟨T.wide, a * 2 ^ (min (-b) T.bits).toNat⟩ ∧
      T.wide.InRange (a * 2 ^ (min (-b) T.bits).toNat) := by
  have hm0 : 0 ≤ min (-b) T.bits := by omega
  have hm1 : min (-b) T.bits ≤ T.bits := by omega
  unfold shiftLeftS
  rw [leftAmount_ok T hb b h1 h2, Outcome.ok_bind]
  generalize min (-b) (T.bits : Int) = m at *
  have hP0 : (1 : Int) ≤ 2 ^ m.toNat := Int.pow_pos (by omega)
  have hP1 : (2 : Int) ^ m.toNat ≤ 2 ^ T.bits := pow_le_pow_right₀ (by omega) (by omega)
  have hbnd := mul_pow_bounds a (2 ^ m.toNat) T.lo T.hi (2 ^ T.bits) ha.1 ha.2 hP0 hP1
    (by cases T <;> decide) (by cases T <;> decide)
  have hr : T.wide.InRange (a * 2 ^ m.toNat) := by
    revert hbnd
    generalize a * 2 ^ m.toNat = x
    intro hbnd
    cty_cases T <;> simp only [lo_i8, lo_i16, lo_i32, hi_i8, hi_i16, hi_i32, CTy.bits, Int.reducePow, Int.reduceMul,
      Int.reduceNeg] at hbnd <;> range_split <;> omega
  refine ⟨?_, hr⟩
  have c1 : le ⟨T.toU, m⟩ (lit ((T.size : Int) * 8)) = true := by
    cty_cases T <;> simp only [CTy.bits, CTy.size, Int.cast_ofNat_Int] at * <;> cop_eval <;> simp <;> omega
  have c2 : ge ⟨T.toU, m⟩ (lit 0) = true := by
    cty_cases T <;> simp only [CTy.bits, Int.cast_ofNat_Int] at * <;> cop_eval <;> simp <;> omega
  simp only [c1, c2, Bool.not_true, Bool.false_eq_true, if_false]
  have key : (do let s ← shl (CVal.cast T.toU.wide ⟨T, a⟩) ⟨T.toU, m⟩; Outcome.ok (CVal.cast T.wide s)) =
      .ok ⟨T.wide, T.wide.wrap (a * 2 ^ m.toNat)⟩ := by
    cty_cases T <;> simp only [CTy.bits, Int.cast_ofNat_Int] at *
    · have e : (a % 65536) * 2 ^ m.toNat ≤ 65536 * 2 ^ 8 := by
        have := Int.emod_nonneg a (b := 65536) (by omega)
        have := Int.emod_lt_of_pos a (b := 65536) (by omega)
        nlinarith
      have e2 := emod_mul_emod' a (2 ^ m.toNat) 65536
      simp only [CTy.toU, CTy.wide, CVal.cast, wrap_u16_def]
      rw [shl_u16 _ _ _ (by omega) (by omega) (by omega) (by omega)]
      simp only [Outcome.ok_bind, wrap_i16_def]
      generalize a * 2 ^ m.toNat = x at *
      generalize a % 65536 * 2 ^ m.toNat = y at *
      apply ok_mk_inj; omega
    · have e2 := emod_mul_emod' a (2 ^ m.toNat) 4294967296
      simp only [CTy.toU, CTy.wide, CVal.cast, wrap_u32_def]
      rw [shl_u32 _ _ _ (by omega) (by omega)]
      simp only [Outcome.ok_bind, wrap_i32_def, wrap_u32_def]
      generalize a * 2 ^ m.toNat = x at *
      generalize a % 4294967296 * 2 ^ m.toNat = y at *
      apply ok_mk_inj; omega
    · have e2 := emod_mul_emod' a (2 ^ m.toNat) 18446744073709551616
      simp only [CTy.toU, CTy.wide, CVal.cast, wrap_u64_def]
      rw [shl_u64 _ _ _ (by omega) (by omega)]
      simp only [Outcome.ok_bind, wrap_i64_def, wrap_u64_def]
      generalize a * 2 ^ m.toNat = x at *
      generalize a % 18446744073709551616 * 2 ^ m.toNat = y at *
      apply ok_mk_inj; omega
  rw [key, wrap_of_inRange hr]

theorem shiftLeftU_ok (T : CTy) (hs : T.signed = false) (hb : T.bits ≤ 32) (a b : Int)
    (ha : T.InRange a) (h1 : -2147483648 < b) (h2 : b ≤ 0) :
    shiftLeftU T ⟨T, a⟩ ⟨.i32, b⟩ = .ok ⟨T.wide, a * 2 ^ (min (-b) T.bits).toNat⟩ ∧
      T.wide.InRange (a * 2 ^ (min (-b) T.bits).toNat) := by
  have hm0 : 0 ≤ min (-b) T.bits := by omega
  have hm1 : min (-b) T.bits ≤ T.bits := by omega
  unfold shiftLeftU
  rw [leftAmount_ok T hb b h1 h2, Outcome.ok_bind]
  generalize min (-b) (T.bits : Int) = m at *
  have hP0 : (1 : Int) ≤ 2 ^ m.toNat := Int.pow_pos (by omega)
  have hP1 : (2 : Int) ^ m.toNat ≤ 2 ^ T.bits := pow_le_pow_right₀ (by omega) (by omega)
  have hbnd := mul_pow_bounds a (2 ^ m.toNat) T.lo T.hi (2 ^ T.bits) ha.1 ha.2 hP0 hP1
    (by cases T <;> decide) (by cases T <;> decide)
  have hr : T.wide.InRange (a * 2 ^ m.toNat) := by
    revert hbnd
    generalize a * 2 ^ m.toNat = x
    intro hbnd
    cty_cases T <;> simp only [lo_u8, lo_u16, lo_u32, hi_u8, hi_u16, hi_u32, CTy.bits, Int.reducePow, Int.reduceMul,
      Int.reduceNeg] at hbnd <;> range_split <;> omega
  refine ⟨?_, hr⟩
  have hc : CVal.cast T.wide ⟨T, a⟩ = ⟨T.wide, a⟩ := by
    cty_cases T <;> range_split <;> cop_eval
  have key : (do let s ← shl ⟨T.wide, a⟩ ⟨T.toU, m⟩; Outcome.ok (CVal.cast T.wide s)) =
      .ok ⟨T.wide, T.wide.wrap (a * 2 ^ m.toNat)⟩ := by
    cty_cases T <;> simp only [CTy.bits, Int.cast_ofNat_Int, CTy.toU] at * <;> range_split
    · rw [shl_u16 _ _ _ (by omega) (by omega) (by omega) (by omega)]
      simp only [Outcome.ok_bind, CVal.cast]
    · rw [shl_u32 _ _ _ (by omega) (by omega)]
      simp only [Outcome.ok_bind, wrap_u32_def, CVal.cast]
      apply ok_mk_inj; omega
    · rw [shl_u64 _ _ _ (by omega) (by omega)]
      simp only [Outcome.ok_bind, wrap_u64_def, CVal.cast]
      apply ok_mk_inj; omega
  rw [hc, key, wrap_of_inRange hr]

theorem vShiftS_ok (round : Bool) (T : CTy) (hs : T.signed = true) (hb : T.bits ≤ 32) (a b : Int)
    (ha : T.InRange a) (hb' : T.InRange b) (hub : ¬ (a ≠ 0 ∧ b = -2147483648)) :
    vShiftS round T ⟨T, a⟩ ⟨T, b⟩ = .ok ⟨T, Spec.sat true T.bits (Spec.shiftBoth round b a)⟩ := by
  rw [← hs, sat_spec]
  unfold vShiftS
  have hsh : cast .i32 (⟨T, b⟩ : CVal) = ⟨.i32, b⟩ := by
    cty_cases T <;> range_split <;> cop_eval
  rw [hsh]
  have hz (c : Int) (hc : T.InRange c) : (CTy.usual T .i32).wrap c = c := by
    cty_cases T <;> range_split <;> cop_eval
  have hz0 : (CTy.usual T .i32).wrap 0 = 0 := by cases T <;> rfl
  have hz1 : (CTy.usual .i32 T).wrap 0 = 0 := by cases T <;> rfl
  have hz2 : (CTy.usual .i32 T).wrap a = a := by
    cty_cases T <;> range_split <;> cop_eval
  have e1 : eq (⟨T, a⟩ : CVal) (lit 0) = decide (a = 0) := by simp only [eq, lit, hz a ha, hz0]
  have e2 : lt (⟨T, a⟩ : CVal) (lit 0) = decide (a < 0) := by simp only [lt, lit, hz a ha, hz0]
  have e3 : gt (⟨T, a⟩ : CVal) (lit 0) = decide (0 < a) := by simp only [gt, lt, lit, hz1, hz2]
  have hsz : ((T.size : Int) * 8) = T.bits := by cases T <;> rfl
  simp only [e1, e2, e3, hsz]
  by_cases h0 : a = 0
  · subst h0
    have : Spec.shiftBoth round b 0 = 0 := by
      unfold Spec.shiftBoth Spec.shiftRight
      split
      · split
        · rename_i h
          rw [Int.fdiv_eq_ediv_of_nonneg _ (by exact pow_nonneg (by omega) _)]
          apply Int.ediv_eq_zero_of_lt
          · have : (0 : Int) < 2 ^ (b.toNat - 1) := Int.pow_pos (by omega)
            omega
          · have : (2 : Int) ^ (b.toNat - 1) < 2 ^ b.toNat := pow_lt_pow_right₀ (by omega) (by omega)
            omega
        · simp
      · simp
    rw [this]
    simp only [decide_true, if_true]
    cty_cases T <;> cop_eval <;> apply ok_mk_inj <;> omega
  · rw [if_neg (by simpa using h0)]
    -- the tail after `shift` is known
    have tail (q x : Int) (hq : T.wide.InRange q)
        (h1 : b ≤ -T.bits → (a < 0 → x ≤ T.lo) ∧ (0 < a → T.hi ≤ x)) (h2 : -T.bits < b → q = x)
        (h3 : (a < 0 → x ≤ T.hi) ∧ (0 < a → T.lo ≤ x)) :
        (if (decide (a < 0) && (le ⟨.i32, b⟩ (lit (-(T.bits : Int))) || lt ⟨T.wide, q⟩ (tmin T))) = true
          then Outcome.ok (tmin T)
          else if (decide (0 < a) && (le ⟨.i32, b⟩ (lit (-(T.bits : Int))) || gt ⟨T.wide, q⟩ (tmax T))) = true
            then .ok (tmax T) else .ok (cast T ⟨T.wide, q⟩)) = .ok ⟨T, max T.lo (min T.hi x)⟩ := by
      have hle : le ⟨.i32, b⟩ (lit (-(T.bits : Int))) = decide (b ≤ -T.bits) := by
        cty_cases T <;> range_split <;> simp only [CTy.bits, Int.cast_ofNat_Int] <;> cop_eval <;> rfl
      have hl : lt ⟨T.wide, q⟩ (tmin T) = decide (q < T.lo) := by
        cty_cases T <;> range_split <;> cop_eval
      have hg : gt ⟨T.wide, q⟩ (tmax T) = decide (T.hi < q) := by
        cty_cases T <;> range_split <;> cop_eval
      have hlohi : T.lo ≤ T.hi := by cases T <;> decide
      have hc : T.lo ≤ q → q ≤ T.hi → cast T ⟨T.wide, q⟩ = ⟨T, q⟩ := fun g1 g2 => by
        rw [CVal.cast, wrap_of_inRange ⟨g1, g2⟩]
      rw [hle, hl, hg]
      simp only [Bool.and_eq_true, Bool.or_eq_true, decide_eq_true_eq, tmin, tmax]
      obtain ⟨h3, h4⟩ := h3
      rcases lt_or_gt_of_ne h0 with hn | hp
      · have h3 := h3 hn
        by_cases hbw : b ≤ -T.bits
        · have := (h1 hbw).1 hn
          rw [if_pos ⟨hn, Or.inl hbw⟩]; apply ok_mk_inj; omega
        · have := h2 (by omega)
          subst this
          by_cases hql : q < T.lo
          · rw [if_pos ⟨hn, Or.inr hql⟩]; apply ok_mk_inj; omega
          · rw [if_neg (by omega), if_neg (by omega), hc (by omega) (by omega)]; apply ok_mk_inj; omega
      · have h4 := h4 hp
        rw [if_neg (by omega)]
        by_cases hbw : b ≤ -T.bits
        · have := (h1 hbw).2 hp
          rw [if_pos ⟨hp, Or.inl hbw⟩]; apply ok_mk_inj; omega
        · have := h2 (by omega)
          subst this
          by_cases hql : T.hi < q
          · rw [if_pos ⟨hp, Or.inr hql⟩]; apply ok_mk_inj; omega
          · rw [if_neg (by omega), hc (by omega) (by omega)]; apply ok_mk_inj; omega
    have hlo : T.lo = -(2 ^ (T.bits - 1)) := by cty_cases T <;> rfl
    have hhi : T.hi = 2 ^ (T.bits - 1) - 1 := by cty_cases T <;> rfl
    have hlohi : T.lo ≤ 0 ∧ 0 ≤ T.hi := by cases T <;> decide
    have hge : ge ⟨.i32, b⟩ (lit (T.bits : Int)) = decide ((T.bits : Int) ≤ b) := by
      cty_cases T <;> range_split <;> simp only [CTy.bits, Int.cast_ofNat_Int] <;> cop_eval <;> rfl
    have hgt : gt ⟨.i32, b⟩ (lit 0) = decide (0 < b) := by
      cty_cases T <;> range_split <;> cop_eval
    have hshift : ∃ q, shiftS round T ⟨T, a⟩ ⟨.i32, b⟩ = .ok ⟨T.wide, q⟩ ∧ T.wide.InRange q ∧
        (-T.bits < b → q = Spec.shiftBoth round b a) := by
      unfold shiftS
      simp only [hsz, e2, e3, hge, hgt]
      by_cases hbig : (T.bits : Int) ≤ b
      · have hx : Spec.shiftBoth round b a = if a < 0 ∧ round = false then -1 else 0 := by
          unfold Spec.shiftBoth
          rw [if_pos (by omega), shiftRight_large round T.bits b (by cases T <;> decide) hbig]
          · have := ha.1; omega
          · have := ha.2; omega
        refine ⟨if a < 0 ∧ round = false then -1 else 0, ?_, ?_, fun _ => hx.symm⟩
        · rcases lt_or_gt_of_ne h0 with hn | hp
          · simp only [hn, hbig, decide_true, Bool.and_self, if_true, true_and]
            cases round <;> cty_cases T <;> rfl
          · have hn : ¬ a < 0 := by omega
            simp only [hn, hp, hbig, decide_true, decide_false, Bool.false_and, Bool.true_and, if_true, if_false,
              false_and, Bool.false_eq_true]
            cases T <;> rfl
        · split
          · cty_cases T <;> decide
          · cases T <;> decide
      · simp only [hbig, decide_false, Bool.and_false, Bool.false_eq_true, if_false]
        by_cases hpos : 0 < b
        · have hx : Spec.shiftBoth round b a = Spec.shiftRight round b.toNat a := by
            unfold Spec.shiftBoth; rw [if_pos (by omega)]
          have hbd := shiftRight_bounds round b.toNat a
          refine ⟨_, ?_, inRange_wide_of_le T hb a _ ha hbd.1 hbd.2, fun _ => hx.symm⟩
          rw [if_pos (by simpa using hpos)]
          exact shiftRightW_ok round T .i64 .i32 (Or.inl rfl) hb ⟨rfl, by decide⟩ a b ha (fun _ => hpos)
            (by omega) (by omega) (by rw [inRange_i32]; omega)
        · have hmin : -2147483648 < b := by
            cty_cases T <;> range_split <;> omega
          obtain ⟨q1, q2⟩ := shiftLeftS_ok T hs hb a b ha hmin (by omega)
          refine ⟨_, ?_, q2, fun hw => ?_⟩
          · rw [if_neg (by simpa using hpos)]; exact q1
          · unfold Spec.shiftBoth
            rw [min_eq_left (by omega)]
            split
            · have hb0 : b = 0 := by omega
              subst hb0; simp [Spec.shiftRight]
            · rfl
    obtain ⟨q, hq1, hq2, hq3⟩ := hshift
    rw [hq1, Outcome.ok_bind]
    apply tail q _ hq2 _ hq3
    · -- sign of the exact result
      constructor
      · intro hn
        unfold Spec.shiftBoth
        split
        · have := (shiftRight_bounds round b.toNat a).2; omega
        · have : (0 : Int) < 2 ^ (-b).toNat := Int.pow_pos (by omega)
          nlinarith
      · intro hn
        unfold Spec.shiftBoth
        split
        · have := (shiftRight_bounds round b.toNat a).1; omega
        · have : (0 : Int) < 2 ^ (-b).toNat := Int.pow_pos (by omega)
          nlinarith
    · intro hbw
      have hbits : 0 < T.bits := by cases T <;> decide
      have hP : (2 : Int) ^ (T.bits - 1) ≤ 2 ^ (-b).toNat := pow_le_pow_right₀ (by omega) (by omega)
      unfold Spec.shiftBoth
      rw [if_neg (by omega)]
      constructor
      · intro hn; nlinarith
      · intro hn; nlinarith
end Verif.Proofs
