import Mathlib.Data.Nat.Bitwise
import Verif.Proofs.ElemMul

/-! Element-level correctness of the bitwise operations. -/

namespace Verif.Proofs
open Verif Verif.Model CVal

theorem ofInt_natCast' (n x : Nat) : BitVec.ofInt n (x : Int) = BitVec.ofNat n x := BitVec.ofInt_natCast ..

theorem wrap_natCast (t : CTy) (x : Nat) (h : t.InRange x) : t.wrap (x : Int) = x := wrap_of_inRange h

theorem land_nat (t u : CTy) (x y : Nat) (hx : x < 2 ^ (CTy.usual t u).bits) (hy : y < 2 ^ (CTy.usual t u).bits)
    (hr : (CTy.usual t u).InRange ((x &&& y : Nat) : Int)) :
    land ⟨t, x⟩ ⟨u, y⟩ = ⟨CTy.usual t u, (x &&& y : Nat)⟩ := by
  simp only [land, land', ofBits, ofInt_natCast', BitVec.toNat_and, BitVec.toNat_ofNat, Nat.mod_eq_of_lt hx,
    Nat.mod_eq_of_lt hy, wrap_natCast _ _ hr]

theorem lor_nat (t u : CTy) (x y : Nat) (hx : x < 2 ^ (CTy.usual t u).bits) (hy : y < 2 ^ (CTy.usual t u).bits)
    (hr : (CTy.usual t u).InRange ((x ||| y : Nat) : Int)) :
    lor ⟨t, x⟩ ⟨u, y⟩ = ⟨CTy.usual t u, (x ||| y : Nat)⟩ := by
  simp only [lor, lor', ofBits, ofInt_natCast', BitVec.toNat_or, BitVec.toNat_ofNat, Nat.mod_eq_of_lt hx,
    Nat.mod_eq_of_lt hy, wrap_natCast _ _ hr]

theorem lxor_nat (t u : CTy) (x y : Nat) (hx : x < 2 ^ (CTy.usual t u).bits) (hy : y < 2 ^ (CTy.usual t u).bits)
    (hr : (CTy.usual t u).InRange ((x ^^^ y : Nat) : Int)) :
    lxor ⟨t, x⟩ ⟨u, y⟩ = ⟨CTy.usual t u, (x ^^^ y : Nat)⟩ := by
  simp only [lxor, lxor', ofBits, ofInt_natCast', BitVec.toNat_xor, BitVec.toNat_ofNat, Nat.mod_eq_of_lt hx,
    Nat.mod_eq_of_lt hy, wrap_natCast _ _ hr]

/-- For an unsigned lane type, every value below `2^bits` is in the range of the promoted type. -/
theorem usual_self_nat (T : CTy) (hs : T.signed = false) (hb : T.bits ≤ 32) (x : Nat) (hx : x < 2 ^ T.bits) :
    x < 2 ^ (CTy.usual T T).bits ∧ (CTy.usual T T).InRange (x : Int) ∧ T.InRange (x : Int) := by
  cty_cases T <;> simp only [CTy.bits, CTy.usual, CTy.promote, Nat.reducePow] at * <;> range_split <;> omega

theorem vAnd_ok (T : CTy) (hs : T.signed = false) (hb : T.bits ≤ 32) (x y : BitVec T.bits) :
    vAnd T ⟨T, x.toNat⟩ ⟨T, y.toNat⟩ = .ok ⟨T, (x &&& y).toNat⟩ := by
  have h1 := usual_self_nat T hs hb _ x.isLt
  have h2 := usual_self_nat T hs hb _ y.isLt
  have h3 := usual_self_nat T hs hb _ (x &&& y).isLt
  rw [BitVec.toNat_and] at h3
  rw [vAnd, land_nat T T _ _ h1.1 h2.1 h3.2.1, CVal.cast, wrap_of_inRange h3.2.2, BitVec.toNat_and]

theorem vOr_ok (T : CTy) (hs : T.signed = false) (hb : T.bits ≤ 32) (x y : BitVec T.bits) :
    vOr T ⟨T, x.toNat⟩ ⟨T, y.toNat⟩ = .ok ⟨T, (x ||| y).toNat⟩ := by
  have h1 := usual_self_nat T hs hb _ x.isLt
  have h2 := usual_self_nat T hs hb _ y.isLt
  have h3 := usual_self_nat T hs hb _ (x ||| y).isLt
  rw [BitVec.toNat_or] at h3
  rw [vOr, lor_nat T T _ _ h1.1 h2.1 h3.2.1, CVal.cast, wrap_of_inRange h3.2.2, BitVec.toNat_or]

theorem vXor_ok (T : CTy) (hs : T.signed = false) (hb : T.bits ≤ 32) (x y : BitVec T.bits) :
    vXor T ⟨T, x.toNat⟩ ⟨T, y.toNat⟩ = .ok ⟨T, (x ^^^ y).toNat⟩ := by
  have h1 := usual_self_nat T hs hb _ x.isLt
  have h2 := usual_self_nat T hs hb _ y.isLt
  have h3 := usual_self_nat T hs hb _ (x ^^^ y).isLt
  rw [BitVec.toNat_xor] at h3
  rw [vXor, lxor_nat T T _ _ h1.1 h2.1 h3.2.1, CVal.cast, wrap_of_inRange h3.2.2, BitVec.toNat_xor]

/-- `~x` on an `int` lane. -/
theorem vNot_ok (x : BitVec 32) : vNot .i32 ⟨.i32, x.toInt⟩ = .ok ⟨.i32, (~~~ x).toInt⟩ := by
  have e : lnot ⟨.i32, x.toInt⟩ = ⟨.i32, (~~~ x).toInt⟩ := by
    have : lnot ⟨.i32, x.toInt⟩ = ofBits .i32 (~~~ BitVec.ofInt 32 x.toInt) := rfl
    rw [this, BitVec.ofInt_toInt, ofBits_i32]
  rw [vNot, e]
  have h1 := BitVec.toInt_lt (x := ~~~ x)
  have h2 := BitVec.le_toInt (x := ~~~ x)
  simp only [Nat.reduceSub, Int.reducePow] at h1 h2
  rw [cast_mk _ _ _ (by rw [lo_i32]; omega) (by rw [hi_i32]; omega)]

/-- The `n`-bit test of `CoralNPUVRev` / `CoralNPUVRor`. -/
theorem bitTest (T : CTy) (hs : T.signed = false) (hb : T.bits ≤ 32) (c k : Nat) (hc : c < 32) (hk : k < 32) :
    ne (land ⟨T, c⟩ (lit k)) (lit 0) = decide (c &&& k ≠ 0) := by
  have h : (c &&& k) ≤ c := Nat.and_le_left
  have h1 : land ⟨T, c⟩ (lit k) = ⟨CTy.usual T .i32, (c &&& k : Nat)⟩ := by
    apply land_nat
    · cty_cases T <;> simp only [CTy.usual, CTy.promote, CTy.bits, Nat.reducePow] <;> omega
    · cty_cases T <;> simp only [CTy.usual, CTy.promote, CTy.bits, Nat.reducePow] <;> omega
    · cty_cases T <;> simp only [CTy.usual, CTy.promote] <;> range_split <;> omega
  rw [h1]
  generalize c &&& k = z at *
  cty_cases T <;> cop_eval <;> simp

/-- One stage of the bit reversal network on naturals. -/
def revN (w s : Nat) (m1 m2 r : Nat) : Nat := ((r &&& m1) <<< s ||| (r &&& m2) >>> s) % 2 ^ w

theorem revStage_ok (T : CTy) (hs : T.signed = false) (hb : T.bits ≤ 32) (m1 m2 s : Nat) (hm1 : m1 < 2 ^ 31)
    (hm2 : m2 < 2 ^ 32) (hsh : s ≤ 16) (hsT : T.bits = 8 → s ≤ 4) (hsT' : T.bits = 16 → s ≤ 8)
    (r : Nat) (hr : r < 2 ^ T.bits) :
    revStage T (lit m1) ⟨.u32, m2⟩ s ⟨T, r⟩ = .ok ⟨T, revN T.bits s m1 m2 r⟩ := by
  have ha : (r &&& m1) ≤ m1 := Nat.and_le_right
  have ha' : (r &&& m1) ≤ r := Nat.and_le_left
  have hb1 : (r &&& m2) ≤ m2 := Nat.and_le_right
  have hr32 : r < 2 ^ 32 := lt_of_lt_of_le hr (Nat.pow_le_pow_right (by omega) hb)
  have e1 : land ⟨T, r⟩ (lit m1) = ⟨CTy.usual T .i32, (r &&& m1 : Nat)⟩ := by
    apply land_nat
    · cty_cases T <;> simp only [CTy.usual, CTy.promote, CTy.bits, Nat.reducePow] at * <;> omega
    · cty_cases T <;> simp only [CTy.usual, CTy.promote, CTy.bits, Nat.reducePow] at * <;> omega
    · cty_cases T <;> simp only [CTy.usual, CTy.promote, CTy.bits, Nat.reducePow] at * <;> range_split <;> omega
  have e2 : land ⟨T, r⟩ ⟨.u32, m2⟩ = ⟨.u32, (r &&& m2 : Nat)⟩ := by
    have hu : CTy.usual T .u32 = .u32 := by cty_cases T <;> rfl
    have := land_nat T .u32 r m2
    rw [hu] at this
    apply this
    · simp only [CTy.bits]; omega
    · simp only [CTy.bits]; omega
    · range_split; simp only [Nat.reducePow] at *; omega
  have e3 : shl ⟨CTy.usual T .i32, (r &&& m1 : Nat)⟩ (lit s) =
      .ok ⟨CTy.usual T .i32, (((r &&& m1) <<< s) % 2 ^ 32 : Nat)⟩ := by
    rw [Nat.shiftLeft_eq]
    have hP : 2 ^ s ≤ 2 ^ 16 := Nat.pow_le_pow_right (by omega) hsh
    have hP8 : T.bits = 8 → 2 ^ s ≤ 2 ^ 4 := fun h => Nat.pow_le_pow_right (by omega) (hsT h)
    have hP16 : T.bits = 16 → 2 ^ s ≤ 2 ^ 8 := fun h => Nat.pow_le_pow_right (by omega) (hsT' h)
    have hmul : ∀ u k : Nat, (r &&& m1) ≤ u → 2 ^ s ≤ k → (r &&& m1) * 2 ^ s ≤ u * k :=
      fun u k h1 h2 => Nat.mul_le_mul h1 h2
    have hcast : ((r &&& m1 : Nat) : Int) * 2 ^ (s : Int).toNat = (((r &&& m1) * 2 ^ s : Nat) : Int) := by
      push_cast; simp
    cty_cases T <;> simp only [CTy.usual, CTy.promote, CTy.bits, Nat.reducePow] at *
    · have := hmul 255 16 (by omega) (hP8 trivial)
      rw [lit, shl_i32 _ _ _ (by omega) (by omega) (by omega) (by rw [hcast]; omega), hcast]
      apply ok_mk_inj; omega
    · have := hmul 65535 256 (by omega) (hP16 trivial)
      rw [lit, shl_i32 _ _ _ (by omega) (by omega) (by omega) (by rw [hcast]; omega), hcast]
      apply ok_mk_inj; omega
    · rw [lit, shl_u32 _ _ _ (by omega) (by omega), hcast, wrap_u32_def]
      apply ok_mk_inj; push_cast; rfl
  have e4 : shr ⟨.u32, (r &&& m2 : Nat)⟩ (lit s) = .ok ⟨.u32, ((r &&& m2) >>> s : Nat)⟩ := by
    rw [lit, shr_u32 _ _ _ (by omega) (by omega), Nat.shiftRight_eq_div_pow]
    apply ok_mk_inj; simp
  unfold revStage
  rw [e1, e2, e3, Outcome.ok_bind, e4, Outcome.ok_bind]
  have hu : CTy.usual (CTy.usual T .i32) .u32 = .u32 := by cty_cases T <;> rfl
  have l1 : ((r &&& m1) <<< s) % 2 ^ 32 < 2 ^ 32 := Nat.mod_lt _ (by decide)
  have l2 : (r &&& m2) >>> s < 2 ^ 32 := by
    rw [Nat.shiftRight_eq_div_pow]; exact lt_of_le_of_lt (Nat.div_le_self _ _) (by omega)
  have l3 := Nat.or_lt_two_pow l1 l2
  have e5 : lor ⟨CTy.usual T .i32, (((r &&& m1) <<< s) % 2 ^ 32 : Nat)⟩ ⟨.u32, ((r &&& m2) >>> s : Nat)⟩ =
      ⟨.u32, (((r &&& m1) <<< s) % 2 ^ 32 ||| (r &&& m2) >>> s : Nat)⟩ := by
    have := lor_nat (CTy.usual T .i32) .u32 (((r &&& m1) <<< s) % 2 ^ 32) ((r &&& m2) >>> s)
    rw [hu] at this
    apply this
    · exact l1
    · exact l2
    · range_split; omega
  rw [e5, CVal.cast]
  apply ok_mk_inj
  have hw : T.wrap (((((r &&& m1) <<< s) % 2 ^ 32 ||| (r &&& m2) >>> s : Nat)) : Int) =
      ((((((r &&& m1) <<< s) % 2 ^ 32 ||| (r &&& m2) >>> s) % 2 ^ T.bits : Nat)) : Int) := by
    generalize (((r &&& m1) <<< s) % 2 ^ 32 ||| (r &&& m2) >>> s) = z
    cty_cases T <;> simp [cint]
  rw [hw, revN]
  congr 1
  apply Nat.eq_of_testBit_eq
  intro i
  simp only [Nat.testBit_mod_two_pow, Nat.testBit_or]
  by_cases h : i < T.bits
  · have : i < 32 := by omega
    simp [h, this]
  · simp [h]

theorem revN_testBit (w s m1 m2 r : Nat)
    (h1 : ∀ i < w, (decide (s ≤ i) && m1.testBit (i - s)) = (Nat.testBit i (Nat.log2 s)))
    (h2 : ∀ i < w, m2.testBit (i + s) = !(Nat.testBit i (Nat.log2 s)))
    (h3 : ∀ i < w, i ^^^ s = if Nat.testBit i (Nat.log2 s) then i - s else i + s) :
    ∀ i < w, (revN w s m1 m2 r).testBit i = r.testBit (i ^^^ s) := by
  intro i hi
  have a1 := h1 i hi; have a2 := h2 i hi; have a3 := h3 i hi
  simp only [revN, Nat.testBit_mod_two_pow, hi, decide_true, Bool.true_and, Nat.testBit_or, Nat.testBit_shiftLeft,
    Nat.testBit_shiftRight, Nat.testBit_and, Nat.add_comm s i]
  rw [a3, a2]
  cases ht : Nat.testBit i (Nat.log2 s)
  · rw [ht] at a1
    simp only [Bool.not_false, Bool.and_true, Bool.false_eq_true, if_false]
    by_cases hsi : s ≤ i
    · simp only [hsi, decide_true, Bool.true_and] at a1
      simp [a1]
    · simp [hsi]
  · rw [ht] at a1
    simp only [Bool.and_eq_true, decide_eq_true_eq] at a1
    simp [a1.1, a1.2]

theorem revN_lt (w s m1 m2 r : Nat) : revN w s m1 m2 r < 2 ^ w := Nat.mod_lt _ (Nat.pow_pos (by omega))

theorem countMask (T : CTy) (hs : T.signed = false) (hb : T.bits ≤ 32) (y : Nat) (_hy : y < 2 ^ T.bits) :
    CVal.cast T (land ⟨T, y⟩ (lit 0b11111)) = ⟨T, (y % 32 : Nat)⟩ := by
  have h : land ⟨T, y⟩ (lit 31) = ⟨CTy.usual T .i32, (y : Int) % 32⟩ :=
    land_mask T .i32 y 5 31 (by decide) (by cty_cases T <;> decide)
  rw [show (0b11111 : Int) = 31 from rfl, h, CVal.cast]
  congr 1
  have : ((y % 32 : Nat) : Int) = (y : Int) % 32 := by omega
  rw [this]
  apply wrap_of_inRange
  cty_cases T <;> range_split <;> omega

/-- One conditional stage of `vRev`. -/
theorem revCond (T : CTy) (hs : T.signed = false) (hb : T.bits ≤ 32) (c s m1 m2 : Nat) (hc : c < 32)
    (h1 : m1 < 2 ^ 31) (h2 : m2 < 2 ^ 32) (h3 : s ≤ 16) (hle : 2 * s ≤ T.bits)
    (g : ∀ w, w = 8 ∨ w = 16 ∨ w = 32 → 2 * s ≤ w → ∀ i < w,
      (decide (s ≤ i) && m1.testBit (i - s)) = (Nat.testBit i (Nat.log2 s)) ∧
      m2.testBit (i + s) = !(Nat.testBit i (Nat.log2 s)) ∧
      (i ^^^ s = if Nat.testBit i (Nat.log2 s) then i - s else i + s) ∧ i ^^^ s < w)
    (x r : Nat) (P : Nat) (hr : r < 2 ^ T.bits)
    (hP : ∀ i < T.bits, r.testBit i = x.testBit (i ^^^ P)) :
    ∃ r' : Nat, r' < 2 ^ T.bits ∧
      revIf T ⟨T, c⟩ s (lit m1) ⟨.u32, m2⟩ ⟨T, r⟩ = .ok ⟨T, r'⟩ ∧
      ∀ i < T.bits, r'.testBit i = x.testBit (i ^^^ ((if c &&& s ≠ 0 then s else 0) ^^^ P)) := by
  have hbits : T.bits = 8 ∨ T.bits = 16 ∨ T.bits = 32 := by cty_cases T <;> simp [CTy.bits]
  have g' := g T.bits hbits hle
  unfold revIf
  rw [bitTest T hs hb c s hc (by omega)]
  by_cases hcs : c &&& s ≠ 0
  · rw [if_pos (by simpa using hcs)]
    refine ⟨_, revN_lt _ _ _ _ _, revStage_ok T hs hb m1 m2 s h1 h2 h3 (by omega) (by omega) r hr, ?_⟩
    intro i hi
    rw [revN_testBit T.bits s m1 m2 r (fun i hi => (g' i hi).1) (fun i hi => (g' i hi).2.1)
      (fun i hi => (g' i hi).2.2.1) i hi, hP _ (g' i hi).2.2.2, if_pos hcs, Nat.xor_assoc]
  · rw [if_neg (by simpa using hcs)]
    refine ⟨r, hr, rfl, ?_⟩
    intro i hi
    rw [if_neg hcs, Nat.zero_xor]; exact hP i hi

theorem rev_bits8 : ∀ c < 32, (if c &&& 4 ≠ 0 then 4 else 0) ^^^ ((if c &&& 2 ≠ 0 then 2 else 0) ^^^
    (if c &&& 1 ≠ 0 then 1 else 0)) = c % 8 := by decide
theorem rev_bits16 : ∀ c < 32, (if c &&& 8 ≠ 0 then 8 else 0) ^^^ ((if c &&& 4 ≠ 0 then 4 else 0) ^^^
    ((if c &&& 2 ≠ 0 then 2 else 0) ^^^ (if c &&& 1 ≠ 0 then 1 else 0))) = c % 16 := by decide
theorem rev_bits32 : ∀ c < 32, (if c &&& 16 ≠ 0 then 16 else 0) ^^^ ((if c &&& 8 ≠ 0 then 8 else 0) ^^^
    ((if c &&& 4 ≠ 0 then 4 else 0) ^^^
    ((if c &&& 2 ≠ 0 then 2 else 0) ^^^ (if c &&& 1 ≠ 0 then 1 else 0)))) = c % 32 := by decide

theorem vRev_nat (T : CTy) (hs : T.signed = false) (hb : T.bits ≤ 32) (x y : Nat) (hx : x < 2 ^ T.bits)
    (hy : y < 2 ^ T.bits) :
    ∃ z : Nat, z < 2 ^ T.bits ∧ vRev T ⟨T, x⟩ ⟨T, y⟩ = .ok ⟨T, z⟩ ∧
      ∀ i < T.bits, z.testBit i = x.testBit (i ^^^ (y % T.bits)) := by
  have hm := countMask T hs hb y hy
  have hc : y % 32 < 32 := Nat.mod_lt _ (by decide)
  have hbits : T.bits = 8 ∨ T.bits = 16 ∨ T.bits = 32 := by cty_cases T <;> simp [CTy.bits]
  have hcm : y % 32 % T.bits = y % T.bits := by
    rcases hbits with h | h | h <;> rw [h] <;> omega
  have hsize : T.bits = 8 * T.size := by cases T <;> rfl
  rw [← hcm]
  unfold vRev
  simp only [hm]
  clear hm hcm hy
  generalize y % 32 = c at *
  obtain ⟨r1, a1, b1, c1⟩ := revCond T hs hb c 1 0x55555555 0xAAAAAAAA hc (by decide) (by decide) (by decide)
    (by omega) (by rintro w (rfl | rfl | rfl) h <;> decide) x x 0 hx (by simp)
  obtain ⟨r2, a2, b2, c2⟩ := revCond T hs hb c 2 0x33333333 0xCCCCCCCC hc (by decide) (by decide) (by decide)
    (by omega) (by rintro w (rfl | rfl | rfl) h <;> decide) x r1 _ a1 c1
  obtain ⟨r4, a4, b4, c4⟩ := revCond T hs hb c 4 0x0F0F0F0F 0xF0F0F0F0 hc (by decide) (by decide) (by decide)
    (by omega) (by rintro w (rfl | rfl | rfl) h <;> decide) x r2 _ a2 c2
  simp only [Nat.cast_ofNat, Nat.cast_one] at b1 b2 b4
  rw [b1, Outcome.ok_bind, b2, Outcome.ok_bind, b4, Outcome.ok_bind]
  by_cases h8 : T.size = 1
  · rw [if_pos h8]
    refine ⟨r4, a4, rfl, fun i hi => ?_⟩
    rw [c4 i hi, Nat.xor_zero, rev_bits8 c hc, show T.bits = 8 by omega]
  · rw [if_neg h8]
    obtain ⟨r8, a8, b8, c8⟩ := revCond T hs hb c 8 0x00FF00FF 0xFF00FF00 hc (by decide) (by decide) (by decide)
      (by omega) (by rintro w (rfl | rfl | rfl) h <;> first | omega | decide) x r4 _ a4 c4
    simp only [Nat.cast_ofNat] at b8
    rw [b8, Outcome.ok_bind]
    by_cases h16 : T.size = 2
    · rw [if_pos h16]
      refine ⟨r8, a8, rfl, fun i hi => ?_⟩
      rw [c8 i hi, Nat.xor_zero, rev_bits16 c hc, show T.bits = 16 by omega]
    · rw [if_neg h16]
      obtain ⟨r16, a16, b16, c16⟩ := revCond T hs hb c 16 0x0000FFFF 0xFFFF0000 hc (by decide) (by decide) (by decide)
        (by omega) (by rintro w (rfl | rfl | rfl) h <;> first | omega | decide) x r8 _ a8 c8
      simp only [Nat.cast_ofNat] at b16
      refine ⟨r16, a16, b16, fun i hi => ?_⟩
      rw [c16 i hi, Nat.xor_zero, rev_bits32 c hc, show T.bits = 32 by omega]

theorem vRev_ok (T : CTy) (hs : T.signed = false) (hb : T.bits ≤ 32) (x y : BitVec T.bits) :
    ∃ z : BitVec T.bits, vRev T ⟨T, x.toNat⟩ ⟨T, y.toNat⟩ = .ok ⟨T, z.toNat⟩ ∧
      ∀ i < T.bits, z.getLsbD i = x.getLsbD (i ^^^ (y.toNat % T.bits)) := by
  obtain ⟨z, h1, h2, h3⟩ := vRev_nat T hs hb x.toNat y.toNat x.isLt y.isLt
  refine ⟨BitVec.ofNat _ z, ?_, ?_⟩
  · rw [h2, BitVec.toNat_ofNat, Nat.mod_eq_of_lt h1]
  · intro i hi
    rw [BitVec.getLsbD_ofNat]
    simp only [hi, decide_true, Bool.true_and]
    exact h3 i hi

/-- One rotation on naturals. -/
def rorN (w s r : Nat) : Nat := (r >>> s ||| r <<< (w - s)) % 2 ^ w

theorem rorN_testBit (w s r : Nat) (hs : s ≤ w) (hr : r < 2 ^ w) :
    ∀ i < w, (rorN w s r).testBit i = r.testBit ((i + s) % w) := by
  intro i hi
  simp only [rorN, Nat.testBit_mod_two_pow, hi, decide_true, Bool.true_and, Nat.testBit_or, Nat.testBit_shiftLeft,
    Nat.testBit_shiftRight]
  by_cases h : i + s < w
  · rw [Nat.mod_eq_of_lt h]
    have : ¬ w - s ≤ i := by omega
    simp [this, Nat.add_comm]
  · have e : (i + s) % w = i - (w - s) := by
      rw [Nat.mod_eq_sub_mod (by omega), Nat.mod_eq_of_lt (by omega)]; omega
    rw [e]
    have h1 : r.testBit (s + i) = false := by
      apply Nat.testBit_lt_two_pow
      exact lt_of_lt_of_le hr (Nat.pow_le_pow_right (by omega) (by omega))
    have : w - s ≤ i := by omega
    simp [h1, this]

theorem rorStage_ok (T : CTy) (hs : T.signed = false) (hb : T.bits ≤ 32) (s : Nat) (h0 : 0 < s) (hsT : s < T.bits)
    (r : Nat) (hr : r < 2 ^ T.bits) :
    rorStage T s ⟨T, r⟩ = .ok ⟨T, rorN T.bits s r⟩ := by
  have hbits : T.bits = 8 ∨ T.bits = 16 ∨ T.bits = 32 := by cty_cases T <;> simp [CTy.bits]
  have e1 : shr ⟨T, r⟩ (lit s) = .ok ⟨T.promote, (r >>> s : Nat)⟩ := by
    rw [Nat.shiftRight_eq_div_pow]
    have : shr ⟨T, r⟩ (lit s) = .ok ⟨T.promote, (r : Int) / 2 ^ (s : Int).toNat⟩ := by
      apply if_pos
      refine ⟨by simp [lit], ?_⟩
      cty_cases T <;> simp only [lit, CTy.promote, CTy.bits] at * <;> omega
    rw [this]; simp
  have hn : ((T.size : Int) * 8 - s) = ((T.bits - s : Nat) : Int) := by
    have : T.bits = 8 * T.size := by cases T <;> rfl
    omega
  have e2 : shl ⟨T, r⟩ ⟨.u64, (T.size : Int) * 8 - s⟩ = .ok ⟨T.promote, ((r <<< (T.bits - s)) % 2 ^ 32 : Nat)⟩ := by
    rw [hn, Nat.shiftLeft_eq]
    have hP : 2 ^ (T.bits - s) ≤ 2 ^ (T.bits - 1) := Nat.pow_le_pow_right (by omega) (by omega)
    have hmul : ∀ u k : Nat, r ≤ u → 2 ^ (T.bits - s) ≤ k → r * 2 ^ (T.bits - s) ≤ u * k :=
      fun u k h1 h2 => Nat.mul_le_mul h1 h2
    have hcast : (r : Int) * 2 ^ ((T.bits - s : Nat) : Int).toNat = ((r * 2 ^ (T.bits - s) : Nat) : Int) := by
      push_cast; simp
    cty_cases T <;> simp only [CTy.promote, CTy.bits, Nat.reducePow, Nat.reduceSub] at *
    · have := hmul 255 128 (by omega) hP
      rw [shl_u8 _ _ _ (by omega) (by omega) (by omega) (by rw [hcast]; omega), hcast]
      apply ok_mk_inj; omega
    · have := hmul 65535 32768 (by omega) hP
      rw [shl_u16 _ _ _ (by omega) (by omega) (by omega) (by rw [hcast]; omega), hcast]
      apply ok_mk_inj; omega
    · rw [shl_u32 _ _ _ (by omega) (by omega), hcast, wrap_u32_def]
      apply ok_mk_inj; push_cast; rfl
  have l1 : r >>> s < 2 ^ T.bits := by
    rw [Nat.shiftRight_eq_div_pow]; exact lt_of_le_of_lt (Nat.div_le_self _ _) hr
  have l1' : r >>> s < 2 ^ 32 := lt_of_lt_of_le l1 (Nat.pow_le_pow_right (by omega) hb)
  have l2 : (r <<< (T.bits - s)) % 2 ^ 32 < 2 ^ 32 := Nat.mod_lt _ (by decide)
  have l2' : T.bits < 32 → (r <<< (T.bits - s)) % 2 ^ 32 < 2 ^ 31 := by
    intro h
    have : r <<< (T.bits - s) < 2 ^ 31 := by
      rw [Nat.shiftLeft_eq]
      calc r * 2 ^ (T.bits - s) < 2 ^ T.bits * 2 ^ (T.bits - s) :=
            Nat.mul_lt_mul_of_pos_right hr (Nat.pow_pos (by omega))
        _ = 2 ^ (T.bits + (T.bits - s)) := by rw [Nat.pow_add]
        _ ≤ 2 ^ 31 := Nat.pow_le_pow_right (by omega) (by omega)
    exact lt_of_le_of_lt (Nat.mod_le _ _) this
  have l3 := Nat.or_lt_two_pow l1' l2
  have l3' : T.bits < 32 → (r >>> s ||| (r <<< (T.bits - s)) % 2 ^ 32) < 2 ^ 31 := fun h =>
    Nat.or_lt_two_pow (lt_of_lt_of_le l1 (Nat.pow_le_pow_right (by omega) (by omega))) (l2' h)
  have hpp : CTy.usual T.promote T.promote = T.promote := by cases T <;> rfl
  have hpb : T.promote.bits = 32 := by cty_cases T <;> rfl
  have e5 : lor ⟨T.promote, (r >>> s : Nat)⟩ ⟨T.promote, ((r <<< (T.bits - s)) % 2 ^ 32 : Nat)⟩ =
      ⟨T.promote, (r >>> s ||| (r <<< (T.bits - s)) % 2 ^ 32 : Nat)⟩ := by
    have := lor_nat T.promote T.promote (r >>> s) ((r <<< (T.bits - s)) % 2 ^ 32)
    rw [hpp, hpb] at this
    apply this l1' l2
    generalize (r >>> s ||| (r <<< (T.bits - s)) % 2 ^ 32) = z at *
    cty_cases T <;> simp only [CTy.bits, CTy.promote, Nat.reduceLT, true_imp_iff] at * <;> range_split <;> omega
  unfold rorStage
  rw [e1, Outcome.ok_bind, e2, Outcome.ok_bind, e5, CVal.cast]
  apply ok_mk_inj
  have hw : T.wrap ((r >>> s ||| (r <<< (T.bits - s)) % 2 ^ 32 : Nat) : Int) =
      (((r >>> s ||| (r <<< (T.bits - s)) % 2 ^ 32) % 2 ^ T.bits : Nat) : Int) := by
    generalize (r >>> s ||| (r <<< (T.bits - s)) % 2 ^ 32) = z
    cty_cases T <;> simp [cint]
  rw [hw, rorN]
  congr 1
  apply Nat.eq_of_testBit_eq
  intro i
  simp only [Nat.testBit_mod_two_pow, Nat.testBit_or]
  by_cases h : i < T.bits
  · have : i < 32 := by omega
    simp [h, this]
  · simp [h]

theorem rorMask (T : CTy) (hs : T.signed = false) (hb : T.bits ≤ 32) (y : Nat) :
    CVal.cast T (land ⟨T, y⟩ (CVal.cast T ⟨.u64, (T.size : Int) * 8 - 1⟩)) = ⟨T, (y % T.bits : Nat)⟩ := by
  have h1 : CVal.cast T ⟨.u64, (T.size : Int) * 8 - 1⟩ = ⟨T, (T.bits : Int) - 1⟩ := by cty_cases T <;> rfl
  have h2 : land ⟨T, y⟩ ⟨T, (T.bits : Int) - 1⟩ = ⟨CTy.usual T T, (y : Int) % T.bits⟩ := by
    cty_cases T
    · exact land_mask _ _ _ 3 _ (by decide) (by decide)
    · exact land_mask _ _ _ 4 _ (by decide) (by decide)
    · exact land_mask _ _ _ 5 _ (by decide) (by decide)
  rw [h1, h2, CVal.cast]
  congr 1
  have : ((y % T.bits : Nat) : Int) = (y : Int) % T.bits := by push_cast; rfl
  rw [← this]
  have hlt : y % T.bits < T.bits := Nat.mod_lt _ (by cases T <;> decide)
  apply wrap_of_inRange
  generalize y % T.bits = z at *
  cty_cases T <;> simp only [CTy.bits] at * <;> range_split <;> omega

theorem rorCond (T : CTy) (hs : T.signed = false) (hb : T.bits ≤ 32) (c s : Nat) (h0 : 0 < s) (hs32 : s < 32)
    (hc : c < T.bits) (hsT : c &&& s ≠ 0 → s < T.bits) (x r P : Nat) (hr : r < 2 ^ T.bits)
    (hP : ∀ i < T.bits, r.testBit i = x.testBit ((i + P) % T.bits)) :
    ∃ r' : Nat, r' < 2 ^ T.bits ∧
      (if ne (land ⟨T, c⟩ (lit s)) (lit 0) then rorStage T s ⟨T, r⟩ else Outcome.ok ⟨T, r⟩) = .ok ⟨T, r'⟩ ∧
      ∀ i < T.bits, r'.testBit i = x.testBit ((i + ((if c &&& s ≠ 0 then s else 0) + P)) % T.bits) := by
  rw [bitTest T hs hb c s (by omega) hs32]
  by_cases hcs : c &&& s ≠ 0
  · rw [if_pos (by simpa using hcs)]
    have hsT := hsT hcs
    refine ⟨_, Nat.mod_lt _ (Nat.pow_pos (by omega)), rorStage_ok T hs hb s h0 hsT r hr, ?_⟩
    intro i hi
    change (rorN T.bits s r).testBit i = _
    rw [rorN_testBit T.bits s r (by omega) hr i hi, hP _ (Nat.mod_lt _ (by omega)), if_pos hcs, Nat.mod_add_mod,
      Nat.add_assoc]
  · rw [if_neg (by simpa using hcs)]
    refine ⟨r, hr, rfl, ?_⟩
    intro i hi
    rw [if_neg hcs, Nat.zero_add]; exact hP i hi

theorem ror_bits : ∀ c < 32, (if c &&& 16 ≠ 0 then 16 else 0) + ((if c &&& 8 ≠ 0 then 8 else 0) +
    ((if c &&& 4 ≠ 0 then 4 else 0) + ((if c &&& 2 ≠ 0 then 2 else 0) +
    ((if c &&& 1 ≠ 0 then 1 else 0) + 0)))) = c := by decide

theorem ror_small : ∀ c < 32, ∀ s ∈ [1, 2, 4, 8, 16], c &&& s ≠ 0 → s ≤ c := by decide

theorem vRor_nat (T : CTy) (hs : T.signed = false) (hb : T.bits ≤ 32) (x y : Nat) (hx : x < 2 ^ T.bits) :
    ∃ z : Nat, z < 2 ^ T.bits ∧ vRor T ⟨T, x⟩ ⟨T, y⟩ = .ok ⟨T, z⟩ ∧
      ∀ i < T.bits, z.testBit i = x.testBit ((i + y % T.bits) % T.bits) := by
  unfold vRor
  simp only [rorMask T hs hb y]
  have hc : y % T.bits < T.bits := Nat.mod_lt _ (by cases T <;> decide)
  generalize y % T.bits = c at *
  have hsm (s : Nat) (h : s ∈ [1, 2, 4, 8, 16]) (h2 : c &&& s ≠ 0) : s < T.bits :=
    lt_of_le_of_lt (ror_small c (by omega) s h h2) hc
  obtain ⟨r1, a1, b1, c1⟩ := rorCond T hs hb c 1 (by decide) (by decide) hc (hsm 1 (by decide)) x x 0 hx
    (by intro i hi; simp [Nat.mod_eq_of_lt hi])
  obtain ⟨r2, a2, b2, c2⟩ := rorCond T hs hb c 2 (by decide) (by decide) hc (hsm 2 (by decide)) x r1 _ a1 c1
  obtain ⟨r4, a4, b4, c4⟩ := rorCond T hs hb c 4 (by decide) (by decide) hc (hsm 4 (by decide)) x r2 _ a2 c2
  obtain ⟨r8, a8, b8, c8⟩ := rorCond T hs hb c 8 (by decide) (by decide) hc (hsm 8 (by decide)) x r4 _ a4 c4
  obtain ⟨r16, a16, b16, c16⟩ := rorCond T hs hb c 16 (by decide) (by decide) hc (hsm 16 (by decide)) x r8 _ a8 c8
  simp only [Nat.cast_ofNat, Nat.cast_one] at b1 b2 b4 b8 b16
  refine ⟨r16, a16, ?_, fun i hi => ?_⟩
  · simp only [List.foldlM_cons, List.foldlM_nil, b1, b2, b4, b8, b16, Outcome.ok_bind, Outcome.pure_def]
  · rw [c16 i hi, ror_bits c (by omega)]

theorem vRor_ok (T : CTy) (hs : T.signed = false) (hb : T.bits ≤ 32) (x y : BitVec T.bits) :
    ∃ z : BitVec T.bits, vRor T ⟨T, x.toNat⟩ ⟨T, y.toNat⟩ = .ok ⟨T, z.toNat⟩ ∧
      ∀ i < T.bits, z.getLsbD i = x.getLsbD ((i + y.toNat % T.bits) % T.bits) := by
  obtain ⟨z, h1, h2, h3⟩ := vRor_nat T hs hb x.toNat y.toNat x.isLt
  refine ⟨BitVec.ofNat _ z, ?_, ?_⟩
  · rw [h2, BitVec.toNat_ofNat, Nat.mod_eq_of_lt h1]
  · intro i hi
    rw [BitVec.getLsbD_ofNat]
    simp only [hi, decide_true, Bool.true_and]
    exact h3 i hi

theorem countlZero_run : ∀ (w x : Nat), Spec.LeadingRun false w x (countlZero w x)
  | 0, x => by simp [countlZero, Spec.LeadingRun]
  | w + 1, x => by
    obtain ⟨h1, h2, h3⟩ := countlZero_run w x
    rw [countlZero]
    cases hb : x.testBit w
    · simp only [Bool.false_eq_true, if_false]
      refine ⟨by omega, fun i hi hi' => ?_, fun h => ?_⟩
      · by_cases e : i = w
        · rw [e, hb]
        · exact h2 i (by omega) (by omega)
      · have := h3 (by omega)
        rwa [show w + 1 - 1 - (countlZero w x + 1) = w - 1 - countlZero w x by omega]
    · simp only [if_true]
      refine ⟨by omega, fun i hi hi' => by omega, fun h => ?_⟩
      simpa using hb

theorem countlOne_run : ∀ (w x : Nat), Spec.LeadingRun true w x (countlOne w x)
  | 0, x => by simp [countlOne, Spec.LeadingRun]
  | w + 1, x => by
    obtain ⟨h1, h2, h3⟩ := countlOne_run w x
    rw [countlOne]
    cases hb : x.testBit w
    · simp only [Bool.false_eq_true, if_false]
      refine ⟨by omega, fun i hi hi' => by omega, fun h => ?_⟩
      simpa using hb
    · simp only [if_true]
      refine ⟨by omega, fun i hi hi' => ?_, fun h => ?_⟩
      · by_cases e : i = w
        · rw [e, hb]
        · exact h2 i (by omega) (by omega)
      · have := h3 (by omega)
        rwa [show w + 1 - 1 - (countlOne w x + 1) = w - 1 - countlOne w x by omega]

theorem popcount_eq : ∀ (w x : Nat), popcount w x = Spec.ones w x
  | 0, x => by simp [popcount, Spec.ones]
  | w + 1, x => by
    have := popcount_eq w x
    rw [popcount, this, Spec.ones, Spec.ones, List.range_succ, List.filter_append, List.length_append]
    cases h : x.testBit w <;> simp [h]

theorem ones_le (w x : Nat) : Spec.ones w x ≤ w := by
  have := List.length_filter_le (fun i => x.testBit i) (List.range w)
  simpa [Spec.ones] using this

theorem cast_small (T : CTy) (hb : T.bits ≤ 32) (n : Nat) (hn : n ≤ T.bits) :
    CVal.cast T (lit n) = ⟨T, n⟩ := by
  rw [lit, CVal.cast]
  congr 1
  apply wrap_of_inRange
  cty_cases T <;> simp only [CTy.bits] at * <;> range_split <;> omega

theorem vClz_ok (T : CTy) (hb : T.bits ≤ 32) (x : Nat) :
    ∃ n : Nat, vClz T ⟨T, x⟩ = .ok ⟨T, n⟩ ∧ Spec.LeadingRun false T.bits x n := by
  refine ⟨countlZero T.bits x, ?_, countlZero_run _ _⟩
  have := (countlZero_run T.bits x).1
  simp only [vClz, Int.toNat_natCast, cast_small T hb _ this]

theorem vCpop_ok (T : CTy) (hb : T.bits ≤ 32) (x : Nat) :
    vCpop T ⟨T, x⟩ = .ok ⟨T, Spec.ones T.bits x⟩ := by
  have := ones_le T.bits x
  simp only [vCpop, Int.toNat_natCast, popcount_eq, cast_small T hb _ this]

theorem vClb_ok (T : CTy) (hs : T.signed = false) (hb : T.bits ≤ 32) (x : Nat) (hx : x < 2 ^ T.bits) :
    ∃ n : Nat, vClb T ⟨T, x⟩ = .ok ⟨T, n⟩ ∧ Spec.LeadingRun (x.testBit (T.bits - 1)) T.bits x n := by
  have hm : ne (land ⟨T, x⟩ ⟨.u32, 2 ^ (T.size * 8 - 1)⟩) (lit 0) = x.testBit (T.bits - 1) := by
    have hu : CTy.usual T .u32 = .u32 := by cty_cases T <;> rfl
    have hsz : T.size * 8 - 1 = T.bits - 1 := by cases T <;> rfl
    have hx' : x < 2 ^ 32 := lt_of_lt_of_le hx (Nat.pow_le_pow_right (by omega) hb)
    have hp : 2 ^ (T.bits - 1) < 2 ^ 32 := Nat.pow_lt_pow_right (by omega) (by omega)
    have hz : x &&& 2 ^ (T.bits - 1) < 2 ^ 32 := Nat.and_lt_two_pow _ hp
    have e := land_nat T .u32 x (2 ^ (T.bits - 1))
    rw [hu] at e
    have e := e hx' hp (by range_split <;> omega)
    rw [hsz]
    push_cast at e
    rw [e]
    have e2 : ne ⟨CTy.u32, ((x &&& 2 ^ (T.bits - 1) : Nat) : Int)⟩ (lit 0) = decide (x &&& 2 ^ (T.bits - 1) ≠ 0) := by
      generalize x &&& 2 ^ (T.bits - 1) = z at *
      have h1 : CTy.wrap .u32 (z : Int) = z := by rw [wrap_u32_def]; omega
      have h0 : CTy.wrap .u32 0 = 0 := rfl
      change (!decide (CTy.wrap .u32 (z : Int) = CTy.wrap .u32 0)) = _
      rw [h1, h0]
      by_cases h : z = 0 <;> simp [h]
    rw [e2, Nat.and_two_pow]
    cases x.testBit (T.bits - 1) <;> simp
  unfold vClb
  simp only [hm, Int.toNat_natCast]
  cases x.testBit (T.bits - 1)
  · refine ⟨countlZero T.bits x, ?_, countlZero_run _ _⟩
    have := (countlZero_run T.bits x).1
    simp only [Bool.false_eq_true, if_false, cast_small T hb _ this]
  · refine ⟨countlOne T.bits x, ?_, countlOne_run _ _⟩
    have := (countlOne_run T.bits x).1
    simp only [if_true, cast_small T hb _ this]

end Verif.Proofs
