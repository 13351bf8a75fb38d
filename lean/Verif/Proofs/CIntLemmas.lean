import Verif.Base.CInt
import Verif.Spec.Arith

/-! Helper lemmas on the C++ integer semantics. -/

namespace Verif.Proofs
open Verif CVal

theorem wrap_spec (T : CTy) (x : Int) : Spec.wrap T.signed T.bits x = T.wrap x := by
  cases T <;> simp [Spec.wrap, CTy.wrap, CTy.signed, CTy.bits] <;> simp only [Int.bmod] <;> split <;> omega

theorem lo_spec (T : CTy) : Spec.lo T.signed T.bits = T.lo := by cases T <;> rfl
theorem hi_spec (T : CTy) : Spec.hi T.signed T.bits = T.hi := by cases T <;> rfl

theorem sat_spec (T : CTy) (x : Int) : Spec.sat T.signed T.bits x = max T.lo (min T.hi x) := by
  rw [Spec.sat, lo_spec, hi_spec]

theorem wrap_of_inRange {T : CTy} {x : Int} (h : T.InRange x) : T.wrap x = x := by
  cases T <;> simp [cint] at * <;> omega

theorem wrap_inRange (T : CTy) (x : Int) : T.InRange (T.wrap x) := by
  cases T <;> simp [cint] <;> omega

theorem sat_inRange (T : CTy) (x : Int) : T.InRange (Spec.sat T.signed T.bits x) := by
  rw [sat_spec]; cases T <;> simp [cint] at * <;> omega

theorem ofBits_i32 (x : BitVec 32) : ofBits .i32 x = ⟨.i32, x.toInt⟩ := by
  have := x.isLt
  simp [ofBits, cint, BitVec.toInt]; split <;> omega
theorem ofBits_i64 (x : BitVec 64) : ofBits .i64 x = ⟨.i64, x.toInt⟩ := by
  have := x.isLt
  simp [ofBits, cint, BitVec.toInt]; split <;> omega
theorem ofBits_u32 (x : BitVec 32) : ofBits .u32 x = ⟨.u32, x.toNat⟩ := by
  have := x.isLt
  simp [ofBits, cint]; omega
theorem ofBits_u64 (x : BitVec 64) : ofBits .u64 x = ⟨.u64, x.toNat⟩ := by
  have := x.isLt
  simp [ofBits, cint]; omega

theorem toInt_lt_zero_xor (x y : BitVec w) : (x ^^^ y).toInt < 0 ↔ (x.toInt < 0 ↔ ¬ y.toInt < 0) := by
  have h (z : BitVec w) : z.toInt < 0 ↔ z.msb = true := by
    rw [BitVec.msb_eq_toInt]; simp
  rw [h, h, h, BitVec.msb_xor]; cases x.msb <;> cases y.msb <;> simp

/-- `lxor` of two signed lanes is computed in `int`; its sign tells whether the signs differ. -/
theorem lxor_signed (T : CTy) (hs : T.signed = true) (hb : T.bits ≤ 32) (a b : Int)
    (ha : T.InRange a) (hbr : T.InRange b) :
    ∃ c, lxor ⟨T, a⟩ ⟨T, b⟩ = ⟨.i32, c⟩ ∧ CTy.i32.InRange c ∧ (c < 0 ↔ (a < 0 ↔ ¬ b < 0)) := by
  have hu : CTy.usual T T = .i32 := by cases T <;> simp [cint] at *
  refine ⟨(BitVec.ofInt 32 a ^^^ BitVec.ofInt 32 b).toInt, ?_, ?_, ?_⟩
  · rw [lxor, hu]; exact ofBits_i32 _
  · have h1 := BitVec.toInt_lt (x := BitVec.ofInt 32 a ^^^ BitVec.ofInt 32 b)
    have h2 := BitVec.le_toInt (x := BitVec.ofInt 32 a ^^^ BitVec.ofInt 32 b)
    simp [cint] at *; omega
  · rw [toInt_lt_zero_xor, BitVec.toInt_ofInt, BitVec.toInt_ofInt]
    have e (x : Int) (hx : T.InRange x) : x.bmod (2 ^ 32) = x := by
      have : CTy.i32.InRange x := by cases T <;> simp [cint] at * <;> omega
      have h := wrap_of_inRange this
      rw [← wrap_spec] at h; simpa [Spec.wrap, cint] using h
    rw [e a ha, e b hbr]

theorem toNat_and_mask (x : BitVec n) (k : Nat) (hk : k ≤ n) :
    (x &&& BitVec.ofNat n (2 ^ k - 1)).toNat = x.toNat % 2 ^ k := by
  rw [BitVec.toNat_and, BitVec.toNat_ofNat]
  have : 2 ^ k ≤ 2 ^ n := Nat.pow_le_pow_right (by omega) hk
  have h0 : 0 < 2 ^ k := Nat.pow_pos (by omega)
  rw [Nat.mod_eq_of_lt (by omega), Nat.and_two_pow_sub_one_eq_mod]

theorem toNat_ofInt_mod (a : Int) (n k : Nat) (hk : k ≤ n) :
    (((BitVec.ofInt n a).toNat % 2 ^ k : Nat) : Int) = a % 2 ^ k := by
  rw [BitVec.toNat_ofInt]
  have h0 : (0 : Int) < 2 ^ n := Int.pow_pos (by omega)
  push_cast
  rw [Int.toNat_of_nonneg (Int.emod_nonneg _ (by simp; omega))]
  rw [Int.emod_emod_of_dvd]
  exact ⟨2 ^ (n - k), by rw [← Int.pow_add]; congr 1; omega⟩

/-- Masking with `2^k - 1` computed in `unsigned long`. -/
theorem land_u64_mask (t : CTy) (a : Int) (k : Nat) (hk : k ≤ 64) :
    land ⟨t, a⟩ ⟨.u64, 2 ^ k - 1⟩ = ⟨.u64, a % 2 ^ k⟩ := by
  have hu : CTy.usual t .u64 = .u64 := by cases t <;> rfl
  have e : BitVec.ofInt 64 (2 ^ k - 1) = BitVec.ofNat 64 (2 ^ k - 1) := by
    have : (2 ^ k - 1 : Int) = ((2 ^ k - 1 : Nat) : Int) := by
      have : 0 < 2 ^ k := Nat.pow_pos (by omega)
      rw [Int.ofNat_sub (by omega)]; simp
    rw [this, BitVec.ofInt_natCast]
  rw [land, hu, land', show CTy.bits .u64 = 64 from rfl, e]
  exact (ofBits_u64 _).trans (by rw [toNat_and_mask _ _ hk, toNat_ofInt_mod _ _ _ hk])

end Verif.Proofs
