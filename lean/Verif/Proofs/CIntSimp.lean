import Verif.Proofs.CIntLemmas

/-!
Rewriting rules (`cop`) that evaluate the C++ operators at concrete types.  Conditional rules keep
the value untouched when it is in range; their side conditions are left to `omega`.
-/

namespace Verif.Proofs
open Verif CVal

theorem inRange_i8 (x : Int) : CTy.InRange .i8 x ↔ -128 ≤ x ∧ x ≤ 127 := by simp [cint]
theorem wrap_i8_id (x : Int) (h1 : -128 ≤ x) (h2 : x ≤ 127) : CTy.wrap .i8 x = x := by simp [cint]; omega
theorem wrap_i8_def (x : Int) : CTy.wrap .i8 x = (x + 128) % 256 - 128 := by simp [cint]
theorem lo_i8 : CTy.lo .i8 = -128 := by simp [cint]
theorem hi_i8 : CTy.hi .i8 = 127 := by simp [cint]
theorem arith_i8 (x : Int) (h1 : -128 ≤ x) (h2 : x ≤ 127) : arith .i8 x = .ok ⟨.i8, x⟩ := by simp [cint]; omega
attribute [cop] wrap_i8_id lo_i8 hi_i8 arith_i8
attribute [cop low] wrap_i8_def
theorem inRange_i16 (x : Int) : CTy.InRange .i16 x ↔ -32768 ≤ x ∧ x ≤ 32767 := by simp [cint]
theorem wrap_i16_id (x : Int) (h1 : -32768 ≤ x) (h2 : x ≤ 32767) : CTy.wrap .i16 x = x := by simp [cint]; omega
theorem wrap_i16_def (x : Int) : CTy.wrap .i16 x = (x + 32768) % 65536 - 32768 := by simp [cint]
theorem lo_i16 : CTy.lo .i16 = -32768 := by simp [cint]
theorem hi_i16 : CTy.hi .i16 = 32767 := by simp [cint]
theorem arith_i16 (x : Int) (h1 : -32768 ≤ x) (h2 : x ≤ 32767) : arith .i16 x = .ok ⟨.i16, x⟩ := by simp [cint]; omega
attribute [cop] wrap_i16_id lo_i16 hi_i16 arith_i16
attribute [cop low] wrap_i16_def
theorem inRange_i32 (x : Int) : CTy.InRange .i32 x ↔ -2147483648 ≤ x ∧ x ≤ 2147483647 := by simp [cint]
theorem wrap_i32_id (x : Int) (h1 : -2147483648 ≤ x) (h2 : x ≤ 2147483647) : CTy.wrap .i32 x = x := by simp [cint]; omega
theorem wrap_i32_def (x : Int) : CTy.wrap .i32 x = (x + 2147483648) % 4294967296 - 2147483648 := by simp [cint]
theorem lo_i32 : CTy.lo .i32 = -2147483648 := by simp [cint]
theorem hi_i32 : CTy.hi .i32 = 2147483647 := by simp [cint]
theorem arith_i32 (x : Int) (h1 : -2147483648 ≤ x) (h2 : x ≤ 2147483647) : arith .i32 x = .ok ⟨.i32, x⟩ := by simp [cint]; omega
attribute [cop] wrap_i32_id lo_i32 hi_i32 arith_i32
attribute [cop low] wrap_i32_def
theorem inRange_i64 (x : Int) : CTy.InRange .i64 x ↔ -9223372036854775808 ≤ x ∧ x ≤ 9223372036854775807 := by simp [cint]
theorem wrap_i64_id (x : Int) (h1 : -9223372036854775808 ≤ x) (h2 : x ≤ 9223372036854775807) : CTy.wrap .i64 x = x := by simp [cint]; omega
theorem wrap_i64_def (x : Int) : CTy.wrap .i64 x = (x + 9223372036854775808) % 18446744073709551616 - 9223372036854775808 := by simp [cint]
theorem lo_i64 : CTy.lo .i64 = -9223372036854775808 := by simp [cint]
theorem hi_i64 : CTy.hi .i64 = 9223372036854775807 := by simp [cint]
theorem arith_i64 (x : Int) (h1 : -9223372036854775808 ≤ x) (h2 : x ≤ 9223372036854775807) : arith .i64 x = .ok ⟨.i64, x⟩ := by simp [cint]; omega
attribute [cop] wrap_i64_id lo_i64 hi_i64 arith_i64
attribute [cop low] wrap_i64_def
theorem inRange_u8 (x : Int) : CTy.InRange .u8 x ↔ 0 ≤ x ∧ x ≤ 255 := by simp [cint]
theorem wrap_u8_id (x : Int) (h1 : 0 ≤ x) (h2 : x ≤ 255) : CTy.wrap .u8 x = x := by simp [cint]; omega
theorem wrap_u8_def (x : Int) : CTy.wrap .u8 x = x % 256 := by simp [cint]
theorem lo_u8 : CTy.lo .u8 = 0 := by simp [cint]
theorem hi_u8 : CTy.hi .u8 = 255 := by simp [cint]
theorem arith_u8 (x : Int) : arith .u8 x = .ok ⟨.u8, CTy.wrap .u8 x⟩ := by simp [arith, CTy.signed]
attribute [cop] wrap_u8_id lo_u8 hi_u8 arith_u8
attribute [cop low] wrap_u8_def
theorem inRange_u16 (x : Int) : CTy.InRange .u16 x ↔ 0 ≤ x ∧ x ≤ 65535 := by simp [cint]
theorem wrap_u16_id (x : Int) (h1 : 0 ≤ x) (h2 : x ≤ 65535) : CTy.wrap .u16 x = x := by simp [cint]; omega
theorem wrap_u16_def (x : Int) : CTy.wrap .u16 x = x % 65536 := by simp [cint]
theorem lo_u16 : CTy.lo .u16 = 0 := by simp [cint]
theorem hi_u16 : CTy.hi .u16 = 65535 := by simp [cint]
theorem arith_u16 (x : Int) : arith .u16 x = .ok ⟨.u16, CTy.wrap .u16 x⟩ := by simp [arith, CTy.signed]
attribute [cop] wrap_u16_id lo_u16 hi_u16 arith_u16
attribute [cop low] wrap_u16_def
theorem inRange_u32 (x : Int) : CTy.InRange .u32 x ↔ 0 ≤ x ∧ x ≤ 4294967295 := by simp [cint]
theorem wrap_u32_id (x : Int) (h1 : 0 ≤ x) (h2 : x ≤ 4294967295) : CTy.wrap .u32 x = x := by simp [cint]; omega
theorem wrap_u32_def (x : Int) : CTy.wrap .u32 x = x % 4294967296 := by simp [cint]
theorem lo_u32 : CTy.lo .u32 = 0 := by simp [cint]
theorem hi_u32 : CTy.hi .u32 = 4294967295 := by simp [cint]
theorem arith_u32 (x : Int) : arith .u32 x = .ok ⟨.u32, CTy.wrap .u32 x⟩ := by simp [arith, CTy.signed]
attribute [cop] wrap_u32_id lo_u32 hi_u32 arith_u32
attribute [cop low] wrap_u32_def
theorem inRange_u64 (x : Int) : CTy.InRange .u64 x ↔ 0 ≤ x ∧ x ≤ 18446744073709551615 := by simp [cint]
theorem wrap_u64_id (x : Int) (h1 : 0 ≤ x) (h2 : x ≤ 18446744073709551615) : CTy.wrap .u64 x = x := by simp [cint]; omega
theorem wrap_u64_def (x : Int) : CTy.wrap .u64 x = x % 18446744073709551616 := by simp [cint]
theorem lo_u64 : CTy.lo .u64 = 0 := by simp [cint]
theorem hi_u64 : CTy.hi .u64 = 18446744073709551615 := by simp [cint]
theorem arith_u64 (x : Int) : arith .u64 x = .ok ⟨.u64, CTy.wrap .u64 x⟩ := by simp [arith, CTy.signed]
attribute [cop] wrap_u64_id lo_u64 hi_u64 arith_u64
attribute [cop low] wrap_u64_def
@[cop] theorem shl_i8 (a n : Int) (tn : CTy) (h1 : 0 ≤ n) (h2 : n < 32) (h3 : 0 ≤ a) (h4 : a * 2 ^ n.toNat ≤ 2147483647) :
    shl ⟨.i8, a⟩ ⟨tn, n⟩ = .ok ⟨.i32, a * 2 ^ n.toNat⟩ := by
  have h5 : 0 ≤ a * 2 ^ n.toNat := Int.mul_nonneg h3 (Int.le_of_lt (Int.pow_pos (by omega)))
  refine (if_pos (show 0 ≤ n ∧ n < ((32 : Nat) : Int) from ⟨h1, by omega⟩)).trans ?_
  refine (if_pos rfl).trans ?_
  exact (if_pos (show 0 ≤ a ∧ a * 2 ^ n.toNat < 2 ^ (32 : Nat) from ⟨h3, by omega⟩)).trans
    (congrArg (fun z => Outcome.ok (CVal.mk .i32 z)) (wrap_i32_id (a * 2 ^ n.toNat) (by omega) h4))
@[cop] theorem shr_i8 (a n : Int) (tn : CTy) (h1 : 0 ≤ n) (h2 : n < 32) :
    shr ⟨.i8, a⟩ ⟨tn, n⟩ = .ok ⟨.i32, a / 2 ^ n.toNat⟩ := by
  exact if_pos (show 0 ≤ n ∧ n < ((32 : Nat) : Int) from ⟨h1, by omega⟩)
@[cop] theorem shl_i16 (a n : Int) (tn : CTy) (h1 : 0 ≤ n) (h2 : n < 32) (h3 : 0 ≤ a) (h4 : a * 2 ^ n.toNat ≤ 2147483647) :
    shl ⟨.i16, a⟩ ⟨tn, n⟩ = .ok ⟨.i32, a * 2 ^ n.toNat⟩ := by
  have h5 : 0 ≤ a * 2 ^ n.toNat := Int.mul_nonneg h3 (Int.le_of_lt (Int.pow_pos (by omega)))
  refine (if_pos (show 0 ≤ n ∧ n < ((32 : Nat) : Int) from ⟨h1, by omega⟩)).trans ?_
  refine (if_pos rfl).trans ?_
  exact (if_pos (show 0 ≤ a ∧ a * 2 ^ n.toNat < 2 ^ (32 : Nat) from ⟨h3, by omega⟩)).trans
    (congrArg (fun z => Outcome.ok (CVal.mk .i32 z)) (wrap_i32_id (a * 2 ^ n.toNat) (by omega) h4))
@[cop] theorem shr_i16 (a n : Int) (tn : CTy) (h1 : 0 ≤ n) (h2 : n < 32) :
    shr ⟨.i16, a⟩ ⟨tn, n⟩ = .ok ⟨.i32, a / 2 ^ n.toNat⟩ := by
  exact if_pos (show 0 ≤ n ∧ n < ((32 : Nat) : Int) from ⟨h1, by omega⟩)
@[cop] theorem shl_i32 (a n : Int) (tn : CTy) (h1 : 0 ≤ n) (h2 : n < 32) (h3 : 0 ≤ a) (h4 : a * 2 ^ n.toNat ≤ 2147483647) :
    shl ⟨.i32, a⟩ ⟨tn, n⟩ = .ok ⟨.i32, a * 2 ^ n.toNat⟩ := by
  have h5 : 0 ≤ a * 2 ^ n.toNat := Int.mul_nonneg h3 (Int.le_of_lt (Int.pow_pos (by omega)))
  refine (if_pos (show 0 ≤ n ∧ n < ((32 : Nat) : Int) from ⟨h1, by omega⟩)).trans ?_
  refine (if_pos rfl).trans ?_
  exact (if_pos (show 0 ≤ a ∧ a * 2 ^ n.toNat < 2 ^ (32 : Nat) from ⟨h3, by omega⟩)).trans
    (congrArg (fun z => Outcome.ok (CVal.mk .i32 z)) (wrap_i32_id (a * 2 ^ n.toNat) (by omega) h4))
@[cop] theorem shr_i32 (a n : Int) (tn : CTy) (h1 : 0 ≤ n) (h2 : n < 32) :
    shr ⟨.i32, a⟩ ⟨tn, n⟩ = .ok ⟨.i32, a / 2 ^ n.toNat⟩ := by
  exact if_pos (show 0 ≤ n ∧ n < ((32 : Nat) : Int) from ⟨h1, by omega⟩)
@[cop] theorem shl_u8 (a n : Int) (tn : CTy) (h1 : 0 ≤ n) (h2 : n < 32) (h3 : 0 ≤ a) (h4 : a * 2 ^ n.toNat ≤ 2147483647) :
    shl ⟨.u8, a⟩ ⟨tn, n⟩ = .ok ⟨.i32, a * 2 ^ n.toNat⟩ := by
  have h5 : 0 ≤ a * 2 ^ n.toNat := Int.mul_nonneg h3 (Int.le_of_lt (Int.pow_pos (by omega)))
  refine (if_pos (show 0 ≤ n ∧ n < ((32 : Nat) : Int) from ⟨h1, by omega⟩)).trans ?_
  refine (if_pos rfl).trans ?_
  exact (if_pos (show 0 ≤ a ∧ a * 2 ^ n.toNat < 2 ^ (32 : Nat) from ⟨h3, by omega⟩)).trans
    (congrArg (fun z => Outcome.ok (CVal.mk .i32 z)) (wrap_i32_id (a * 2 ^ n.toNat) (by omega) h4))
@[cop] theorem shr_u8 (a n : Int) (tn : CTy) (h1 : 0 ≤ n) (h2 : n < 32) :
    shr ⟨.u8, a⟩ ⟨tn, n⟩ = .ok ⟨.i32, a / 2 ^ n.toNat⟩ := by
  exact if_pos (show 0 ≤ n ∧ n < ((32 : Nat) : Int) from ⟨h1, by omega⟩)
@[cop] theorem shl_u16 (a n : Int) (tn : CTy) (h1 : 0 ≤ n) (h2 : n < 32) (h3 : 0 ≤ a) (h4 : a * 2 ^ n.toNat ≤ 2147483647) :
    shl ⟨.u16, a⟩ ⟨tn, n⟩ = .ok ⟨.i32, a * 2 ^ n.toNat⟩ := by
  have h5 : 0 ≤ a * 2 ^ n.toNat := Int.mul_nonneg h3 (Int.le_of_lt (Int.pow_pos (by omega)))
  refine (if_pos (show 0 ≤ n ∧ n < ((32 : Nat) : Int) from ⟨h1, by omega⟩)).trans ?_
  refine (if_pos rfl).trans ?_
  exact (if_pos (show 0 ≤ a ∧ a * 2 ^ n.toNat < 2 ^ (32 : Nat) from ⟨h3, by omega⟩)).trans
    (congrArg (fun z => Outcome.ok (CVal.mk .i32 z)) (wrap_i32_id (a * 2 ^ n.toNat) (by omega) h4))
@[cop] theorem shr_u16 (a n : Int) (tn : CTy) (h1 : 0 ≤ n) (h2 : n < 32) :
    shr ⟨.u16, a⟩ ⟨tn, n⟩ = .ok ⟨.i32, a / 2 ^ n.toNat⟩ := by
  exact if_pos (show 0 ≤ n ∧ n < ((32 : Nat) : Int) from ⟨h1, by omega⟩)
@[cop] theorem shl_i64 (a n : Int) (tn : CTy) (h1 : 0 ≤ n) (h2 : n < 64) (h3 : 0 ≤ a) (h4 : a * 2 ^ n.toNat ≤ 9223372036854775807) :
    shl ⟨.i64, a⟩ ⟨tn, n⟩ = .ok ⟨.i64, a * 2 ^ n.toNat⟩ := by
  have h5 : 0 ≤ a * 2 ^ n.toNat := Int.mul_nonneg h3 (Int.le_of_lt (Int.pow_pos (by omega)))
  refine (if_pos (show 0 ≤ n ∧ n < ((64 : Nat) : Int) from ⟨h1, by omega⟩)).trans ?_
  refine (if_pos rfl).trans ?_
  exact (if_pos (show 0 ≤ a ∧ a * 2 ^ n.toNat < 2 ^ (64 : Nat) from ⟨h3, by omega⟩)).trans
    (congrArg (fun z => Outcome.ok (CVal.mk .i64 z)) (wrap_i64_id (a * 2 ^ n.toNat) (by omega) h4))
@[cop] theorem shr_i64 (a n : Int) (tn : CTy) (h1 : 0 ≤ n) (h2 : n < 64) :
    shr ⟨.i64, a⟩ ⟨tn, n⟩ = .ok ⟨.i64, a / 2 ^ n.toNat⟩ := by
  exact if_pos (show 0 ≤ n ∧ n < ((64 : Nat) : Int) from ⟨h1, by omega⟩)
@[cop] theorem shl_u32 (a n : Int) (tn : CTy) (h1 : 0 ≤ n) (h2 : n < 32) :
    shl ⟨.u32, a⟩ ⟨tn, n⟩ = .ok ⟨.u32, CTy.wrap .u32 (a * 2 ^ n.toNat)⟩ := by
  exact if_pos (show 0 ≤ n ∧ n < ((32 : Nat) : Int) from ⟨h1, by omega⟩)
@[cop] theorem shr_u32 (a n : Int) (tn : CTy) (h1 : 0 ≤ n) (h2 : n < 32) :
    shr ⟨.u32, a⟩ ⟨tn, n⟩ = .ok ⟨.u32, a / 2 ^ n.toNat⟩ := by
  exact if_pos (show 0 ≤ n ∧ n < ((32 : Nat) : Int) from ⟨h1, by omega⟩)
@[cop] theorem shl_u64 (a n : Int) (tn : CTy) (h1 : 0 ≤ n) (h2 : n < 64) :
    shl ⟨.u64, a⟩ ⟨tn, n⟩ = .ok ⟨.u64, CTy.wrap .u64 (a * 2 ^ n.toNat)⟩ := by
  exact if_pos (show 0 ≤ n ∧ n < ((64 : Nat) : Int) from ⟨h1, by omega⟩)
@[cop] theorem shr_u64 (a n : Int) (tn : CTy) (h1 : 0 ≤ n) (h2 : n < 64) :
    shr ⟨.u64, a⟩ ⟨tn, n⟩ = .ok ⟨.u64, a / 2 ^ n.toNat⟩ := by
  exact if_pos (show 0 ≤ n ∧ n < ((64 : Nat) : Int) from ⟨h1, by omega⟩)

attribute [cop] Outcome.ok_bind Outcome.pure_def CVal.cast CVal.lit CVal.add CVal.sub CVal.mul CVal.neg
  CVal.lt CVal.le CVal.eq CVal.gt CVal.ge CVal.ne CVal.ofBool CVal.tmin CVal.tmax
  CTy.usual CTy.promote CTy.toU CTy.toS CTy.wide CTy.signed CTy.bits CTy.size

theorem ok_mk_inj (T : CTy) (x y : Int) (h : x = y) : Outcome.ok (CVal.mk T x) = .ok ⟨T, y⟩ := by rw [h]

/-- Turn range hypotheses into numeric bounds. -/
macro "range_split" : tactic => `(tactic| simp only [inRange_i8, inRange_i16, inRange_i32, inRange_i64,
  inRange_u8, inRange_u16, inRange_u32, inRange_u64, CTy.wide] at *)

/-- Evaluate at a concrete type. -/
macro "cop_eval" : tactic => `(tactic|
  simp (disch := omega) only [cop, Int.reduceToNat, Int.reducePow, Nat.reducePow, Int.reduceMul, Int.reduceAdd,
    Int.reduceSub, Int.reduceNeg, if_true, if_false])

/-- Split on the type, drop the cases excluded by a decidable hypothesis. -/
macro "cty_cases" T:ident : tactic => `(tactic| cases $T:ident <;> first | (exfalso; simp only [CTy.bits, CTy.signed] at *; omega) | (exfalso; simp only [CTy.bits, CTy.signed] at *; done) | (exfalso; simp [CTy.bits, CTy.signed] at *; done) | skip)

end Verif.Proofs
