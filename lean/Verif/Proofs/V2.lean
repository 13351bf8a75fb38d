import Verif.Model.V2
import Verif.Spec.V2

/-!
# Lemmas about the V2 core
-/

namespace Verif.Proofs.V2

open Verif.Model.V2 Verif.Spec.V2

theorem within_iff (start len a n : Nat) (hn : 0 < n) :
    Within start len a n ↔ start ≤ a ∧ a + n ≤ start + len := by
  constructor
  · intro h
    have h0 := h 0 hn
    have h1 := h (n - 1) (by omega)
    omega
  · intro h i hi
    omega

theorem valid_iff (ranges : List Range) (a n : BitVec 32) :
    isLsuAccessValid ranges a n = true ↔
      ∃ r ∈ ranges, r.start.toNat ≤ a.toNat ∧ (a.toNat + n.toNat) % 2 ^ 32 ≤ (r.start.toNat + r.length.toNat) % 2 ^ 32 := by
  unfold isLsuAccessValid
  rw [List.any_eq_true]
  simp only [Bool.and_eq_true, decide_eq_true_eq, BitVec.toNat_add]

theorem loadN_eq (mem : Nat → BitVec 8) (n : Nat) : ∀ a, loadN mem a n = bytesValue mem a n := by
  have h : ∀ n a, bytesValue mem a (n + 1) = (mem a).toNat + 256 * bytesValue mem (a + 1) n := by
    intro n
    induction n with
    | zero => intro a; simp [bytesValue]
    | succ n ih =>
      intro a
      rw [bytesValue, ih a, bytesValue, show a + 1 + n = a + (n + 1) by omega, Nat.pow_succ, Nat.mul_add, ← Nat.mul_assoc,
        Nat.mul_comm (256 ^ n) 256, Nat.add_assoc]
  induction n with
  | zero => intro a; rfl
  | succ n ih => intro a; rw [loadN, ih (a + 1), h n a]

theorem bytesValue_lt (mem : Nat → BitVec 8) (a n : Nat) : bytesValue mem a n < 256 ^ n := by
  induction n with
  | zero => simp [bytesValue]
  | succ n ih =>
    have := (mem (a + n)).isLt
    have h : 256 ^ n * (mem (a + n)).toNat ≤ 256 ^ n * 255 := Nat.mul_le_mul_left _ (by omega)
    rw [bytesValue, Nat.pow_succ]
    omega

theorem extend_signed (n x : Nat) (hn : n = 1 ∨ n = 2 ∨ n = 4) (hx : x < 256 ^ n) :
    (extend true n x).toInt = signedValue n x := by
  unfold extend signedValue
  rw [if_pos rfl, BitVec.toInt_signExtend_of_le (by omega)]
  rcases hn with rfl | rfl | rfl <;> simp [BitVec.toInt_eq_toNat_cond] at * <;> split <;> omega

theorem extend_unsigned (n x : Nat) (hn : n ≤ 4) (hx : x < 256 ^ n) : (extend false n x).toNat = x := by
  unfold extend
  rw [if_neg (by simp), BitVec.toNat_ofNat]
  refine Nat.mod_eq_of_lt (Nat.lt_of_lt_of_le hx ?_)
  calc 256 ^ n ≤ 256 ^ 4 := Nat.pow_le_pow_right (by omega) hn
    _ = 2 ^ 32 := by decide

theorem fsw_address (base offset : BitVec 32) :
    ((base.zeroExtend 64 : BitVec 64) + offset.signExtend 64).truncate 32 = base + offset := by
  have h : (offset.signExtend 64).setWidth 32 = offset := by
    apply BitVec.eq_of_getLsbD_eq
    intro i hi
    rw [BitVec.getLsbD_setWidth, BitVec.getLsbD_signExtend]
    simp [hi, show i < 64 by omega]
  rw [BitVec.truncate, BitVec.setWidth_add _ _ (by omega), h]
  simp

theorem exec_address (op : Op) (base offset : BitVec 32) :
    (if op = .fsw then ((base.zeroExtend 64 : BitVec 64) + offset.signExtend 64).truncate 32 else base + offset) =
      base + offset := by
  split
  · exact fsw_address base offset
  · rfl

end Verif.Proofs.V2
