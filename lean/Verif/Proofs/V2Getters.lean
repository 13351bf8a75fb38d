import Verif.Model.V2Getters
import Verif.Gen.V2Rows
import Verif.Spec.V2Operands

/-! # Lemmas for operand values -/

namespace Verif.Proofs.V2Isa
open Verif Verif.Model Verif.Model.V2Isa
open Verif.Spec (bitsAt)
open Verif.Spec.V2Isa (bit)

theorem ext_nat (w : BitVec 32) (p n : Nat) : (w.extractLsb' p n).toNat = bitsAt w p n := by
  rw [BitVec.extractLsb'_toNat, Nat.shiftRight_eq_div_pow, bitsAt]

theorem ext_ext (w : BitVec 32) (p n q m : Nat) (h : q + m ≤ n) :
    (w.extractLsb' p n).extractLsb' q m = w.extractLsb' (p + q) m := by
  apply BitVec.eq_of_getLsbD_eq
  intro i hi
  simp only [BitVec.getLsbD_extractLsb', hi, decide_true, Bool.true_and]
  rw [show decide (q + i < n) = true by simp; omega, Bool.true_and, Nat.add_assoc]

theorem app_nat {n m : Nat} (x : BitVec n) (y : BitVec m) : (x ++ y).toNat = x.toNat * 2 ^ m + y.toNat := by
  rw [BitVec.toNat_append, ← Nat.shiftLeft_add_eq_or_of_lt y.isLt, Nat.shiftLeft_eq]

theorem app_sign {m : Nat} (x : BitVec 1) (y : BitVec m) : (x ++ y).toInt = -(2 ^ m * (x.toNat : Int)) + y.toNat := by
  rw [BitVec.toInt_append]
  have : x.toInt = -(x.toNat : Int) := by
    have := x.isLt
    rw [BitVec.toInt_eq_toNat_bmod, show (2 ^ 1 : Nat) = 2 from rfl]
    have : x.toNat = 0 ∨ x.toNat = 1 := by omega
    rcases this with h | h <;> rw [h] <;> decide
  simp [this, Int.mul_neg]

theorem bits_lt (w : BitVec 32) (p n : Nat) : bitsAt w p n < 2 ^ n := Nat.mod_lt _ (Nat.two_pow_pos n)

/-- A field split in two. -/
theorem bits_split (w : BitVec 32) (p n m : Nat) : bitsAt w p (n + m) = bitsAt w (p + n) m * 2 ^ n + bitsAt w p n := by
  unfold bitsAt
  rw [Nat.pow_add, Nat.mod_mul, Nat.div_div_eq_div_mul, ← Nat.pow_add, Nat.mul_comm, Nat.add_comm]

theorem cast_int {n m : Nat} (h : n = m) (x : BitVec n) : (x.cast h).toInt = x.toInt := by
  subst h; rfl

theorem sgn_int (w : BitVec 32) (p n : Nat) (h : n + 1 ≤ 32) :
    (sgn w p (n + 1)).toInt = -(2 ^ n * (bitsAt w (p + n) 1 : Int)) + bitsAt w p n := by
  rw [sgn, BitVec.toInt_signExtend_of_le h]
  have : w.extractLsb' p (n + 1) = (w.extractLsb' (p + n) 1 ++ w.extractLsb' p n).cast (Nat.add_comm 1 n) := by
    apply BitVec.eq_of_toNat_eq
    rw [BitVec.toNat_cast, app_nat, ext_nat, ext_nat, ext_nat, bits_split]
  rw [this, cast_int, app_sign, ext_nat, ext_nat]

theorem uns_nat (w : BitVec 32) (p n : Nat) (h : n ≤ 32) : (uns w p n).toNat = bitsAt w p n := by
  rw [uns, BitVec.toNat_setWidth, ext_nat]
  exact Nat.mod_eq_of_lt (Nat.lt_of_lt_of_le (bits_lt w p n) (Nat.pow_le_pow_right (by omega) h))

theorem sImm_int (w : BitVec 32) : ((sImm w).signExtend 32).toInt = -2048 * bit w 31 + 32 * bitsAt w 25 6 + bitsAt w 7 5 := by
  rw [BitVec.toInt_signExtend_of_le (by omega)]
  have : sImm w = (w.extractLsb' 31 1 ++ (w.extractLsb' 25 6 ++ w.extractLsb' 7 5) : BitVec (1 + (6 + 5))) := by
    apply BitVec.eq_of_toNat_eq
    have := bits_split w 25 6 1
    simp only [Nat.reduceAdd] at this
    simp only [sImm, app_nat, ext_nat]
    omega
  rw [this, app_sign]
  simp only [app_nat, ext_nat, bit]
  omega

theorem bImm_int (w : BitVec 32) : ((bImm w).signExtend 32).toInt =
    -4096 * bit w 31 + 2048 * bit w 7 + 32 * bitsAt w 25 6 + 2 * bitsAt w 8 4 := by
  rw [BitVec.toInt_signExtend_of_le (by omega)]
  have : bImm w = (w.extractLsb' 31 1 ++ (w.extractLsb' 7 1 ++ w.extractLsb' 25 6 ++ w.extractLsb' 8 4 ++ 0#1) :
      BitVec (1 + (1 + 6 + 4 + 1))) := by
    apply BitVec.eq_of_toNat_eq
    simp only [bImm]
    rw [ext_ext _ _ _ _ _ (by omega), ext_ext _ _ _ _ _ (by omega), ext_ext _ _ _ _ _ (by omega), ext_ext _ _ _ _ _ (by omega)]
    simp only [app_nat, ext_nat]
    simp only [Nat.reduceAdd]
    omega
  rw [this, app_sign]
  simp only [app_nat, ext_nat, bit, BitVec.toNat_ofNat]
  omega

theorem jImm_int (w : BitVec 32) : ((jImm w).signExtend 32).toInt =
    -1048576 * bit w 31 + 4096 * bitsAt w 12 8 + 2048 * bit w 20 + 2 * bitsAt w 21 10 := by
  rw [BitVec.toInt_signExtend_of_le (by omega)]
  have : jImm w = (w.extractLsb' 31 1 ++ (w.extractLsb' 12 8 ++ w.extractLsb' 20 1 ++ w.extractLsb' 21 10 ++ 0#1) :
      BitVec (1 + (8 + 1 + 10 + 1))) := by
    apply BitVec.eq_of_toNat_eq
    simp only [jImm]
    rw [ext_ext _ _ _ _ _ (by omega), ext_ext _ _ _ _ _ (by omega), ext_ext _ _ _ _ _ (by omega), ext_ext _ _ _ _ _ (by omega)]
    simp only [app_nat, ext_nat]
    simp only [Nat.reduceAdd]
    omega
  rw [this, app_sign]
  simp only [app_nat, ext_nat, bit, BitVec.toNat_ofNat]
  omega

theorem uImm_nat (w : BitVec 32) : (uImm w).toNat = 4096 * bitsAt w 12 20 := by
  rw [uImm, app_nat, ext_nat, BitVec.toNat_ofNat]
  omega

def sourceNames : List String :=
  ["vs2", "vmask", "rs1", "vs1", "rs2", "simm5", "nf", "vs3", "vd", "uimm5", "I_imm12", "csr", "frs1", "frs2", "rm",
   "CSR_uimm5", "r_uimm5", "I_uimm5", "B_imm12", "const1", "const2", "const4", "frs3", "J_imm12", "J_imm20", "pred", "succ",
   "S_imm12", "U_imm20", "vm", "vmask_true", "zimm10", "zimm11"]

def destNames : List String := ["vd", "rd", "frd", "csr", "next_pc", "fflags"]

set_option maxRecDepth 100000 in
theorem names_ok : rows.all (fun r => r.parts.all fun p => p.1.all (sourceNames.contains ·) && p.2.all (destNames.contains ·)) =
    true := by decide +kernel

end Verif.Proofs.V2Isa
