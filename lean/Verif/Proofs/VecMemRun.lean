import Verif.Proofs.VecMemAux

/-! # Vector loads and stores: values, memory effect -/

namespace Verif.Proofs
open Verif Verif.Model CVal

theorem packLanes_cons (x : BitVec 8) (xs : List (BitVec 8)) :
    packLanes 8 (x :: xs) = x.toNat + 256 * packLanes 8 xs := by
  rw [packLanes, Nat.or_comm, ← Nat.shiftLeft_add_eq_or_of_lt x.isLt, Nat.shiftLeft_eq]
  omega

theorem packLanes_loadLE (mem : Mem) : ∀ (sz a : Nat), packLanes 8 (memBytes mem a sz) = Spec.loadLE sz mem a
  | 0, _ => rfl
  | sz + 1, a => by
    rw [Spec.loadLE, ← packLanes_loadLE mem sz (a + 1), memBytes, List.range_succ_eq_map, List.map_cons,
      packLanes_cons, List.map_map]
    rw [memBytes]
    congr 4
    funext j
    simp only [Function.comp, Nat.succ_eq_add_one]
    rw [show a + (j + 1) = a + 1 + j by omega]

theorem loadLE_lt (mem : Mem) : ∀ (sz a : Nat), Spec.loadLE sz mem a < 256 ^ sz
  | 0, _ => by simp [Spec.loadLE]
  | sz + 1, a => by
    have := loadLE_lt mem sz (a + 1)
    have h := (mem a).isLt
    rw [Spec.loadLE, Nat.pow_succ]
    omega

/-- Byte `b` of a little-endian number. -/
theorem loadLE_byte (mem : Mem) : ∀ (sz a b : Nat), b < sz → Spec.byteOf (Spec.loadLE sz mem a) b = (mem (a + b)).toNat
  | sz + 1, a, 0, _ => by
    have h := (mem a).isLt
    simp only [Spec.byteOf, Spec.loadLE, Nat.pow_zero, Nat.div_one, Nat.add_zero]; omega
  | sz + 1, a, b + 1, hb => by
    have ih := loadLE_byte mem sz (a + 1) b (by omega)
    have h := (mem a).isLt
    rw [show a + (b + 1) = a + 1 + b by omega, ← ih, Spec.byteOf, Spec.byteOf, Spec.loadLE, Nat.pow_succ,
      Nat.mul_comm (256 ^ b), ← Nat.div_div_eq_div_mul]
    congr 2; omega

/-- A number below `256 ^ sz` is determined by its bytes. -/
theorem eq_of_bytes : ∀ (sz x y : Nat), x < 256 ^ sz → y < 256 ^ sz →
    (∀ b < sz, Spec.byteOf x b = Spec.byteOf y b) → x = y
  | 0, x, y, hx, hy, _ => by simp at hx hy; omega
  | sz + 1, x, y, hx, hy, h => by
    rw [Nat.pow_succ] at hx hy
    have h0 := h 0 (by omega)
    have ih := eq_of_bytes sz (x / 256) (y / 256) (by omega) (by omega) (fun b hb => by
      have := h (b + 1) (by omega)
      rwa [Spec.byteOf, Spec.byteOf, Nat.pow_succ, Nat.mul_comm (256 ^ b), ← Nat.div_div_eq_div_mul,
        ← Nat.div_div_eq_div_mul] at this)
    simp only [Spec.byteOf, Nat.pow_zero, Nat.div_one] at h0
    omega

theorem ofInt_wrap (T : CTy) (x : Int) : BitVec.ofInt T.bits (T.wrap x) = BitVec.ofInt T.bits x := by
  rw [← wrap_spec, Spec.wrap]
  apply BitVec.eq_of_toInt_eq
  rw [BitVec.toInt_ofInt, BitVec.toInt_ofInt]
  cases T.signed
  · simp only [Bool.false_eq_true, if_false]
    have := Int.emod_bmod x (2 ^ T.bits)
    rwa [show ((2 ^ T.bits : Nat) : Int) = 2 ^ T.bits by push_cast; rfl] at this
  · simp only [if_true]; rw [Int.bmod_bmod]

theorem ofInt_ofBits (T : CTy) (x : BitVec T.bits) : BitVec.ofInt T.bits (ofBits T x).v = x := by
  rw [ofBits, ofInt_wrap]
  apply BitVec.eq_of_toNat_eq
  rw [BitVec.toNat_ofInt]
  have := x.isLt
  rw [Int.emod_eq_of_lt (by omega) (by omega)]
  simp

theorem bits_size (T : CTy) : T.bits = 8 * T.size := by cases T <;> rfl

theorem pow_bits (T : CTy) : (256 : Nat) ^ T.size = 2 ^ T.bits := by cases T <;> rfl

/-- Memory after a sequence of stores. -/
theorem scatter_spec (T : CTy) (mem : Mem) (A : Nat → Nat) (V : Nat → CVal) (val : Nat → Nat)
    (hval : ∀ i b, b < T.size → ((BitVec.ofInt T.bits (V i).v).extractLsb' (b * 8) 8).toNat = Spec.byteOf (val i) b) :
    ∀ n, Spec.Stores n T.size A val mem (scatter T mem ((List.range n).map fun j => (A j, V j)))
  | 0 => by simp [Spec.Stores, scatter]
  | n + 1 => by
    obtain ⟨h1, h2⟩ := scatter_spec T mem A V val hval n
    have e : scatter T mem ((List.range (n + 1)).map fun j => (A j, V j)) =
        memStore T (scatter T mem ((List.range n).map fun j => (A j, V j))) (A n) (V n) := by
      simp [scatter, List.range_succ]
    rw [e]
    constructor
    · intro q hq
      rw [memStore, if_neg (show ¬ (_ ∧ _) from hq n (by omega))]
      exact h1 q (fun i hi => hq i (by omega))
    · intro i hi b hb hlast
      by_cases hin : i = n
      · subst hin
        rw [memStore, if_pos (by omega)]
        rw [show A i + b - A i = b by omega]
        exact hval i b hb
      · rw [memStore, if_neg (show ¬ (_ ∧ _) from hlast n (by omega) (by omega))]
        exact h2 i (by omega) b hb (fun j hj hj' => hlast j hj (by omega))

theorem ofInt_regElt (T : CTy) (r : VReg) (e : Nat) :
    BitVec.ofInt T.bits (regElt T r e).v = r.extractLsb' (e * T.bits) T.bits := by
  rw [regElt, ofInt_ofBits]

theorem extract_byte (w : Nat) (x : BitVec w) (b : Nat) :
    (x.extractLsb' (b * 8) 8).toNat = Spec.byteOf x.toNat b := by
  rw [BitVec.extractLsb'_toNat, Nat.shiftRight_eq_div_pow, Spec.byteOf, Nat.mul_comm b, Nat.pow_mul]

theorem groupNat_eq (T : CTy) (rf : VRF) (b i : Nat) :
    Spec.groupNat T.bits rf b i = ((rf (b + i / lanesOf T)).extractLsb' (i % lanesOf T * T.bits) T.bits).toNat := by
  rw [Spec.groupNat, lanesOf_eq]

/-- Writing a group of registers in order. -/
theorem submit_group (T : CTy) (N vd : Nat) (F : Nat → CVal) (rf : VRF) :
    ∃ rf', submitAll rf vd 1 ((List.range N).map fun op => packReg T ((List.range (lanesOf T)).map fun e =>
        F (op * lanesOf T + e))) = rf' ∧
      (∀ k < N, ∀ e < lanesOf T, (rf' (vd + k)).extractLsb' (e * T.bits) T.bits =
        BitVec.ofInt T.bits (F (k * lanesOf T + e)).v) ∧
      Spec.Frame vd N rf rf' := by
  refine ⟨_, rfl, ?_, ?_⟩
  · intro k hk e he
    obtain ⟨h1, -⟩ := submitAll_get 1 (by omega) ((List.range N).map fun op => packReg T ((List.range (lanesOf T)).map fun e =>
        F (op * lanesOf T + e))) rf vd
    have := h1 k (by simpa using hk)
    rw [Nat.mul_one] at this
    rw [this, List.getElem_map, packReg_extract T _ e he (by simpa using he)]
    simp
  · intro q hq
    obtain ⟨-, h2⟩ := submitAll_get 1 (by omega) ((List.range N).map fun op => packReg T ((List.range (lanesOf T)).map fun e =>
        F (op * lanesOf T + e))) rf vd
    apply h2
    intro i hi
    simp at hi
    omega

/-- Value of the second scalar operand (0 when there is none). -/
def argNat (i : VMemInst) (s : MState) : Nat :=
  match i.rs2 with | some r => (readX s.x r).toNat | none => 0

theorem arg_ok (i : VMemInst) (s : MState) (h : i.rs2.isSome = true) :
    ∃ a, i.arg s = .ok a ∧ a.toNat = argNat i s := by
  cases hr : i.rs2 with
  | none => rw [hr] at h; simp at h
  | some r => exact ⟨readX s.x r, by simp [VMemInst.arg, hr], by simp [argNat, hr]⟩

/-- Number of elements transferred. -/
def eltsNat (i : VMemInst) (s : MState) : Nat :=
  if i.hasLength then min (argNat i s) (numOpsOf i.strip * lanesOf i.T) else numOpsOf i.strip * lanesOf i.T

def strideNat (i : VMemInst) (s : MState) : Nat := if i.hasStride then argNat i s else lanesOf i.T

theorem elts_ok (i : VMemInst) (s : MState) (h : i.hasLength = true → i.rs2.isSome = true) :
    i.elts s = .ok (eltsNat i s) := by
  unfold VMemInst.elts eltsNat
  cases hl : i.hasLength with
  | false => rfl
  | true =>
    obtain ⟨a, h1, h2⟩ := arg_ok i s (h hl)
    simp only [if_true, h1, Outcome.ok_bind, h2]

theorem stride_ok (i : VMemInst) (s : MState) (h : i.hasStride = true → i.rs2.isSome = true) :
    i.stride s = .ok (strideNat i s) := by
  unfold VMemInst.stride strideNat
  cases hl : i.hasStride with
  | false => rfl
  | true =>
    obtain ⟨a, h1, h2⟩ := arg_ok i s (h hl)
    simp only [if_true, h1, Outcome.ok_bind, h2]

theorem elts_le (i : VMemInst) (s : MState) : eltsNat i s ≤ numOpsOf i.strip * lanesOf i.T := by
  unfold eltsNat; split <;> omega

theorem maskAddr_toNat (maxPhys : Nat) (a : BitVec 32) : (maskAddr maxPhys a).toNat = Spec.effBase maxPhys a := by
  unfold maskAddr Spec.effBase
  split
  · rw [BitVec.toNat_and, show (0x7fffffff#32).toNat = 2 ^ 31 - 1 from rfl, Nat.and_two_pow_sub_one_eq_mod]
  · rfl

/-- Kind of post-increment. -/
def incKind (i : VMemInst) : Spec.PostInc :=
  if i.hasLength then (if i.hasStride then .tile else .length)
  else if i.hasStride then .stride
  else if i.rs2.isSome then .reg else .unit

theorem writeBack_ok (i : VMemInst) (s : MState) (addr : BitVec 32) (n rows : Nat)
    (hl : i.hasLength = true → i.rs2.isSome = true) (hs : i.hasStride = true → i.rs2.isSome = true) :
    ∃ a, i.writeBack s addr n (strideNat i s) rows = .ok (if i.postInc then writeX s.x i.rs1 a else s.x) ∧
      a.toNat = (addr.toNat + if 0 < n then
        (incKind i).bytes n i.T.size (numOpsOf i.strip) rows (argNat i s) else 0) % 2 ^ 32 := by
  have hinc : ∃ a, i.incr s addr n (strideNat i s) rows = .ok a ∧ a.toNat = (addr.toNat + if 0 < n then
        (incKind i).bytes n i.T.size (numOpsOf i.strip) rows (argNat i s) else 0) % 2 ^ 32 := by
    unfold VMemInst.incr incKind strideNat
    by_cases hn : 0 < n
    · simp only [hn, if_true]
      cases h1 : i.hasLength <;> cases h2 : i.hasStride <;> cases h3 : i.rs2.isSome <;>
        simp only [h1, h2, h3, Bool.and_true, Bool.and_false, Bool.not_true, Bool.not_false, if_true,
          Bool.false_eq_true, if_false, Bool.true_and, Bool.false_and, Option.isNone_iff_eq_none,
          reduceCtorEq, forall_const] at hl hs ⊢
      · have h4 : i.rs2 = none := by cases h : i.rs2 <;> simp_all
        simp only [h4, if_true, Spec.PostInc.bytes, Option.isNone_none]
        exact ⟨_, rfl, by rw [BitVec.toNat_add, BitVec.toNat_ofNat, Nat.add_mod_mod]⟩
      · have h4 : (i.rs2 = none) = False := by cases h : i.rs2 <;> simp_all
        obtain ⟨a, ha, hv⟩ := arg_ok i s h3
        simp only [h4, Bool.false_eq_true, if_false, ha, Outcome.ok_bind, Spec.PostInc.bytes, hv]
        exact ⟨addr + BitVec.ofNat 32 (argNat i s * i.T.size), rfl, by rw [BitVec.toNat_add, BitVec.toNat_ofNat, Nat.add_mod_mod]⟩
      · refine ⟨_, rfl, ?_⟩
        rw [BitVec.toNat_add, BitVec.toNat_ofNat, Nat.add_mod_mod, Spec.PostInc.bytes]
        congr 2; ring
      · exact ⟨_, rfl, by rw [BitVec.toNat_add, BitVec.toNat_ofNat, Nat.add_mod_mod, Spec.PostInc.bytes]⟩
      · exact ⟨_, rfl, by rw [BitVec.toNat_add, BitVec.toNat_ofNat, Nat.add_mod_mod, Spec.PostInc.bytes]⟩
    · simp only [hn, if_false]
      refine ⟨_, rfl, ?_⟩
      have := addr.isLt
      rw [Nat.add_zero, Nat.mod_eq_of_lt this]
  obtain ⟨a, h1, h2⟩ := hinc
  refine ⟨a, ?_, h2⟩
  unfold VMemInst.writeBack
  cases i.postInc
  · rfl
  · simp only [if_true, h1, Outcome.ok_bind]

theorem vldRegWrite_ok (T : CTy) (N vd n : Nat) (mem : Mem) (A : Nat → Nat) (rf : VRF) :
    ∃ rf', vldRegWrite T N vd N (((List.range n).map A).map (memLoad T mem)) rf = .ok rf' ∧
      (∀ j < N * lanesOf T, Spec.groupNat T.bits rf' vd j = if j < n then Spec.loadLE T.size mem (A j) else 0) ∧
      Spec.Frame vd N rf rf' := by
  have hL := lanesOf_pos T
  obtain ⟨rf', h1, h2, h3⟩ := submit_group T N vd (fun j =>
    if h : j < (((List.range n).map A).map (memLoad T mem)).length then
      (((List.range n).map A).map (memLoad T mem))[j] else ⟨T, 0⟩) rf
  refine ⟨rf', ?_, ?_, h3⟩
  · rw [← h1, vldRegWrite, if_pos (Nat.le_refl _)]
  · intro j hj
    rw [groupNat_eq, h2 _ ((Nat.div_lt_iff_lt_mul hL).2 hj) _ (Nat.mod_lt _ hL), Nat.mul_comm (j / _), Nat.div_add_mod]
    by_cases h : j < n
    · rw [dif_pos (by simpa using h), if_pos h]
      simp only [List.getElem_map, List.getElem_range]
      rw [memLoad, ofInt_ofBits, BitVec.toNat_ofNat, packLanes_loadLE]
      apply Nat.mod_eq_of_lt
      rw [← pow_bits]; exact loadLE_lt _ _ _
    · rw [dif_neg (by simpa using h), if_neg h]
      simp

end Verif.Proofs
