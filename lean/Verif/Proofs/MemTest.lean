import Verif.Proofs.VecMemProp
import Verif.Spec.MemTest

/-!
# The walk of the vector memory test, in closed form
-/

namespace Verif.Proofs
open Verif Verif.Model Verif.Spec.MemTest

/-- The arguments with which the test would check an instruction. -/
def cfgOf (i : VMemInst) (quad : Bool) : Cfg where
  size := i.T.bits / 8
  hasLength := i.hasLength
  hasStride := i.hasStride
  strip := i.strip
  postInc := i.postInc
  xVariant := i.rs2.isNone
  quad := quad

theorem left_eq (c : Cfg) (rs2 op : Nat) : c.left rs2 op = c.count rs2 - op * c.vdSize := by
  induction op with
  | zero => simp [Cfg.left]
  | succ op ih =>
    rw [Cfg.left, ih, Nat.add_mul]
    omega

theorem addr_stride (c : Cfg) (base rs2 op : Nat) (hb : base < 2 ^ 32) (hs : c.hasStride = true) :
    c.addr base rs2 op = (base + op * (rs2 * c.size)) % 2 ^ 32 := by
  induction op with
  | zero => rw [Cfg.addr]; omega
  | succ op ih =>
    rw [Cfg.addr, ih, if_pos hs, Nat.add_mul]
    generalize op * (rs2 * c.size) = a
    omega

theorem addr_unit (c : Cfg) (base rs2 op : Nat) (hb : base < 2 ^ 32) (hs : c.hasStride = false)
    (hop : op * c.vdSize < c.count rs2 ∨ op = 0) :
    c.addr base rs2 op = (base + op * (c.vdSize * c.size)) % 2 ^ 32 := by
  induction op with
  | zero => rw [Cfg.addr]; omega
  | succ op ih =>
    have h1 : op * c.vdSize + c.vdSize < c.count rs2 := by
      rcases hop with h | h
      · rwa [Nat.add_mul, Nat.one_mul] at h
      · omega
    have hn : c.n rs2 op = c.vdSize := by rw [Cfg.n, left_eq]; omega
    rw [Cfg.addr, ih (by omega), hn, hs, Nat.add_mul]
    simp only [Bool.false_eq_true, if_false]
    generalize op * (c.vdSize * c.size) = a
    omega

theorem quadAddr_eq (c : Cfg) (base rs2 q : Nat) (hb : base < 2 ^ 32) :
    c.quadAddr base rs2 q = (base + q * (rs2 * c.size)) % 2 ^ 32 := by
  induction q with
  | zero => rw [Cfg.quadAddr]; omega
  | succ q ih =>
    rw [Cfg.quadAddr, ih, Nat.add_mul]
    generalize q * (rs2 * c.size) = a
    omega

theorem cfg_vdSize (i : VMemInst) (quad : Bool) : (cfgOf i quad).vdSize = Spec.lanes i.T.bits := by
  cases h : i.T <;> simp [cfgOf, Cfg.vdSize, Spec.lanes, CTy.bits, h]

theorem cfg_cap (i : VMemInst) (quad : Bool) (maxPhys : Nat) (s : MState) :
    (access i maxPhys s).cap = (cfgOf i quad).numOps * Spec.lanes i.T.bits := rfl

theorem cfg_count (i : VMemInst) (quad : Bool) (maxPhys : Nat) (s : MState) :
    (cfgOf i quad).count (arg2 i s) = (access i maxPhys s).count := by
  rw [Cfg.count, cfg_vdSize, Nat.mul_comm]
  cases h : i.hasLength
  · simp [cfgOf, h, Spec.Access.count, access, Spec.Access.cap, Cfg.numOps]
  · simp [cfgOf, h, Spec.Access.count, access, Spec.Access.cap, Cfg.numOps, Nat.min_comm]

theorem base_lt (i : VMemInst) (maxPhys : Nat) (s : MState) : (access i maxPhys s).base < 2 ^ 32 := by
  have := (readX s.x i.rs1).isLt
  simp only [access, Spec.effBase]
  split
  · have := Nat.mod_lt (readX s.x i.rs1).toNat (show 0 < 2 ^ 31 by decide); omega
  · omega

theorem lanes_pos (T : CTy) : 0 < Spec.lanes T.bits := by cases T <;> decide

/-- Element `e` of register `op` transferred: its index is below the element count. -/
theorem lt_count (i : VMemInst) (quad : Bool) (maxPhys : Nat) (s : MState) (op e : Nat)
    (he : e < Spec.lanes i.T.bits) :
    e < (cfgOf i quad).n (arg2 i s) op ↔ op * Spec.lanes i.T.bits + e < (access i maxPhys s).count := by
  rw [Cfg.n, left_eq, cfg_vdSize, cfg_count i quad maxPhys s]
  omega

theorem elemAddr_row (i : VMemInst) (maxPhys : Nat) (s : MState) (op e : Nat) (he : e < Spec.lanes i.T.bits)
    (hc : op * Spec.lanes i.T.bits + e < (access i maxPhys s).count) :
    (cfgOf i false).elemAddr (access i maxPhys s).base (arg2 i s) op e =
      (access i maxPhys s).addr (Spec.lanes i.T.bits) (op * Spec.lanes i.T.bits + e) := by
  have hp := lanes_pos i.T
  have hd : (op * Spec.lanes i.T.bits + e) / Spec.lanes i.T.bits = op := by
    rw [Nat.mul_comm, Nat.mul_add_div hp, Nat.div_eq_of_lt he]; rfl
  have hm : (op * Spec.lanes i.T.bits + e) % Spec.lanes i.T.bits = e := by
    rw [Nat.mul_comm, Nat.mul_add_mod, Nat.mod_eq_of_lt he]
  rw [Spec.Access.addr, Spec.elemAddr]
  show _ = _ % _ + _ * (i.T.bits / 8)
  rw [show (access i maxPhys s).w = i.T.bits from rfl, hd, hm, Cfg.elemAddr]
  simp only [show (cfgOf i false).quad = false from rfl, Bool.false_eq_true, if_false]
  show _ + e * (i.T.bits / 8) = _
  congr 1
  cases hs : i.hasStride
  · rw [addr_unit _ _ _ _ (base_lt i maxPhys s) hs
      (.inl (by rw [cfg_vdSize, cfg_count i false maxPhys s]; omega)), cfg_vdSize]
    simp [access, hs, cfgOf]
  · rw [addr_stride _ _ _ _ (base_lt i maxPhys s) hs]
    simp [access, hs, cfgOf]

theorem elemAddr_quad (i : VMemInst) (hT : i.T.bits ≤ 32) (hs : i.hasStride = true) (maxPhys : Nat) (s : MState)
    (op e : Nat) :
    (cfgOf i true).elemAddr (access i maxPhys s).base (arg2 i s) op e =
      (access i maxPhys s).addr (Spec.lanes i.T.bits / 4) (op * Spec.lanes i.T.bits + e) := by
  have h4 : Spec.lanes i.T.bits = Spec.lanes i.T.bits / 4 * 4 ∧ 0 < Spec.lanes i.T.bits / 4 := by
    cases h : i.T <;> simp only [h, CTy.bits] at hT ⊢ <;> first | omega | decide
  rw [Cfg.elemAddr, if_pos (show (cfgOf i true).quad = true from rfl), cfg_vdSize, quadAddr_eq _ _ _ _ (base_lt i maxPhys s)]
  generalize Spec.lanes i.T.bits / 4 = r at h4 ⊢
  have hd : (op * Spec.lanes i.T.bits + e) / r = 4 * op + e / r := by
    rw [h4.1, show op * (r * 4) = r * (4 * op) by rw [Nat.mul_comm r, ← Nat.mul_assoc, Nat.mul_comm]; rw [Nat.mul_comm op 4],
      Nat.mul_add_div h4.2]
  have hm : (op * Spec.lanes i.T.bits + e) % r = e % r := by
    rw [h4.1, show op * (r * 4) = r * (4 * op) by rw [Nat.mul_comm r, ← Nat.mul_assoc, Nat.mul_comm]; rw [Nat.mul_comm op 4],
      Nat.mul_add_mod]
  rw [Spec.Access.addr, Spec.elemAddr, hd, hm]
  simp [access, hs, cfgOf]

/-- Rows at least a row apart, the whole walk at most 2^32 bytes: no two elements share a byte, even when
the walk wraps around the end of the address space. -/
theorem separate_rows (base row stride sz rows : Nat) (hrow : 0 < row) (hst : row ≤ stride)
    (hspan : rows * (stride * sz) ≤ 2 ^ 32) :
    Spec.Separate (rows * row) sz (Spec.elemAddr base row stride sz) := by
  intro a b hab hb
  unfold Spec.elemAddr
  have ha2 : a / row ≤ b / row := Nat.div_le_div_right (by omega)
  have hb2 : b / row < rows := by
    rw [Nat.div_lt_iff_lt_mul hrow]; exact hb
  have hma := Nat.mod_lt a hrow
  have hmb := Nat.mod_lt b hrow
  have hS : row * sz ≤ stride * sz := Nat.mul_le_mul_right _ hst
  have hea : a % row * sz + sz ≤ row * sz := by
    rw [← Nat.succ_mul]; exact Nat.mul_le_mul_right _ hma
  have heb : b % row * sz + sz ≤ row * sz := by
    rw [← Nat.succ_mul]; exact Nat.mul_le_mul_right _ hmb
  rcases Nat.eq_or_lt_of_le ha2 with h | h
  · left
    rw [h]
    have : a % row < b % row := by
      have h1 := Nat.div_add_mod a row
      have h2 := Nat.div_add_mod b row
      rw [h] at h1
      omega
    have : a % row * sz + sz ≤ b % row * sz := by
      rw [← Nat.succ_mul]; exact Nat.mul_le_mul_right _ this
    omega
  · obtain ⟨d, hd⟩ : ∃ d, b / row = a / row + 1 + d := ⟨b / row - a / row - 1, by omega⟩
    have hspan2 : (d + 2) * (stride * sz) ≤ 2 ^ 32 := Nat.le_trans (Nat.mul_le_mul_right _ (by have := Nat.zero_le (a / row); omega)) hspan
    rw [hd, Nat.add_mul, Nat.add_mul, Nat.one_mul]
    rw [Nat.add_mul] at hspan2
    generalize a / row * (stride * sz) = p at *
    generalize d * (stride * sz) = q at *
    generalize stride * sz = S at *
    omega

end Verif.Proofs
