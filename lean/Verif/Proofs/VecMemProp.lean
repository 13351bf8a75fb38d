import Verif.Proofs.VecMemRun
import Verif.Proofs.FrameAll

/-! # Vector memory instructions: whole instructions -/

namespace Verif.Proofs
open Verif Verif.Model CVal

theorem access_count (i : VMemInst) (maxPhys : Nat) (s : MState) : (access i maxPhys s).count = eltsNat i s := by
  unfold access Spec.Access.count Spec.Access.cap eltsNat
  rw [lanesOf_eq]
  cases i.hasLength <;> rfl

theorem access_cap (i : VMemInst) (maxPhys : Nat) (s : MState) :
    (access i maxPhys s).cap = numOpsOf i.strip * lanesOf i.T := by
  unfold access Spec.Access.cap; rw [lanesOf_eq]; rfl

theorem access_addr (i : VMemInst) (maxPhys : Nat) (s : MState) (row : Nat) :
    (access i maxPhys s).addr row = Spec.elemAddr (maskAddr maxPhys (readX s.x i.rs1)).toNat row (strideNat i s) i.T.size := by
  funext e
  unfold access Spec.Access.addr strideNat
  rw [lanesOf_eq, maskAddr_toNat, bits_size, Nat.mul_div_cancel_left _ (by omega)]
  cases i.hasStride <;> rfl

theorem form_len {i : VMemInst} {k : Spec.PostInc} (h : Form i k) : i.hasLength = true → i.rs2.isSome = true := by
  cases k <;> simp only [Form] at h <;> simp [h]

theorem form_stride {i : VMemInst} {k : Spec.PostInc} (h : Form i k) : i.hasStride = true → i.rs2.isSome = true := by
  cases k <;> simp only [Form] at h <;> simp [h]

theorem form_kind {i : VMemInst} {k : Spec.PostInc} (h : Form i k) : incKind i = k := by
  cases k <;> simp only [Form] at h <;> simp [incKind, h]

/-- The scalar registers after write-back. -/
theorem x_spec (i : VMemInst) (k : Spec.PostInc) (maxPhys : Nat) (s : MState) (rows : Nat) (a : BitVec 32)
    (ha : a.toNat = ((maskAddr maxPhys (readX s.x i.rs1)).toNat + if 0 < eltsNat i s then
        k.bytes (eltsNat i s) i.T.size (numOpsOf i.strip) rows (argNat i s) else 0) % 2 ^ 32) (q : Nat) :
    (if i.postInc then writeX s.x i.rs1 a else s.x) q =
      if i.postInc = true ∧ q = i.rs1 ∧ q ≠ 0 then
        BitVec.ofNat 32 ((access i maxPhys s).base + if 0 < (access i maxPhys s).count then
          k.bytes (access i maxPhys s).count (i.T.bits / 8) (access i maxPhys s).regs rows (arg2 i s) else 0)
      else s.x q := by
  have e : a = BitVec.ofNat 32 ((access i maxPhys s).base + if 0 < (access i maxPhys s).count then
          k.bytes (access i maxPhys s).count (i.T.bits / 8) (access i maxPhys s).regs rows (arg2 i s) else 0) := by
    apply BitVec.eq_of_toNat_eq
    rw [BitVec.toNat_ofNat, ha, access_count, maskAddr_toNat, bits_size, Nat.mul_div_cancel_left _ (by omega)]
    rfl
  rw [← e]
  cases i.postInc
  · simp
  · simp only [if_true, true_and, writeX]
    by_cases h : q = i.rs1
    · subst h; rfl
    · simp [h]

theorem vld_run (i : VMemInst) (k : Spec.PostInc) (hk : Form i k) (maxPhys : Nat) (s : MState) :
    ∃ s', i.vld maxPhys s = .ok s' ∧ s'.mem = s.mem ∧
      (∀ e < (access i maxPhys s).cap, Spec.groupNat i.T.bits s'.v i.vd e =
        if e < (access i maxPhys s).count then
          Spec.loadLE (i.T.bits / 8) s.mem ((access i maxPhys s).addr (Spec.lanes i.T.bits) e) else 0) ∧
      Spec.Frame i.vd (access i maxPhys s).regs s.v s'.v ∧
      ∀ q, s'.x q =
        if i.postInc = true ∧ q = i.rs1 ∧ q ≠ 0 then
          BitVec.ofNat 32 ((access i maxPhys s).base + if 0 < (access i maxPhys s).count then
            k.bytes (access i maxPhys s).count (i.T.bits / 8) (access i maxPhys s).regs 1 (arg2 i s) else 0)
        else s.x q := by
  obtain ⟨rf', h1, h2, h3⟩ := vldRegWrite_ok i.T (numOpsOf i.strip) i.vd (eltsNat i s) s.mem
    (Spec.elemAddr (maskAddr maxPhys (readX s.x i.rs1)).toNat (lanesOf i.T) (strideNat i s) i.T.size) s.v
  obtain ⟨a, h4, h5⟩ := writeBack_ok i s (maskAddr maxPhys (readX s.x i.rs1)) (eltsNat i s) 1 (form_len hk) (form_stride hk)
  rw [form_kind hk] at h5
  refine ⟨⟨if i.postInc then writeX s.x i.rs1 a else s.x, rf', s.mem⟩, ?_, rfl, ?_, ?_, ?_⟩
  · unfold VMemInst.vld
    simp only [elts_ok i s (form_len hk), stride_ok i s (form_stride hk), Outcome.ok_bind,
      vldAddrs_ok _ _ _ _ _ (elts_le i s), h1, h4]
  · intro e he
    rw [access_cap] at he
    rw [access_count, access_addr, ← lanesOf_eq, bits_size, Nat.mul_div_cancel_left _ (by omega), ← bits_size]
    exact h2 e he
  · exact h3
  · exact x_spec i k maxPhys s 1 a h5

theorem vst_run (i : VMemInst) (quad : Bool) (hT : i.T.bits ≤ 32) (k : Spec.PostInc) (hk : Form i k) (maxPhys : Nat)
    (s : MState) :
    ∃ s', i.vstHelper quad maxPhys s = .ok s' ∧ s'.v = s.v ∧
      Spec.Stores (access i maxPhys s).count (i.T.bits / 8)
        ((access i maxPhys s).addr (if quad then Spec.lanes i.T.bits / 4 else Spec.lanes i.T.bits))
        (Spec.groupNat i.T.bits s.v i.vd) s.mem s'.mem ∧
      ∀ q, s'.x q =
        if i.postInc = true ∧ q = i.rs1 ∧ q ≠ 0 then
          BitVec.ofNat 32 ((access i maxPhys s).base + if 0 < (access i maxPhys s).count then
            k.bytes (access i maxPhys s).count (i.T.bits / 8) (access i maxPhys s).regs (if quad then 4 else 1)
              (arg2 i s) else 0)
        else s.x q := by
  obtain ⟨a, h4, h5⟩ := writeBack_ok i s (maskAddr maxPhys (readX s.x i.rs1)) (eltsNat i s) (if quad then 4 else 1)
    (form_len hk) (form_stride hk)
  rw [form_kind hk] at h5
  have hq : lanesOf i.T % 4 = 0 := by
    cases h : i.T <;> simp only [h, CTy.bits] at hT <;> first | rfl | omega
  have hle := elts_le i s
  refine ⟨⟨if i.postInc then writeX s.x i.rs1 a else s.x, s.v, scatter i.T s.mem ((List.range (eltsNat i s)).map
    fun j => (Spec.elemAddr (maskAddr maxPhys (readX s.x i.rs1)).toNat
      (if quad then lanesOf i.T / 4 else lanesOf i.T) (strideNat i s) i.T.size j,
        regElt i.T (s.v (i.vd + j / lanesOf i.T)) (j % lanesOf i.T)))⟩, ?_, rfl, ?_, ?_⟩
  rotate_right
  · exact x_spec i k maxPhys s _ a h5
  · unfold VMemInst.vstHelper
    simp only [elts_ok i s (form_len hk), stride_ok i s (form_stride hk), Outcome.ok_bind,
      vst_ok _ _ _ _ quad _ _ _ (fun _ => hq)]
    rw [bufAll_ok (eltsNat i s) _ (fun j => (Spec.elemAddr (maskAddr maxPhys (readX s.x i.rs1)).toNat
      (if quad then lanesOf i.T / 4 else lanesOf i.T) (strideNat i s) i.T.size j,
        regElt i.T (s.v (i.vd + j / lanesOf i.T)) (j % lanesOf i.T)))]
    · simp only [Outcome.ok_bind, h4]
    · intro j hj
      simp only [stAfter]
      rw [if_pos]
      have : (if quad then numOpsOf i.strip * 4 else numOpsOf i.strip) *
          (if quad then lanesOf i.T / 4 else lanesOf i.T) = numOpsOf i.strip * lanesOf i.T := by
        cases quad
        · rfl
        · simp only [if_true]; rw [Nat.mul_assoc]; congr 1; omega
      rw [this]; omega
  · rw [access_count, access_addr, ← lanesOf_eq, bits_size, Nat.mul_div_cancel_left _ (by omega), ← bits_size]
    apply scatter_spec
    intro j b hb
    rw [ofInt_regElt, extract_byte, groupNat_eq]

theorem stores_load {n sz : Nat} {A V : Nat → Nat} {mem mem' : Mem} (h : Spec.Stores n sz A V mem mem')
    (hsep : Spec.Separate n sz A) (j : Nat) (hj : j < n) (hv : V j < 256 ^ sz) :
    Spec.loadLE sz mem' (A j) = V j := by
  apply eq_of_bytes sz _ _ (loadLE_lt _ _ _) hv
  intro b hb
  rw [loadLE_byte mem' sz (A j) b hb]
  apply h.2 j hj b hb
  intro l hl hln hc
  have := hsep j l hl hln
  simp only [Spec.Covers] at hc
  omega

theorem round_trip (i : VMemInst) (hT : i.T.bits ≤ 32) (k : Spec.PostInc) (hk : Form i k)
    (hp : i.postInc = false) (vd' : Nat) (maxPhys : Nat) (s : MState)
    (hsep : Spec.Separate (access i maxPhys s).count (i.T.bits / 8)
      ((access i maxPhys s).addr (Spec.lanes i.T.bits))) :
    ∃ s1 s2, i.vst maxPhys s = .ok s1 ∧ ({ i with vd := vd' } : VMemInst).vld maxPhys s1 = .ok s2 ∧
      ∀ e < (access i maxPhys s).cap, Spec.groupNat i.T.bits s2.v vd' e =
        if e < (access i maxPhys s).count then Spec.groupNat i.T.bits s.v i.vd e else 0 := by
  obtain ⟨s1, h1, h2, h3, h4⟩ := vst_run i false hT k hk maxPhys s
  have hx : s1.x = s.x := by funext q; rw [h4 q]; simp [hp]
  have hk' : Form { i with vd := vd' } k := by cases k <;> exact hk
  obtain ⟨s2, g1, -, g3, -⟩ := vld_run { i with vd := vd' } k hk' maxPhys s1
  refine ⟨s1, s2, h1, g1, ?_⟩
  have ea : access { i with vd := vd' } maxPhys s1 = access i maxPhys s := by
    simp only [access, arg2, hx]
  rw [ea] at g3
  intro e he
  rw [g3 e he]
  by_cases hc : e < (access i maxPhys s).count
  · rw [if_pos hc, if_pos hc]
    apply stores_load h3 hsep e hc
    have : (256 : Nat) ^ (i.T.bits / 8) = 2 ^ i.T.bits := by
      rw [bits_size, Nat.mul_div_cancel_left _ (by omega), ← bits_size, pow_bits]
    rw [this]
    exact BitVec.isLt _
  · rw [if_neg hc, if_neg hc]

theorem separate_unit (T : CTy) (hT : T.bits ≤ 32) (base N : Nat) (hN : N ≤ 4) :
    Spec.Separate (N * lanesOf T) T.size (Spec.elemAddr base (lanesOf T) (lanesOf T) T.size) := by
  intro i j hij hj
  cases T <;> simp only [CTy.bits] at hT <;>
    first | omega | skip
  all_goals
    simp only [Spec.elemAddr, lanesOf, CTy.size, Nat.reduceDiv, Nat.reduceMul] at *
    omega

theorem round_trip_copy (i : VMemInst) (hT : i.T.bits ≤ 32) (hk : Form i .unit)
    (hp : i.postInc = false) (vd' : Nat) (maxPhys : Nat) (s : MState) :
    ∃ s1 s2, i.vst maxPhys s = .ok s1 ∧ ({ i with vd := vd' } : VMemInst).vld maxPhys s1 = .ok s2 ∧
      ∀ r < (if i.strip then 4 else 1), s2.v (vd' + r) = s.v (i.vd + r) := by
  have hc : (access i maxPhys s).count = numOpsOf i.strip * lanesOf i.T := by
    rw [access_count, eltsNat, hk.1]; rfl
  have hcap : (access i maxPhys s).cap = numOpsOf i.strip * lanesOf i.T := access_cap ..
  obtain ⟨s1, s2, h1, h2, h3⟩ := round_trip i hT .unit hk hp vd' maxPhys s (by
    rw [hc, access_addr, ← lanesOf_eq, strideNat, hk.2.1, bits_size, Nat.mul_div_cancel_left _ (by omega)]
    exact separate_unit i.T hT _ _ (by cases i.strip <;> decide))
  refine ⟨s1, s2, h1, h2, ?_⟩
  intro r hr
  apply reg_ext i.T
  intro e he
  have hL := lanesOf_pos i.T
  have hlt : r * lanesOf i.T + e < numOpsOf i.strip * lanesOf i.T := by
    have : (r + 1) * lanesOf i.T ≤ numOpsOf i.strip * lanesOf i.T := Nat.mul_le_mul_right _ hr
    rw [Nat.add_mul] at this; omega
  have := h3 (r * lanesOf i.T + e) (by rw [hcap]; exact hlt)
  rw [if_pos (by rw [hc]; exact hlt), groupNat_eq, groupNat_eq] at this
  have e1 : (r * lanesOf i.T + e) / lanesOf i.T = r := Nat.div_eq_of_lt_le (by omega) (by rw [Nat.add_mul]; omega)
  have e2 : (r * lanesOf i.T + e) % lanesOf i.T = e := by
    rw [Nat.mul_comm, Nat.mul_add_mod, Nat.mod_eq_of_lt he]
  rw [e1, e2] at this
  rw [Spec.lane, Spec.lane, BitVec.eq_of_toNat_eq this]

theorem getVl_spec (T : CTy) (strip : Bool) (rs1 rs2 : Option (BitVec 32)) (m : Nat) :
    m ≤ (getVl T strip rs1 rs2).toNat ↔
      m ≤ (if strip then 4 else 1) * Spec.lanes T.bits ∧
      (∀ a, rs1 = some a → m ≤ a.toNat) ∧ (∀ a, rs2 = some a → m ≤ a.toNat) := by
  have hv : (if strip then BitVec.ofNat 32 (lanesOf T) * 4#32 else BitVec.ofNat 32 (lanesOf T)).toNat =
      (if strip then 4 else 1) * Spec.lanes T.bits := by
    cases strip <;> cases T <;> rfl
  have hmin : ∀ a v : BitVec 32, m ≤ (if a < v then a else v).toNat ↔ m ≤ v.toNat ∧ m ≤ a.toNat := by
    intro a v
    split
    · rename_i h; have : a.toNat < v.toNat := h; omega
    · rename_i h; have : ¬ a.toNat < v.toNat := h; omega
  rw [← hv]
  unfold getVl
  cases rs1 <;> cases rs2 <;> simp [hmin, and_assoc]

theorem vdup_run (T : CTy) (hT : T.bits ≤ 32) (strip : Bool) (vd : Nat) (x : BitVec 32) (rf : VRF) :
    ∃ rf', vdup T strip vd (if strip then 4 else 1) x rf = .ok rf' ∧
      (∀ k < (if strip then 4 else 1), ∀ e < Spec.lanes T.bits,
        Spec.lane T.signed T.bits (rf' (vd + k)) e = Spec.scalarElem T.signed T.bits x) ∧
      Spec.Frame vd (if strip then 4 else 1) rf rf' := by
  obtain ⟨rf', h1, h2, h3⟩ := submit_group T (numOpsOf strip) vd
    (fun _ => ⟨T, Spec.scalarElem T.signed T.bits x⟩) rf
  refine ⟨rf', ?_, ?_, h3⟩
  · unfold vdup
    rw [readElt_scalar T hT]
    simp only [Outcome.ok_bind]
    rw [if_pos (by rfl), h1]
  · intro k hk e he
    rw [← lanesOf_eq] at he
    rw [Spec.lane, h2 k hk e he, value_ofInt T _ (scalarElem_inRange T x)]

end Verif.Proofs
