import Verif.Proofs.MemTest
import Verif.Props.VecMem
import Verif.Props.Conv

/-!
# C116: the comparisons of the repository's vector memory test, for every address, operand and content
-/

namespace Verif.Props
open Verif Verif.Model Verif.Proofs Verif.Spec.MemTest

private theorem group_regElem (T : CTy) (rf : VRF) (vd op e : Nat) (he : e < Spec.lanes T.bits) :
    Spec.groupNat T.bits rf vd (op * Spec.lanes T.bits + e) = regElem (T.bits / 8) rf (vd + op) e := by
  have hp := lanes_pos T
  have h8 : 8 * (T.bits / 8) = T.bits := by cases T <;> rfl
  unfold Spec.groupNat regElem
  rw [h8, Nat.mul_comm op, Nat.mul_add_div hp, Nat.div_eq_of_lt he, Nat.mul_add_mod, Nat.mod_eq_of_lt he]
  rfl

private theorem expected_eq (i : VMemInst) (quad : Bool) (k : Spec.PostInc) (hk : Form i k) (hq : quad = true → k = .stride)
    (hp : i.postInc = true) (maxPhys : Nat) (s : MState) :
    (BitVec.ofNat 32 ((access i maxPhys s).base + if 0 < (access i maxPhys s).count then
      k.bytes (access i maxPhys s).count (i.T.bits / 8) (access i maxPhys s).regs (if quad then 4 else 1) (arg2 i s)
      else 0)).toNat = (cfgOf i quad).expectedRs1 (access i maxPhys s).base (arg2 i s) := by
  rw [BitVec.toNat_ofNat, Cfg.expectedRs1, cfg_count i quad maxPhys s, cfg_vdSize]
  have hl : Spec.lanes i.T.bits * (i.T.bits / 8) = 32 := by cases i.T <;> decide
  have hreg : (access i maxPhys s).regs = (cfgOf i quad).numOps := rfl
  have hc : ((cfgOf i quad).postInc && (access i maxPhys s).count != 0) = decide (0 < (access i maxPhys s).count) := by
    rw [show (cfgOf i quad).postInc = true from hp, Bool.true_and]
    by_cases h : (access i maxPhys s).count = 0
    · simp [h]
    · simp [h, Nat.pos_of_ne_zero h]
  rw [hc, hreg]
  simp only [show (cfgOf i quad).hasLength = i.hasLength from rfl, show (cfgOf i quad).hasStride = i.hasStride from rfl,
    show (cfgOf i quad).xVariant = i.rs2.isNone from rfl, show (cfgOf i quad).size = i.T.bits / 8 from rfl, hl,
    show (cfgOf i quad).quad = quad from rfl, decide_eq_true_eq]
  congr 2
  split
  · cases k <;> simp only [Form] at hk <;> obtain ⟨h1, h2, h3⟩ := hk <;>
      simp only [Spec.PostInc.bytes, h1, h2] <;>
      simp_all
    all_goals first | (intro h; simp [h] at h3; done) | ring
  · rfl

/-! ## Loads -/

/-- C116, loads: whatever the type, the form (plain, with length, with stride, with both, post-incrementing),
the strip-mining, the registers, the address, the length or stride and the contents of memory and registers,
the comparisons the test makes hold: every destination element is the memory element found by the test's walk,
or 0, and the address register has the expected value. -/
theorem C116_load (i : VMemInst) (k : Spec.PostInc) (hk : Form i k) (maxPhys : Nat) (s : MState) :
    ∃ s', i.vld maxPhys s = .ok s' ∧
      (cfgOf i false).LoadPasses (Spec.effBase maxPhys (Spec.scalar s.x i.rs1)) (arg2 i s) s.mem
        (fun op e => regElem (i.T.bits / 8) s'.v (i.vd + op) e) ∧
      (i.postInc = true → i.rs1 ≠ 0 →
        (s'.x i.rs1).toNat = (cfgOf i false).expectedRs1 (Spec.effBase maxPhys (Spec.scalar s.x i.rs1)) (arg2 i s)) := by
  obtain ⟨s', h1, h2, h3, h4, h5⟩ := vld_run i k hk maxPhys s
  refine ⟨s', h1, ?_, ?_⟩
  · intro op hop e he
    rw [cfg_vdSize] at he
    have hlt : op * Spec.lanes i.T.bits + e < (access i maxPhys s).cap := by
      rw [cfg_cap i false]
      have : (op + 1) * Spec.lanes i.T.bits ≤ (cfgOf i false).numOps * Spec.lanes i.T.bits := Nat.mul_le_mul_right _ hop
      rw [Nat.add_mul] at this
      omega
    show _ = regElem _ _ _ _
    rw [← group_regElem _ _ _ _ _ he, h3 _ hlt]
    by_cases hc : op * Spec.lanes i.T.bits + e < (access i maxPhys s).count
    · rw [if_pos ((lt_count i false maxPhys s op e he).mpr hc), if_pos hc]
      exact congrArg _ (elemAddr_row i maxPhys s op e he hc)
    · rw [if_neg (fun h => hc ((lt_count i false maxPhys s op e he).mp h)), if_neg hc]
  · intro hp hr
    rw [h5 i.rs1, if_pos ⟨hp, rfl, hr⟩]
    exact expected_eq i false k hk (by simp) hp maxPhys s

/-! ## Stores -/

private theorem store_common (i : VMemInst) (quad : Bool) (hT : i.T.bits ≤ 32) (k : Spec.PostInc) (hk : Form i k)
    (hq : quad = true → k = .stride) (maxPhys : Nat) (s s' : MState)
    (hst : (cfgOf i quad).StrideOk (arg2 i s))
    (hspan : i.hasStride = true → (cfgOf i quad).rows * (arg2 i s * (i.T.bits / 8)) ≤ 2 ^ 32)
    (hS : Spec.Stores (access i maxPhys s).count (i.T.bits / 8)
        ((access i maxPhys s).addr (if quad then Spec.lanes i.T.bits / 4 else Spec.lanes i.T.bits))
        (Spec.groupNat i.T.bits s.v i.vd) s.mem s'.mem) :
    (cfgOf i quad).StorePasses (Spec.effBase maxPhys (Spec.scalar s.x i.rs1)) (arg2 i s) s'.mem
      (fun op e => regElem (i.T.bits / 8) s.v (i.vd + op) e) := by
  have h4 : Spec.lanes i.T.bits = Spec.lanes i.T.bits / 4 * 4 ∧ 0 < Spec.lanes i.T.bits / 4 := by
    cases h : i.T <;> simp only [h, CTy.bits] at hT ⊢ <;> first | omega | decide
  have hcc : (access i maxPhys s).count ≤ (cfgOf i quad).numOps * Spec.lanes i.T.bits := by
    rw [← cfg_cap i quad maxPhys s, Spec.Access.count]; split <;> omega
  intro op hop e he hn
  rw [cfg_vdSize] at he
  have hc := (lt_count i quad maxPhys s op e he).mp hn
  show _ = regElem _ _ _ _
  rw [← group_regElem _ _ _ _ _ he]
  have haddr : (cfgOf i quad).elemAddr (access i maxPhys s).base (arg2 i s) op e =
      (access i maxPhys s).addr (if quad then Spec.lanes i.T.bits / 4 else Spec.lanes i.T.bits)
        (op * Spec.lanes i.T.bits + e) := by
    cases quad
    · exact elemAddr_row i maxPhys s op e he hc
    · have := hq rfl
      subst this
      exact elemAddr_quad i hT hk.2.1 maxPhys s op e
  refine (congrArg _ haddr).trans (stores_load hS ?_ _ hc ?_)
  · have hl : Spec.lanes i.T.bits * (i.T.bits / 8) = 32 := by cases i.T <;> decide
    have key : Spec.Separate ((cfgOf i quad).rows * (if quad then Spec.lanes i.T.bits / 4 else Spec.lanes i.T.bits))
        (i.T.bits / 8) ((access i maxPhys s).addr (if quad then Spec.lanes i.T.bits / 4 else Spec.lanes i.T.bits)) := by
      apply separate_rows
      · split <;> omega
      · have hst' := hst
        unfold Cfg.StrideOk at hst'
        rw [cfg_vdSize] at hst'
        cases hs : i.hasStride
        · simp only [access, hs, Bool.false_eq_true, if_false, Option.getD_none]
          split <;> omega
        · simpa [access, hs, cfgOf] using hst' hs
      · cases hs : i.hasStride
        · simp only [access, hs, Bool.false_eq_true, if_false, Option.getD_none, hl]
          have : (cfgOf i quad).rows ≤ 16 := by
            unfold Cfg.rows Cfg.numOps; split <;> split <;> omega
          omega
        · simpa [access, hs] using hspan hs
    intro a b hab hb
    refine key a b hab (Nat.lt_of_lt_of_le hb (Nat.le_trans hcc ?_))
    unfold Cfg.rows
    rw [show (cfgOf i quad).quad = quad from rfl]
    cases quad
    · exact Nat.le_refl _
    · simp only [if_true]
      rw [Nat.mul_comm 4, Nat.mul_assoc, Nat.mul_comm 4, ← h4.1]
  · rw [Spec.groupNat]
    refine Nat.lt_of_lt_of_le (BitVec.isLt _) (Nat.le_of_eq ?_)
    cases i.T <;> rfl

/-- C116, stores: the same for stores when the stride is at least a register and the rows together span at
most 2^32 bytes; the walk may wrap around the end of the address space. -/
theorem C116_store (i : VMemInst) (hT : i.T.bits ≤ 32) (k : Spec.PostInc) (hk : Form i k) (maxPhys : Nat) (s : MState)
    (hst : (cfgOf i false).StrideOk (arg2 i s))
    (hspan : i.hasStride = true → (cfgOf i false).rows * (arg2 i s * (i.T.bits / 8)) ≤ 2 ^ 32) :
    ∃ s', i.vst maxPhys s = .ok s' ∧ s'.v = s.v ∧
      (cfgOf i false).StorePasses (Spec.effBase maxPhys (Spec.scalar s.x i.rs1)) (arg2 i s) s'.mem
        (fun op e => regElem (i.T.bits / 8) s'.v (i.vd + op) e) ∧
      (i.postInc = true → i.rs1 ≠ 0 →
        (s'.x i.rs1).toNat = (cfgOf i false).expectedRs1 (Spec.effBase maxPhys (Spec.scalar s.x i.rs1)) (arg2 i s)) := by
  obtain ⟨s', h1, h2, h3, h5⟩ := vst_run i false hT k hk maxPhys s
  refine ⟨s', h1, h2, ?_, ?_⟩
  · rw [h2]
    exact store_common i false hT k hk (by simp) maxPhys s s' hst hspan h3
  · intro hp hr
    rw [h5 i.rs1, if_pos ⟨hp, rfl, hr⟩]
    exact expected_eq i false k hk (by simp) hp maxPhys s

/-- C116, quad stores: the stride may be as small as a quarter of a register, which is more than the test
tries. -/
theorem C116_storeq (i : VMemInst) (hT : i.T.bits ≤ 32) (hk : Form i .stride) (maxPhys : Nat) (s : MState)
    (hst : (cfgOf i true).StrideOk (arg2 i s))
    (hspan : (cfgOf i true).rows * (arg2 i s * (i.T.bits / 8)) ≤ 2 ^ 32) :
    ∃ s', i.vstq maxPhys s = .ok s' ∧ s'.v = s.v ∧
      (cfgOf i true).StorePasses (Spec.effBase maxPhys (Spec.scalar s.x i.rs1)) (arg2 i s) s'.mem
        (fun op e => regElem (i.T.bits / 8) s'.v (i.vd + op) e) ∧
      (i.postInc = true → i.rs1 ≠ 0 →
        (s'.x i.rs1).toNat = (cfgOf i true).expectedRs1 (Spec.effBase maxPhys (Spec.scalar s.x i.rs1)) (arg2 i s)) := by
  obtain ⟨s', h1, h2, h3, h5⟩ := vst_run i true hT .stride hk maxPhys s
  refine ⟨s', ?_, h2, ?_, ?_⟩
  · rw [VMemInst.vstq, ← h1]
    rw [show ({ i with hasLength := false, hasStride := true } : VMemInst) = i by
      cases i; simp only [Form] at hk; simp [hk.1, hk.2.1]]
  · rw [h2]
    exact store_common i true hT .stride hk (fun _ => rfl) maxPhys s s' hst (fun _ => hspan) h3
  · intro hp hr
    rw [h5 i.rs1, if_pos ⟨hp, rfl, hr⟩]
    exact expected_eq i true .stride hk (fun _ => rfl) hp maxPhys s

/-- C116: the address with the cache-invalidation bit set, as in the test's last case, is the address
without it. -/
theorem C116_uncached (maxPhys : Nat) (hm : maxPhys ≤ 0x3fffff) (a : BitVec 32) (ha : a.toNat < 2 ^ 31) :
    Spec.effBase maxPhys (a ||| 0x80000000#32) = a.toNat ∧ Spec.effBase maxPhys a = a.toNat := by
  unfold Spec.effBase
  rw [if_pos hm, if_pos hm]
  refine ⟨?_, Nat.mod_eq_of_lt ha⟩
  have h : (a ||| 0x80000000#32) &&& 0x7fffffff#32 = a &&& 0x7fffffff#32 := by
    rw [BitVec.and_comm, BitVec.and_or_distrib_left, BitVec.and_comm _ a]
    simp
  have h2 := congrArg BitVec.toNat h
  simp only [BitVec.toNat_and, BitVec.toNat_ofNat] at h2
  have e : (0x7fffffff % 2 ^ 32 : Nat) = 2 ^ 31 - 1 := by decide
  rw [e, Nat.and_two_pow_sub_one_eq_mod, Nat.and_two_pow_sub_one_eq_mod, Nat.mod_eq_of_lt ha] at h2
  exact h2

/-! ## Why the test leaves out small strides -/

/-- An element overwritten by a later one at the same address is not read back. -/
private theorem stores_last {n sz : Nat} {A V : Nat → Nat} {mem mem' : Mem} (h : Spec.Stores n sz A V mem mem')
    (b : Nat) (hb : b < n) (hsep : ∀ j, b < j → j < n → A b + sz ≤ A j ∨ A j + sz ≤ A b) (hv : V b < 256 ^ sz) :
    Spec.loadLE sz mem' (A b) = V b := by
  apply eq_of_bytes sz _ _ (loadLE_lt _ _ _) hv
  intro c hc
  rw [loadLE_byte mem' sz (A b) c hc]
  apply h.2 b hb c hc
  intro l hl hln hcov
  have := hsep l hl hln
  unfold Spec.Covers at hcov
  omega

/-- C116, negative part: with a stride one byte below a register, the last byte of a register is overwritten by
the first byte of the next one, so the comparison fails whenever the two differ. -/
theorem C116_small_stride (i : VMemInst) (hT : i.T = .i8) (hk : Form i .stride) (hs : i.strip = true)
    (maxPhys : Nat) (s : MState) (h31 : arg2 i s = 31) (hb : Spec.effBase maxPhys (Spec.scalar s.x i.rs1) < 2 ^ 31)
    (hd : regElem 1 s.v i.vd 31 ≠ regElem 1 s.v (i.vd + 1) 0) :
    ∃ s', i.vst maxPhys s = .ok s' ∧ s'.v = s.v ∧
      ¬ (cfgOf i false).StorePasses (Spec.effBase maxPhys (Spec.scalar s.x i.rs1)) (arg2 i s) s'.mem
        (fun op e => regElem (i.T.bits / 8) s'.v (i.vd + op) e) := by
  obtain ⟨s', h1, h2, h3, -⟩ := vst_run i false (by rw [hT]; decide) .stride hk maxPhys s
  refine ⟨s', h1, h2, fun hp => hd ?_⟩
  have hcount : (access i maxPhys s).count = 128 := by
    simp [access, Spec.Access.count, Spec.Access.cap, hk.1, hs, hT, CTy.bits, Spec.lanes]
  have hcfg : (cfgOf i false).vdSize = 32 := by rw [cfg_vdSize, hT]; decide
  have e31 : 31 < Spec.lanes i.T.bits := by rw [hT]; decide
  have hl : Spec.lanes i.T.bits = 32 := by rw [hT]; decide
  have hbits : i.T.bits / 8 = 1 := by rw [hT]; decide
  have hA : ∀ j < 128, (access i maxPhys s).addr 32 j =
      Spec.effBase maxPhys (Spec.scalar s.x i.rs1) + j / 32 * 31 + j % 32 := by
    intro j hj
    have e : (Spec.effBase maxPhys (Spec.scalar s.x i.rs1) + j / 32 * 31) % 2 ^ 32 =
        Spec.effBase maxPhys (Spec.scalar s.x i.rs1) + j / 32 * 31 := Nat.mod_eq_of_lt (by omega)
    rw [← e]
    simp [Spec.Access.addr, Spec.elemAddr, access, hk.2.1, h31, hT, CTy.bits]
  have hx := hp 0 (by simp [cfgOf, Cfg.numOps, hs]) 31 (by rw [hcfg]; decide)
    ((lt_count i false maxPhys s 0 31 e31).mpr (by rw [hcount, hl]; decide))
  have ha := elemAddr_row i maxPhys s 0 31 e31 (by rw [hcount, hl]; decide)
  rw [hl] at ha
  simp only [Bool.false_eq_true, if_false, hl, hbits, hcount] at h3
  have hlast := stores_last h3 32 (by decide) (by
    intro j hj hj2
    rw [hA j hj2, hA 32 (by decide)]
    omega) (by
    rw [Spec.groupNat]
    refine Nat.lt_of_lt_of_le (BitVec.isLt _) (Nat.le_of_eq ?_)
    rw [hT]; rfl)
  have hg := group_regElem i.T s.v i.vd 1 0 (by rw [hl]; decide)
  rw [hl, hbits] at hg
  have e1 : (access i maxPhys s).addr 32 32 = (access i maxPhys s).addr 32 31 := by
    rw [hA 31 (by decide), hA 32 (by decide)]
  rw [e1] at hlast
  have hx2 : Spec.loadLE 1 s'.mem ((access i maxPhys s).addr 32 31) = regElem 1 s.v (i.vd + 0) 31 := by
    rw [show (31 : Nat) = 0 * 32 + 31 from rfl, ← ha, ← h2]
    simpa [cfgOf, hbits, access] using hx
  rw [← hg]
  exact hx2.symm.trans hlast

/-! ## The other instructions of the file -/

/-- C116: `getvl` returns what the test expects, for every operand value. -/
theorem C116_getvl (T : CTy) (strip : Bool) (rs1 rs2 : Option (BitVec 32)) :
    (getVl T strip rs1 rs2).toNat = expectedVlen (T.bits / 8) strip (rs1.map BitVec.toNat) (rs2.map BitVec.toNat) := by
  have h := fun m => C29_getvl T strip rs1 rs2 m
  have hl : 256 / 8 / (T.bits / 8) = Spec.lanes T.bits := by cases T <;> rfl
  unfold expectedVlen
  rw [hl, Nat.mul_comm (Spec.lanes T.bits)]
  generalize (if strip then 4 else 1) * Spec.lanes T.bits = v at h ⊢
  apply Nat.le_antisymm
  · have h1 := (h _).mp (Nat.le_refl _)
    cases rs1 <;> cases rs2 <;> simp at h1 ⊢ <;> omega
  · rw [h]
    cases rs1 <;> cases rs2 <;> simp <;> omega

/-- C116: `vdup` of any scalar fills every element with its conversion to the element type. -/
theorem C116_vdup (T : CTy) (hT : T.bits ≤ 32) (strip : Bool) (vd : Nat) (x : BitVec 32) (rf : VRF) :
    ∃ rf', vdup T strip vd (if strip then 4 else 1) x rf = .ok rf' ∧
      ∀ op < (if strip then 4 else 1), ∀ e < 256 / 8 / (T.bits / 8),
        Spec.lane T.signed T.bits (rf' (vd + op)) e = Spec.value T.signed T.bits (x.truncate T.bits) := by
  obtain ⟨rf', h1, h2, -⟩ := C30_vdup T hT strip vd x rf
  have hl : 256 / 8 / (T.bits / 8) = Spec.lanes T.bits := by cases T <;> rfl
  exact ⟨rf', h1, fun op hop e he => (h2 op hop e (by omega)).trans rfl⟩

/-- C116: `vcget` of a cleared accumulator clears the destination registers, whatever they held. -/
theorem C116_vcget (vd : Nat) (rf : VRF) (acc : Acc) (hz : ∀ r < 8, ∀ c < 8, acc r c = 0) :
    ∃ rf' acc', vcget vd 8 rf acc = .ok (rf', acc') ∧ ∀ k < 8, ∀ e < 8, regElem 4 rf' (vd + k) e = 0 := by
  obtain ⟨rf', acc', h1, h2, -⟩ := C33_vcget vd rf acc
  refine ⟨rf', acc', h1, fun k hk e he => ?_⟩
  have := h2 k hk e he
  rw [hz k hk e he] at this
  unfold regElem
  rw [show 8 * 4 = 32 from rfl, this]
  rfl

/-- C116: after `acset` (`actr`) the accumulator is the source registers (transposed). -/
theorem C116_acset (t : Bool) (vs : Nat) (rf : VRF) (acc : Acc) :
    ∃ acc', acset t vs 8 rf acc = .ok acc' ∧ ∀ r < 8, ∀ e < 8,
      regElem 4 rf (vs + r) e = (if t then acc' e r else acc' r e).toNat := by
  obtain ⟨acc', h1, h2⟩ := C33_acset t vs rf acc
  refine ⟨acc', h1, fun r hr e he => ?_⟩
  unfold regElem
  cases t
  · simp [h2 r hr e he]
  · simp [h2 e he r hr]

/-- C116: after `adwinit` the first quarter of each destination register and of each row of the depthwise
accumulator is the first quarter of the source register.  The test's groups, `v32` and `v16`, do not
overlap. -/
theorem C116_adwinit (vs vd : Nat) (hov : ∀ j i, j < i → i < 4 → vd + j ≠ vs + i) (fresh : Nat → VReg) (rf : VRF)
    (acc : DwAcc) :
    ∃ rf' acc', adwinit vs 4 vd 4 fresh rf acc = .ok (rf', acc') ∧ ∀ k < 4, ∀ e < 8,
      regElem 1 rf' (vd + k) e = regElem 1 rf (vs + k) e ∧
      ∃ w, acc' (8 * k + e / 4) = some w ∧ (w.extractLsb' (e % 4 * 8) 8).toNat = regElem 1 rf (vs + k) e := by
  obtain ⟨rf', acc', h1, h2, h3, -⟩ := C34_adwinit vs vd hov fresh rf acc
  refine ⟨rf', acc', h1, fun k hk e he => ⟨?_, _, h2 k hk (e / 4) (by omega), ?_⟩⟩
  · unfold regElem
    have := h3 k hk e (by omega)
    rw [if_pos he] at this
    exact congrArg BitVec.toNat this
  · unfold regElem
    rw [BitVec.extractLsb'_toNat, BitVec.extractLsb'_toNat, BitVec.extractLsb'_toNat]
    rw [Nat.shiftRight_eq_div_pow, Nat.shiftRight_eq_div_pow, Nat.shiftRight_eq_div_pow]
    generalize (rf (vs + k)).toNat = N
    rcases (show e = 0 ∨ e = 1 ∨ e = 2 ∨ e = 3 ∨ e = 4 ∨ e = 5 ∨ e = 6 ∨ e = 7 by omega) with
      rfl | rfl | rfl | rfl | rfl | rfl | rfl | rfl <;> norm_num <;> omega

/-! ## Examples -/

/-- `vst.b.sp.xx.m v32, x5, x6` with the address register holding an address near 2^32. -/
def memTestInst : VMemInst :=
  { T := .i8, vd := 32, rs1 := 5, rs2 := some 6, hasLength := false, hasStride := true, strip := true, postInc := true }

/-- `x5 = 0xffffffe0`, `x6 = stride`, register `v(32+r)` filled with the byte `r`. -/
def memTestState (stride : BitVec 32) : MState where
  x := fun r => if r = 5 then 0xffffffe0#32 else if r = 6 then stride else 0
  v := fun r => BitVec.ofNat 256 ((r - 32) * (2 ^ 256 / 255))
  mem := fun a => BitVec.ofNat 8 a

/-- The store of the example wraps: the second register goes to address 0. -/
example : ∃ s', memTestInst.vst 0xffffffff (memTestState 32#32) = .ok s' ∧
    Spec.loadLE 1 s'.mem 0 = 1 ∧ s'.x 5 = 0x60#32 := by
  obtain ⟨s', h1, h2, h3, h4⟩ := C116_store memTestInst (by decide) .stride ⟨rfl, rfl, rfl⟩ 0xffffffff (memTestState 32#32)
    (by decide) (by decide)
  refine ⟨s', h1, ?_, ?_⟩
  · have := h3 1 (by decide) 0 (by decide) (by decide)
    rw [h2] at this
    exact this
  · exact BitVec.eq_of_toNat_eq ((h4 rfl (by decide)).trans (by decide))

example : memTestInst.strip = true ∧ arg2 memTestInst (memTestState 31#32) = 31 ∧
    regElem 1 (memTestState 31#32).v 32 31 ≠ regElem 1 (memTestState 31#32).v 33 0 := by
  decide +kernel

example : (cfgOf { memTestInst with T := .i32 } true).StrideOk 2 ∧ ¬ (cfgOf { memTestInst with T := .i32 } true).StrideOk 1 := by
  decide

example : expectedVlen 2 true (some 100) (some 7) = 7 ∧ expectedVlen 2 true (some 100) none = 64 := by decide

end Verif.Props
