import Verif.Proofs.Frame
import Verif.Model.VecInst

/-! # Lifting lane functions to instructions -/

namespace Verif.Proofs
open Verif Verif.Model CVal

theorem numOps_pos (b : Bool) : 0 < numOpsOf b := by cases b <;> decide

theorem untouched_of_noOverlap {vd vs N op : Nat} (h : Spec.NoOverlap vd vs N) (hop : op < N) :
    Untouched vd N 1 op (vs + op) := by
  intro o ho r hr
  have : r = 0 := by omega
  subst this
  simp only [dreg]
  unfold Spec.NoOverlap at h
  omega

theorem untouched_self {vd N op : Nat} (hop : op < N) : Untouched vd N 1 op (dreg vd N op 0) := by
  intro o ho r hr
  have : r = 0 := by omega
  subst this
  simp only [dreg]
  omega

theorem untouched_frame {vd N q : Nat} (hN : 0 < N) (h : q < vd ∨ vd + N ≤ q) : Untouched vd N 1 N q := by
  intro o ho r hr
  have : r = 0 := by omega
  subst this
  simp only [dreg]
  omega

theorem untouched_frame2 {vd N q : Nat} (hN : 0 < N) (h : q < vd ∨ vd + N * 2 ≤ q) : Untouched vd N 2 N q := by
  intro o ho r hr
  simp only [dreg]
  have : r = 0 ∨ r = 1 := by omega
  rcases this with rfl | rfl <;> omega

/-- The default first-operand getter, same-size case. -/
theorem commonArg1_eq (Td T : CTy) (hsz : Td.size = T.size) (o : Operands) (b len N : Nat)
    (h0 : o.src0 = .vec b len) (rf : VRF) (op e : Nat) (he : e < lanesOf T) (hop : op < len) :
    commonArg1 Td T T o N rf op e 0 = .ok ⟨T, Spec.lane T.signed T.bits (rf (b + op)) e⟩ := by
  have hp : 0 < T.size := by cases T <;> decide
  unfold commonArg1
  rw [h0]
  apply readElt_vec T rf b len op e _ _ he hop
  have hc : ¬ (Td.size = T.size ∧ T.size = 2 * T.size) := by omega
  rw [if_neg hc, hsz, Nat.mul_div_cancel _ hp]; rfl

theorem commonArg2_eq (Td T : CTy) (hsz : Td.size = T.size) (hb : T.bits ≤ 32) (i : VInst) (v : VOp) (rf : VRF) (op e : Nat)
    (he : e < lanesOf T) (hop : op < i.n) :
    commonArg2 Td T (i.operands v) i.scalar rf op e 0 = .ok ⟨T, i.op2.elem T.signed T.bits rf op e⟩ := by
  have hp : 0 < T.size := by cases T <;> decide
  unfold commonArg2 VInst.operands VInst.scalar
  cases i.op2 with
  | vreg b =>
    simp only [Bool.false_eq_true, if_false, Spec.Operand.elem]
    apply readElt_vec T rf b i.n op e _ _ he hop
    rw [hsz, Nat.mul_div_cancel _ hp]; rfl
  | scalar x =>
    simp only [if_true, Spec.Operand.elem]
    exact readElt_scalar T hb rf x

theorem elem_congr (s : Bool) (w : Nat) (vd N op e : Nat) (o : Spec.Operand) (rf rf' : VRF) (k : Nat)
    (h : ∀ q, Untouched vd N k op q → rf' q = rf q) (hq : ∀ b, o = .vreg b → Untouched vd N k op (b + op)) :
    o.elem s w rf' op e = o.elem s w rf op e := by
  cases o with
  | vreg b => simp only [Spec.Operand.elem]; rw [h _ (hq b rfl)]
  | scalar x => rfl

theorem elem_inRange (T : CTy) (o : Spec.Operand) (rf : VRF) (op e : Nat) :
    T.InRange (o.elem T.signed T.bits rf op e) := by
  cases o with
  | vreg b => exact lane_inRange T _ _
  | scalar x => exact scalarElem_inRange T x

theorem dstTy_size (k : BinK) (T : CTy) : (k.dstTy T).size = T.size ∧ (k.dstTy T).bits = T.bits := by
  cases k <;> cases T <;> exact ⟨rfl, rfl⟩

/-- Lane-by-lane instructions. -/
theorem bin_run (k : BinK) (T : CTy) (hb : T.bits ≤ 32) (i : VInst) (rf : VRF) (R : Int → Int → Int → Prop)
    (hel : ∀ a b, T.InRange a → T.InRange b →
      ∃ c, k.fn T ⟨T, a⟩ ⟨T, b⟩ = .ok ⟨k.dstTy T, c⟩ ∧ (k.dstTy T).InRange c ∧ R a b c)
    (a1 : Spec.NoOverlap i.vd i.vs1 i.n) (a2 : i.op2.NoOverlap i.vd i.n) :
    ∃ rf', (VOp.bin k T).run i rf = .ok rf' ∧
      Spec.LanewiseR (k.dstTy T).signed T.bits T.signed T.bits i.n i.vd i.vs1 i.op2 R rf rf' := by
  obtain ⟨hz, hbd⟩ := dstTy_size k T
  have hN := numOps_pos i.strip
  have hl : lanesOf (k.dstTy T) = lanesOf T := by rw [lanesOf, lanesOf, hz]
  have hk : regsPerOpOf false false (k.dstTy T) T = 1 := by simp [regsPerOpOf, hz]
  obtain ⟨rf', h1, h2, h3⟩ := binOp_ok (k.dstTy T) (i.operands (.bin k T)) i.n 1
    (commonArg1 (k.dstTy T) T T (i.operands (.bin k T)) i.n)
    (commonArg2 (k.dstTy T) T (i.operands (.bin k T)) i.scalar) (noDest (k.fn T)) rf
    (fun op _ e c => R (Spec.lane T.signed T.bits (rf (i.vs1 + op)) e) (i.op2.elem T.signed T.bits rf op e) c)
    (by simp [VInst.operands, VOp.dstFactor])
    (by
      intro op hop rf1 hrf r hr e he
      have : r = 0 := by omega
      subst this
      rw [hl] at he
      obtain ⟨c, hc, hin, hR⟩ := hel _ _ (lane_inRange T (rf (i.vs1 + op)) e) (elem_inRange T i.op2 rf op e)
      refine ⟨c, ?_, hin, hR⟩
      unfold laneF
      rw [commonArg1_eq _ T hz _ i.vs1 (i.n * 1) _ rfl rf1 op e he (by omega), Outcome.ok_bind,
        commonArg2_eq _ T hz hb i _ rf1 op e he hop, Outcome.ok_bind]
      rw [hrf _ (untouched_of_noOverlap a1 hop), elem_congr _ _ _ _ _ _ _ _ _ _ hrf, noDest, hc]
      intro b hb'
      rw [hb'] at a2
      exact untouched_of_noOverlap a2 hop)
  refine ⟨rf', ?_, ?_, ?_⟩
  · simp only [VOp.run, VOp.exec, hk]; exact h1
  · intro j hj e he
    rw [← lanesOf_eq, ← hl] at he
    have := h2 j hj 0 (by omega) e he
    simp only [dreg, Nat.zero_mul, Nat.add_zero] at this
    rw [hbd] at this
    exact this
  · intro q hq
    exact h3 q (untouched_frame hN hq)

/-- Functional form of `bin_run`. -/
theorem bin_run_fn (k : BinK) (T : CTy) (hb : T.bits ≤ 32) (i : VInst) (rf : VRF) (g : Int → Int → Int)
    (hel : ∀ a b, T.InRange a → T.InRange b → k.fn T ⟨T, a⟩ ⟨T, b⟩ = .ok ⟨k.dstTy T, g a b⟩)
    (hin : ∀ a b, T.InRange a → T.InRange b → (k.dstTy T).InRange (g a b))
    (a1 : Spec.NoOverlap i.vd i.vs1 i.n) (a2 : i.op2.NoOverlap i.vd i.n) :
    ∃ rf', (VOp.bin k T).run i rf = .ok rf' ∧
      Spec.Lanewise (k.dstTy T).signed T.bits T.signed T.bits i.n i.vd i.vs1 i.op2 g rf rf' :=
  bin_run k T hb i rf _ (fun a b ha hb => ⟨_, hel a b ha hb, hin a b ha hb, rfl⟩) a1 a2

/-- Instructions that also read the destination. -/
theorem ter_run (k : TerK) (T : CTy) (hb : T.bits ≤ 32) (i : VInst) (rf : VRF) (g : Int → Int → Int → Int)
    (hel : ∀ d a b, T.InRange d → T.InRange a → T.InRange b →
      k.fn T ⟨T, d⟩ ⟨T, a⟩ ⟨T, b⟩ = .ok ⟨T, g d a b⟩ ∧ T.InRange (g d a b))
    (a1 : Spec.NoOverlap i.vd i.vs1 i.n) (a2 : i.op2.NoOverlap i.vd i.n) :
    ∃ rf', (VOp.ter k T).run i rf = .ok rf' ∧
      (∀ j < i.n, ∀ e < Spec.lanes T.bits, Spec.lane T.signed T.bits (rf' (i.vd + j)) e =
        g (Spec.lane T.signed T.bits (rf (i.vd + j)) e) (Spec.lane T.signed T.bits (rf (i.vs1 + j)) e)
          (i.op2.elem T.signed T.bits rf j e)) ∧ Spec.Frame i.vd i.n rf rf' := by
  have hN := numOps_pos i.strip
  have hk : regsPerOpOf false false T T = 1 := by simp [regsPerOpOf]
  obtain ⟨rf', h1, h2, h3⟩ := binOp_ok T (i.operands (.ter k T)) i.n 1
    (commonArg1 T T T (i.operands (.ter k T)) i.n)
    (commonArg2 T T (i.operands (.ter k T)) i.scalar) (k.fn T) rf
    (fun op _ e c => c = g (Spec.lane T.signed T.bits (rf (i.vd + op)) e)
      (Spec.lane T.signed T.bits (rf (i.vs1 + op)) e) (i.op2.elem T.signed T.bits rf op e))
    (by simp [VInst.operands, VOp.dstFactor])
    (by
      intro op hop rf1 hrf r hr e he
      have : r = 0 := by omega
      subst this
      obtain ⟨hc, hin⟩ := hel _ _ _ (lane_inRange T (rf (i.vd + op)) e)
        (lane_inRange T (rf (i.vs1 + op)) e) (elem_inRange T i.op2 rf op e)
      refine ⟨_, ?_, hin, rfl⟩
      unfold laneF
      have hself := hrf _ (untouched_self (vd := i.vd) hop)
      simp only [dreg] at hself
      rw [commonArg1_eq _ T rfl _ i.vs1 (i.n * 1) _ rfl rf1 op e he (by omega), Outcome.ok_bind,
        commonArg2_eq _ T rfl hb i _ rf1 op e he hop, Outcome.ok_bind]
      rw [hrf _ (untouched_of_noOverlap a1 hop), elem_congr _ _ _ _ _ _ _ _ _ _ hrf]
      · simp only [VInst.operands]
        rw [hself, regElt_lane, ← hc]; simp
      · intro b hb'
        rw [hb'] at a2
        exact untouched_of_noOverlap a2 hop)
  refine ⟨rf', ?_, ?_, ?_⟩
  · simp only [VOp.run, VOp.exec, hk]; exact h1
  · intro j hj e he
    rw [← lanesOf_eq] at he
    have := h2 j hj 0 (by omega) e he
    simp only [dreg, Nat.zero_mul, Nat.add_zero] at this
    exact this
  · intro q hq
    exact h3 q (untouched_frame hN hq)

/-- One-operand instructions. -/
theorem un_run (k : UnK) (T : CTy) (i : VInst) (rf : VRF) (R : Int → Int → Prop)
    (hel : ∀ a, T.InRange a → ∃ c, k.fn T ⟨T, a⟩ = .ok ⟨T, c⟩ ∧ T.InRange c ∧ R a c)
    (a1 : Spec.NoOverlap i.vd i.vs1 i.n) :
    ∃ rf', (VOp.un k T).run i rf = .ok rf' ∧
      (∀ j < i.n, ∀ e < Spec.lanes T.bits, R (Spec.lane T.signed T.bits (rf (i.vs1 + j)) e)
        (Spec.lane T.signed T.bits (rf' (i.vd + j)) e)) ∧ Spec.Frame i.vd i.n rf rf' := by
  have hN := numOps_pos i.strip
  obtain ⟨rf', h1, h2, h3⟩ := binOp_ok T (i.operands (.un k T)) i.n 1
    (commonArg1 T T T (i.operands (.un k T)) i.n) (commonArg1 T T T (i.operands (.un k T)) i.n)
    (fun _ a _ => k.fn T a) rf
    (fun op _ e c => R (Spec.lane T.signed T.bits (rf (i.vs1 + op)) e) c)
    (by simp [VInst.operands, VOp.dstFactor])
    (by
      intro op hop rf1 hrf r hr e he
      have : r = 0 := by omega
      subst this
      obtain ⟨c, hc, hin, hR⟩ := hel _ (lane_inRange T (rf (i.vs1 + op)) e)
      refine ⟨c, ?_, hin, hR⟩
      unfold laneF
      rw [commonArg1_eq _ T rfl _ i.vs1 (i.n * 1) _ rfl rf1 op e he (by omega), Outcome.ok_bind, Outcome.ok_bind,
        hrf _ (untouched_of_noOverlap a1 hop)]
      exact hc)
  refine ⟨rf', h1, ?_, ?_⟩
  · intro j hj e he
    rw [← lanesOf_eq] at he
    have := h2 j hj 0 (by omega) e he
    simp only [dreg, Nat.zero_mul, Nat.add_zero] at this
    exact this
  · intro q hq
    exact h3 q (untouched_frame hN hq)

end Verif.Proofs
