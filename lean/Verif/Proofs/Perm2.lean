import Verif.Proofs.Perm

/-! # Slides, register-pair moves -/

namespace Verif.Proofs
open Verif Verif.Model CVal

theorem op_cases {n op : Nat} (hn : n ≤ 4) (h : op < n) : op = 0 ∨ op = 1 ∨ op = 2 ∨ op = 3 := by omega

theorem n_le (i : VInst) : i.n ≤ 4 := by unfold VInst.n numOpsOf; split <;> omega

theorem common2_some (T : CTy) (o : Operands) (b n : Nat) (h : o.src1 = .vec b n) (rf : VRF) (op e r : Nat)
    (hop : op < n) (he : e < lanesOf T) (hr : r < 1) : ∃ c, commonArg2 T T o false rf op e r = .ok c := by
  have : r = 0 := by omega
  subst this
  have hp : 0 < T.size := by cases T <;> decide
  refine ⟨⟨T, Spec.lane T.signed T.bits (rf (b + op)) e⟩, ?_⟩
  unfold commonArg2
  rw [h]
  exact readElt_vec T rf b n op e _ (by simp [Nat.mul_div_cancel _ hp]) he hop

/-- Both operands of a slide are vector groups. -/
theorem slide_srcs (i : VInst) (v : VOp) (vs2 : Nat) (h2 : i.op2 = .vreg vs2) (hv : v.src1Factor = 1) :
    (i.operands v).src 0 = .vec i.vs1 i.n ∧ (i.operands v).src 1 = .vec vs2 i.n ∧ i.scalar = false ∧
      (i.operands v).src1 = .vec vs2 i.n := by
  simp [Operands.src, VInst.operands, VInst.scalar, h2, hv]

/-- Vertical slide towards lane 0. -/
theorem slidevn_run (T : CTy) (index : Nat) (hidx : index ≤ lanesOf T) (i : VInst) (vs2 : Nat)
    (h2 : i.op2 = .vreg vs2) (rf : VRF)
    (a1 : Spec.NoOverlap i.vd i.vs1 i.n) (a2 : Spec.NoOverlap i.vd vs2 i.n) :
    ∃ rf', (VOp.sliden false index T).run i rf = .ok rf' ∧
      (∀ k < i.n, ∀ e < Spec.lanes T.bits, Spec.lane T.signed T.bits (rf' (i.vd + k)) e =
        if e + index < Spec.lanes T.bits then Spec.lane T.signed T.bits (rf (i.vs1 + k)) (e + index)
        else Spec.lane T.signed T.bits (rf (vs2 + k)) (e + index - Spec.lanes T.bits)) ∧
      Spec.Frame i.vd i.n rf rf' := by
  obtain ⟨s0, s1, s2, s3⟩ := slide_srcs i (.sliden false index T) vs2 h2 rfl
  have hk : regsPerOpOf false false T T = 1 := by simp [regsPerOpOf]
  have hg : ∀ rf : VRF, ∀ op < i.n, ∀ r, ∀ e < lanesOf T,
      slidenArg1 T (i.operands (.sliden false index T)) false index rf op e r = .ok ⟨T,
        if e + index < lanesOf T then Spec.lane T.signed T.bits (rf (i.vs1 + op)) (e + index)
        else Spec.lane T.signed T.bits (rf (vs2 + op)) (e + index - lanesOf T)⟩ := by
    intro rf op hop r e he
    unfold slidenArg1
    split
    · rename_i hlt
      have e1 : [(0, 0), (1, 0), (2, 0), (3, 0)].getD op (0, 0) = (op, 0) := by
        rcases op_cases (n_le i) hop with rfl | rfl | rfl | rfl <;> rfl
      simp only [e1, s0]
      exact readElt_vec T rf _ _ op (e + index) _ (by omega) hlt hop
    · rename_i hlt
      have e1 : (if false = true then [(1, 0), (2, 0), (3, 0), (0, 1)]
              else [(0, 1), (1, 1), (2, 1), (3, 1)]).getD op (0, 0) = (op, 1) := by
        rcases op_cases (n_le i) hop with rfl | rfl | rfl | rfl <;> rfl
      simp only [e1, s1]
      exact readElt_vec T rf _ _ op (e + index - lanesOf T) _ (by omega) (by omega) hop
  obtain ⟨rf', h1, h2', h3⟩ := perm_run T (i.operands (.sliden false index T)) i.n 1
    (slidenArg1 T (i.operands (.sliden false index T)) false index)
    (commonArg2 T T (i.operands (.sliden false index T)) false) rf
    (fun op _ e => if e + index < lanesOf T then Spec.lane T.signed T.bits (rf (i.vs1 + op)) (e + index)
        else Spec.lane T.signed T.bits (rf (vs2 + op)) (e + index - lanesOf T))
    (by simp [VInst.operands, VOp.dstFactor])
    (by
      intro op hop rf1 hrf r hr e he
      rw [hg rf1 op hop r e he, hrf _ (untouched_of_noOverlap a1 hop), hrf _ (untouched_of_noOverlap a2 hop)])
    (by
      intro op hop rf1 r hr e he
      exact common2_some T _ _ _ s3 rf1 op e r hop he hr)
    (by intro op _ r _ e _; split <;> exact lane_inRange T _ _)
  refine ⟨rf', ?_, ?_, fun q hq => h3 q (untouched_frame (numOps_pos _) hq)⟩
  · simp only [VOp.run, VOp.exec, hk, Bool.or_false]; exact h1
  · rw [← lanesOf_eq]
    intro k hk' e he
    have := h2' k hk' 0 (by omega) e he
    simpa [dreg, VInst.operands] using this

/-- Vertical slide away from lane 0. -/
theorem slidevp_run (T : CTy) (index : Nat) (hidx : index ≤ lanesOf T) (i : VInst) (vs2 : Nat)
    (h2 : i.op2 = .vreg vs2) (rf : VRF)
    (a1 : Spec.NoOverlap i.vd i.vs1 i.n) (a2 : Spec.NoOverlap i.vd vs2 i.n) :
    ∃ rf', (VOp.slidep false index T).run i rf = .ok rf' ∧
      (∀ k < i.n, ∀ e < Spec.lanes T.bits, Spec.lane T.signed T.bits (rf' (i.vd + k)) e =
        if e < index then Spec.lane T.signed T.bits (rf (i.vs1 + k)) (Spec.lanes T.bits - index + e)
        else Spec.lane T.signed T.bits (rf (vs2 + k)) (e - index)) ∧
      Spec.Frame i.vd i.n rf rf' := by
  obtain ⟨s0, s1, s2, s3⟩ := slide_srcs i (.slidep false index T) vs2 h2 rfl
  have hk : regsPerOpOf false false T T = 1 := by simp [regsPerOpOf]
  have hg : ∀ rf : VRF, ∀ op < i.n, ∀ r, ∀ e < lanesOf T,
      slidepArg1 T (i.operands (.slidep false index T)) false index rf op e r = .ok ⟨T,
        if e < index then Spec.lane T.signed T.bits (rf (i.vs1 + op)) (lanesOf T - index + e)
        else Spec.lane T.signed T.bits (rf (vs2 + op)) (e - index)⟩ := by
    intro rf op hop r e he
    unfold slidepArg1
    split
    · rename_i hlt
      have e1 : (if false = true then [(3, 0), (0, 1), (1, 1), (2, 1)]
              else [(0, 0), (1, 0), (2, 0), (3, 0)]).getD op (0, 0) = (op, 0) := by
        rcases op_cases (n_le i) hop with rfl | rfl | rfl | rfl <;> rfl
      simp only [e1, s0]
      exact readElt_vec T rf _ _ op (lanesOf T - index + e) _ (by omega) (by omega) hop
    · rename_i hlt
      have e1 : [(0, 1), (1, 1), (2, 1), (3, 1)].getD op (0, 0) = (op, 1) := by
        rcases op_cases (n_le i) hop with rfl | rfl | rfl | rfl <;> rfl
      simp only [e1, s1]
      exact readElt_vec T rf _ _ op (e - index) _ (by omega) (by omega) hop
  obtain ⟨rf', h1, h2', h3⟩ := perm_run T (i.operands (.slidep false index T)) i.n 1
    (slidepArg1 T (i.operands (.slidep false index T)) false index)
    (commonArg2 T T (i.operands (.slidep false index T)) false) rf
    (fun op _ e => if e < index then Spec.lane T.signed T.bits (rf (i.vs1 + op)) (lanesOf T - index + e)
        else Spec.lane T.signed T.bits (rf (vs2 + op)) (e - index))
    (by simp [VInst.operands, VOp.dstFactor])
    (by
      intro op hop rf1 hrf r hr e he
      rw [hg rf1 op hop r e he, hrf _ (untouched_of_noOverlap a1 hop), hrf _ (untouched_of_noOverlap a2 hop)])
    (by
      intro op hop rf1 r hr e he
      exact common2_some T _ _ _ s3 rf1 op e r hop he hr)
    (by intro op _ r _ e _; split <;> exact lane_inRange T _ _)
  refine ⟨rf', ?_, ?_, fun q hq => h3 q (untouched_frame (numOps_pos _) hq)⟩
  · simp only [VOp.run, VOp.exec, hk, Bool.or_false]; exact h1
  · rw [← lanesOf_eq]
    intro k hk' e he
    have := h2' k hk' 0 (by omega) e he
    simpa [dreg, VInst.operands] using this

theorem groupElem_split (T : CTy) (rf : VRF) (b k e : Nat) (he : e < lanesOf T) :
    Spec.groupElem T.signed T.bits rf b (k * lanesOf T + e) = Spec.lane T.signed T.bits (rf (b + k)) e := by
  have hp := lanesOf_pos T
  rw [Spec.groupElem, ← lanesOf_eq, Nat.mul_comm, Nat.mul_add_div hp, Nat.mul_add_mod, Nat.div_eq_of_lt he,
    Nat.mod_eq_of_lt he]; rfl

/-- Horizontal slide towards lane 0: the four registers are one long vector. -/
theorem slidehn_run (T : CTy) (index : Nat) (hidx : index ≤ lanesOf T) (i : VInst) (hst : i.strip = true) (vs2 : Nat)
    (h2 : i.op2 = .vreg vs2) (rf : VRF)
    (a1 : Spec.NoOverlap i.vd i.vs1 4) (a2 : vs2 < i.vd ∨ i.vd + 3 ≤ vs2) :
    ∃ rf', (VOp.sliden true index T).run i rf = .ok rf' ∧
      (∀ j < 4 * Spec.lanes T.bits, Spec.groupElem T.signed T.bits rf' i.vd j =
        Spec.catElem T.signed T.bits rf 4 i.vs1 i.op2 (j + index)) ∧
      Spec.Frame i.vd 4 rf rf' := by
  have hn : i.n = 4 := by simp [VInst.n, numOpsOf, hst]
  obtain ⟨s0, s1, s2, s3⟩ := slide_srcs i (.sliden true index T) vs2 h2 rfl
  rw [hn] at s0 s1 s3
  have hk : regsPerOpOf false false T T = 1 := by simp [regsPerOpOf]
  have hp := lanesOf_pos T
  have hc1 : ∀ rf : VRF, ∀ op < 4, ∀ e, e + index < lanesOf T →
      Spec.catElem T.signed T.bits rf 4 i.vs1 i.op2 (op * lanesOf T + e + index) =
        Spec.lane T.signed T.bits (rf (i.vs1 + op)) (e + index) := by
    intro rf op hop e he
    have : (op + 1) * lanesOf T ≤ 4 * lanesOf T := Nat.mul_le_mul_right _ hop
    rw [Nat.add_mul] at this
    unfold Spec.catElem
    rw [← lanesOf_eq, if_pos (by omega), Nat.add_assoc, groupElem_split T rf _ _ _ he]
  have hc2 : ∀ rf : VRF, ∀ op < 3, ∀ e < lanesOf T, ¬ e + index < lanesOf T →
      Spec.catElem T.signed T.bits rf 4 i.vs1 i.op2 (op * lanesOf T + e + index) =
        Spec.lane T.signed T.bits (rf (i.vs1 + (op + 1))) (e + index - lanesOf T) := by
    intro rf op hop e he h
    have : (op + 1 + 1) * lanesOf T ≤ 4 * lanesOf T := Nat.mul_le_mul_right _ (by omega)
    rw [Nat.add_mul, Nat.add_mul] at this
    unfold Spec.catElem
    have e1 : op * lanesOf T + e + index = (op + 1) * lanesOf T + (e + index - lanesOf T) := by
      rw [Nat.add_mul]; omega
    rw [← lanesOf_eq, if_pos (by omega), e1, groupElem_split T rf _ _ _ (by omega)]
  have hc3 : ∀ rf : VRF, ∀ e < lanesOf T, ¬ e + index < lanesOf T →
      Spec.catElem T.signed T.bits rf 4 i.vs1 i.op2 (3 * lanesOf T + e + index) =
        Spec.lane T.signed T.bits (rf (vs2 + 0)) (e + index - lanesOf T) := by
    intro rf e he h
    unfold Spec.catElem
    have e1 : 3 * lanesOf T + e + index - 4 * lanesOf T = 0 * lanesOf T + (e + index - lanesOf T) := by omega
    rw [← lanesOf_eq, if_neg (by omega), h2, Spec.Operand.groupElem, e1, groupElem_split T rf _ _ _ (by omega)]
  have hg : ∀ rf : VRF, ∀ op < 4, ∀ r, ∀ e < lanesOf T,
      slidenArg1 T (i.operands (.sliden true index T)) true index rf op e r = .ok ⟨T,
        Spec.catElem T.signed T.bits rf 4 i.vs1 i.op2 (op * lanesOf T + e + index)⟩ := by
    intro rf op hop r e he
    unfold slidenArg1
    split
    · rename_i hlt
      have e1 : [(0, 0), (1, 0), (2, 0), (3, 0)].getD op (0, 0) = (op, 0) := by
        rcases op_cases (le_refl 4) hop with rfl | rfl | rfl | rfl <;> rfl
      simp only [e1, s0]
      rw [hc1 rf op hop e hlt]
      exact readElt_vec T rf _ _ op (e + index) _ (by omega) hlt hop
    · rename_i hlt
      simp only [if_true]
      by_cases h3 : op < 3
      · have e1 : [(1, 0), (2, 0), (3, 0), (0, 1)].getD op (0, 0) = (op + 1, 0) := by
          have : op = 0 ∨ op = 1 ∨ op = 2 := by omega
          rcases this with rfl | rfl | rfl <;> rfl
        simp only [e1, s0]
        rw [hc2 rf op h3 e he hlt]
        exact readElt_vec T rf _ _ (op + 1) (e + index - lanesOf T) _ (by omega) (by omega) (by omega)
      · have : op = 3 := by omega
        subst this
        have e1 : [(1, 0), (2, 0), (3, 0), (0, 1)].getD 3 (0, 0) = (0, 1) := rfl
        simp only [e1, s1]
        rw [hc3 rf e he hlt]
        exact readElt_vec T rf _ _ 0 (e + index - lanesOf T) _ (by omega) (by omega) (by omega)
  obtain ⟨rf', h1, h2', h3⟩ := perm_run T (i.operands (.sliden true index T)) 4 1
    (slidenArg1 T (i.operands (.sliden true index T)) true index)
    (commonArg2 T T (i.operands (.sliden true index T)) false) rf
    (fun op _ e => Spec.catElem T.signed T.bits rf 4 i.vs1 i.op2 (op * lanesOf T + e + index))
    (by simp [VInst.operands, VOp.dstFactor, hn])
    (by
      intro op hop rf1 hrf r hr e he
      rw [hg rf1 op hop r e he]
      have u1 : ∀ k, (k = op ∨ k = op + 1) → k < 4 → Untouched i.vd 4 1 op (i.vs1 + k) := by
        intro k hk hk4 o ho r hr
        have : r = 0 := by omega
        subst this
        simp only [dreg]
        unfold Spec.NoOverlap at a1
        omega
      congr 2
      by_cases hlt : e + index < lanesOf T
      · rw [hc1 _ op hop e hlt, hc1 _ op hop e hlt, hrf _ (u1 op (Or.inl rfl) hop)]
      · by_cases h3 : op < 3
        · rw [hc2 _ op h3 e he hlt, hc2 _ op h3 e he hlt, hrf _ (u1 (op + 1) (Or.inr rfl) (by omega))]
        · have : op = 3 := by omega
          subst this
          rw [hc3 _ e he hlt, hc3 _ e he hlt, hrf]
          intro o ho r hr
          have : r = 0 := by omega
          subst this
          simp only [dreg, VInst.operands]
          omega)
    (by
      intro op hop rf1 r hr e he
      exact common2_some T _ _ _ s3 rf1 op e r hop he hr)
    (by intros; exact catElem_inRange T _ _ _ _ _)
  refine ⟨rf', ?_, ?_, fun q hq => h3 q (untouched_frame (by omega) hq)⟩
  · simp only [VOp.run, VOp.exec, hk, Bool.or_true]; exact h1
  · rw [← lanesOf_eq]
    apply flat_of_lanes T i.vd 4 rf' (fun j => Spec.catElem T.signed T.bits rf 4 i.vs1 i.op2 (j + index))
    intro op hop e he
    have := h2' op hop 0 (by omega) e he
    simpa [dreg, VInst.operands] using this

/-- Horizontal slide away from lane 0. -/
theorem slidehp_run (T : CTy) (index : Nat) (hidx : index ≤ lanesOf T) (i : VInst) (hst : i.strip = true) (vs2 : Nat)
    (h2 : i.op2 = .vreg vs2) (rf : VRF)
    (a2 : i.vd < vs2 ∨ vs2 + 4 ≤ i.vd) :
    ∃ rf', (VOp.slidep true index T).run i rf = .ok rf' ∧
      (∀ j < 4 * Spec.lanes T.bits, Spec.groupElem T.signed T.bits rf' i.vd j =
        Spec.catElem T.signed T.bits rf 4 i.vs1 i.op2 (4 * Spec.lanes T.bits + j - index)) ∧
      Spec.Frame i.vd 4 rf rf' := by
  have hn : i.n = 4 := by simp [VInst.n, numOpsOf, hst]
  obtain ⟨s0, s1, s2, s3⟩ := slide_srcs i (.slidep true index T) vs2 h2 rfl
  rw [hn] at s0 s1 s3
  have hk : regsPerOpOf false false T T = 1 := by simp [regsPerOpOf]
  have hp := lanesOf_pos T
  -- the three cases of the concatenation
  have hc1 : ∀ rf : VRF, ∀ op < 4, ∀ e < lanesOf T, ¬ e < index →
      Spec.catElem T.signed T.bits rf 4 i.vs1 i.op2 (4 * lanesOf T + (op * lanesOf T + e) - index) =
        Spec.lane T.signed T.bits (rf (vs2 + op)) (e - index) := by
    intro rf op hop e he h
    unfold Spec.catElem
    have e1 : 4 * lanesOf T + (op * lanesOf T + e) - index - 4 * lanesOf T = op * lanesOf T + (e - index) := by omega
    rw [← lanesOf_eq, if_neg (by omega), h2, Spec.Operand.groupElem, e1, groupElem_split T rf _ _ _ (by omega)]
  have hc2 : ∀ rf : VRF, ∀ op < 3, ∀ e < index,
      Spec.catElem T.signed T.bits rf 4 i.vs1 i.op2 (4 * lanesOf T + ((op + 1) * lanesOf T + e) - index) =
        Spec.lane T.signed T.bits (rf (vs2 + op)) (lanesOf T - index + e) := by
    intro rf op hop e h
    unfold Spec.catElem
    have e1 : 4 * lanesOf T + ((op + 1) * lanesOf T + e) - index - 4 * lanesOf T =
        op * lanesOf T + (lanesOf T - index + e) := by rw [Nat.add_mul]; omega
    have : lanesOf T ≤ (op + 1) * lanesOf T := Nat.le_mul_of_pos_left _ (by omega)
    rw [← lanesOf_eq, if_neg (by omega), h2, Spec.Operand.groupElem, e1, groupElem_split T rf _ _ _ (by omega)]
  have hc3 : ∀ rf : VRF, ∀ e < index,
      Spec.catElem T.signed T.bits rf 4 i.vs1 i.op2 (4 * lanesOf T + (0 * lanesOf T + e) - index) =
        Spec.lane T.signed T.bits (rf (i.vs1 + 3)) (lanesOf T - index + e) := by
    intro rf e h
    unfold Spec.catElem
    have e1 : 4 * lanesOf T + (0 * lanesOf T + e) - index = 3 * lanesOf T + (lanesOf T - index + e) := by omega
    rw [← lanesOf_eq, if_pos (by omega), e1, groupElem_split T rf _ _ _ (by omega)]
  have hg : ∀ rf : VRF, ∀ op < 4, ∀ r, ∀ e < lanesOf T,
      slidepArg1 T (i.operands (.slidep true index T)) true index rf op e r = .ok ⟨T,
        Spec.catElem T.signed T.bits rf 4 i.vs1 i.op2 (4 * lanesOf T + (op * lanesOf T + e) - index)⟩ := by
    intro rf op hop r e he
    unfold slidepArg1
    split
    · rename_i hlt
      simp only [if_true]
      cases op with
      | zero =>
        have e1 : [(3, 0), (0, 1), (1, 1), (2, 1)].getD 0 (0, 0) = (3, 0) := rfl
        simp only [e1, s0]
        rw [hc3 rf e hlt]
        exact readElt_vec T rf _ _ 3 (lanesOf T - index + e) _ (by omega) (by omega) (by omega)
      | succ op =>
        have e1 : [(3, 0), (0, 1), (1, 1), (2, 1)].getD (op + 1) (0, 0) = (op, 1) := by
          have : op = 0 ∨ op = 1 ∨ op = 2 := by omega
          rcases this with rfl | rfl | rfl <;> rfl
        simp only [e1, s1]
        rw [hc2 rf op (by omega) e hlt]
        exact readElt_vec T rf _ _ op (lanesOf T - index + e) _ (by omega) (by omega) (by omega)
    · rename_i hlt
      have e1 : [(0, 1), (1, 1), (2, 1), (3, 1)].getD op (0, 0) = (op, 1) := by
        rcases op_cases (le_refl 4) hop with rfl | rfl | rfl | rfl <;> rfl
      simp only [e1, s1]
      rw [hc1 rf op hop e he hlt]
      exact readElt_vec T rf _ _ op (e - index) _ (by omega) (by omega) hop
  obtain ⟨rf', h1, h2', h3⟩ := perm_run T (i.operands (.slidep true index T)) 4 1
    (slidepArg1 T (i.operands (.slidep true index T)) true index)
    (commonArg2 T T (i.operands (.slidep true index T)) false) rf
    (fun op _ e => Spec.catElem T.signed T.bits rf 4 i.vs1 i.op2 (4 * lanesOf T + (op * lanesOf T + e) - index))
    (by simp [VInst.operands, VOp.dstFactor, hn])
    (by
      intro op hop rf1 hrf r hr e he
      rw [hg rf1 op hop r e he]
      have u1 : ∀ k, (k = op ∨ k + 1 = op) → Untouched i.vd 4 1 op (vs2 + k) := by
        intro k hk o ho r hr
        have : r = 0 := by omega
        subst this
        simp only [dreg]
        omega
      congr 2
      by_cases hlt : e < index
      · cases op with
        | zero =>
          rw [hc3 _ e hlt, hc3 _ e hlt, hrf]
          intro o ho; omega
        | succ op =>
          rw [hc2 _ op (by omega) e hlt, hc2 _ op (by omega) e hlt, hrf _ (u1 op (Or.inr rfl))]
      · rw [hc1 _ op hop e he hlt, hc1 _ op hop e he hlt, hrf _ (u1 op (Or.inl rfl))])
    (by
      intro op hop rf1 r hr e he
      exact common2_some T _ _ _ s3 rf1 op e r hop he hr)
    (by intros; exact catElem_inRange T _ _ _ _ _)
  refine ⟨rf', ?_, ?_, fun q hq => h3 q (untouched_frame (by omega) hq)⟩
  · simp only [VOp.run, VOp.exec, hk, Bool.or_true]; exact h1
  · rw [← lanesOf_eq]
    apply flat_of_lanes T i.vd 4 rf' (fun j => Spec.catElem T.signed T.bits rf 4 i.vs1 i.op2 (4 * lanesOf T + j - index))
    intro op hop e he
    have := h2' op hop 0 (by omega) e he
    simpa [dreg, VInst.operands] using this

/-- `vmvp`. -/
theorem mvp_run (T : CTy) (hb : T.bits ≤ 32) (i : VInst) (rf : VRF)
    (a1 : ∀ r < 2, Spec.NoOverlap (i.vd + r * i.n) i.vs1 i.n)
    (a2 : ∀ r < 2, i.op2.NoOverlap (i.vd + r * i.n) i.n) :
    ∃ rf', (VOp.mvp T).run i rf = .ok rf' ∧
      (∀ k < i.n, ∀ e < Spec.lanes T.bits,
        Spec.lane T.signed T.bits (rf' (i.vd + k)) e = Spec.lane T.signed T.bits (rf (i.vs1 + k)) e ∧
        Spec.lane T.signed T.bits (rf' (i.vd + i.n + k)) e = i.op2.elem T.signed T.bits rf k e) ∧
      Spec.Frame i.vd (i.n * 2) rf rf' := by
  have hk : regsPerOpOf false true T T = 2 := by simp [regsPerOpOf]
  have hu : ∀ vs op, op < i.n → (∀ r < 2, Spec.NoOverlap (i.vd + r * i.n) vs i.n) → Untouched i.vd i.n 2 op (vs + op) := by
    intro vs op hop h o ho r hr
    have := h r hr
    unfold Spec.NoOverlap at this
    simp only [dreg]
    omega
  have hg : ∀ rf : VRF, ∀ op < i.n, ∀ r, ∀ e < lanesOf T,
      mvpArg T (i.operands (.mvp T)) i.scalar i.n rf op e r = .ok ⟨T,
        if r = 0 then Spec.lane T.signed T.bits (rf (i.vs1 + op)) e else i.op2.elem T.signed T.bits rf op e⟩ := by
    intro rf op hop r e he
    unfold mvpArg
    split
    · exact commonArg1_eq T T rfl _ i.vs1 (i.n * 1) _ rfl rf op e he (by omega)
    · exact commonArg2_eq T T rfl hb i _ rf op e he hop
  obtain ⟨rf', h1, h2, h3⟩ := perm_run T (i.operands (.mvp T)) i.n 2
    (mvpArg T (i.operands (.mvp T)) i.scalar i.n) (mvpArg T (i.operands (.mvp T)) i.scalar i.n) rf
    (fun op r e => if r = 0 then Spec.lane T.signed T.bits (rf (i.vs1 + op)) e else i.op2.elem T.signed T.bits rf op e)
    (by simp [VInst.operands, VOp.dstFactor]; omega)
    (by
      intro op hop rf1 hrf r hr e he
      rw [hg rf1 op hop r e he, hrf _ (hu _ op hop a1), elem_congr _ _ _ _ _ _ _ _ _ _ hrf]
      intro b hb'
      apply hu b op hop
      intro r hr
      have := a2 r hr
      rw [hb'] at this
      exact this)
    (by
      intro op hop rf1 r hr e he
      exact ⟨_, hg rf1 op hop r e he⟩)
    (by intro op _ r _ e _; split; exact lane_inRange T _ _; exact elem_inRange T _ _ _ _)
  refine ⟨rf', ?_, ?_, fun q hq => h3 q (untouched_frame2 (numOps_pos _) hq)⟩
  · simp only [VOp.run, VOp.exec, hk]; exact h1
  · rw [← lanesOf_eq]
    intro k hk' e he
    constructor
    · have := h2 k hk' 0 (by omega) e he
      simpa [dreg, VInst.operands] using this
    · have := h2 k hk' 1 (by omega) e he
      have e1 : i.vd + i.n + k = i.vd + (k + 1 * i.n) := by omega
      rw [e1]
      simpa [dreg, VInst.operands] using this

end Verif.Proofs
