import Verif.Proofs.DecodeTotal

/-! # When an instruction is undefined, exactly -/

namespace Verif.Proofs
open Verif Verif.Model CVal

/-! ## Nothing aborts -/

theorem bind_noAbort {α β : Type} {x : Outcome α} {f : α → Outcome β} (hx : x ≠ .abort) (hf : ∀ a, x = .ok a → f a ≠ .abort) :
    (x >>= f) ≠ .abort := by
  cases x with
  | ok a => exact hf a rfl
  | ub => exact fun h => nomatch h
  | abort => exact absurd rfl hx

theorem mapM_noAbort {α β : Type} (f : α → Outcome β) : ∀ l : List α, (∀ a ∈ l, f a ≠ .abort) → l.mapM f ≠ .abort
  | [], _ => fun h => nomatch h
  | a :: l, h => by
    rw [List.mapM_cons]
    exact bind_noAbort (h a (by simp)) fun b _ =>
      bind_noAbort (mapM_noAbort f l fun x hx => h x (by simp [hx])) fun bs _ => fun h => nomatch h

theorem foldlM_noAbort {α β : Type} (f : β → α → Outcome β) :
    ∀ (l : List α) (b : β), (∀ b, ∀ a ∈ l, f b a ≠ .abort) → l.foldlM f b ≠ .abort
  | [], _, _ => fun h => nomatch h
  | a :: l, b, h => by
    rw [List.foldlM_cons]
    exact bind_noAbort (h b a (by simp)) fun b' _ => foldlM_noAbort f l b' fun b x hx => h b x (by simp [hx])

theorem arith_noAbort (T : CTy) (v : Int) : arith T v ≠ .abort := by
  unfold arith
  repeat' split
  all_goals exact fun h => nomatch h

theorem add_noAbort (a b : CVal) : add a b ≠ .abort := arith_noAbort _ _
theorem mul_noAbort (a b : CVal) : mul a b ≠ .abort := arith_noAbort _ _

/-! ## Lane instructions -/

theorem binOp_noAbort (Td : CTy) (o : Operands) (N k : Nat) (g1 g2 : Getter) (f : CVal → CVal → CVal → Outcome CVal)
    (h : ∀ rf, ∀ op < N, ∀ r < k, ∀ e < lanesOf Td, laneF Td o.vd N g1 g2 f rf op e r ≠ .abort) (rf : VRF) :
    binOp Td o N k g1 g2 f rf ≠ .abort := by
  refine foldlM_noAbort _ _ _ (fun rf1 op hop => ?_)
  unfold opStep
  split
  · refine bind_noAbort (mapM_noAbort _ _ (fun r hr => ?_)) fun _ _ => fun h => nomatch h
    show ((List.range (lanesOf Td)).mapM (fun e => laneF Td o.vd N g1 g2 f rf1 op e r) >>= fun l => .ok (packReg Td l)) ≠ _
    exact bind_noAbort (mapM_noAbort _ _ (fun e he => h rf1 op (List.mem_range.1 hop) r (List.mem_range.1 hr) e (List.mem_range.1 he)))
      fun _ _ => fun h => nomatch h
  · exact fun h => nomatch h

/-- If the instruction completes, every lane was computed, from registers that earlier iterations have not written. -/
theorem binOp_inv (Td : CTy) (o : Operands) (N k : Nat) (g1 g2 : Getter) (f : CVal → CVal → CVal → Outcome CVal) (rf rf' : VRF)
    (h : binOp Td o N k g1 g2 f rf = .ok rf') :
    ∀ op < N, ∃ rf1 : VRF, (∀ q, Untouched o.vd N k op q → rf1 q = rf q) ∧
      ∀ r < k, ∀ e < lanesOf Td, ∃ c, laneF Td o.vd N g1 g2 f rf1 op e r = .ok c := by
  suffices H : ∀ n ≤ N, ∀ rf', (List.range n).foldlM (opStep Td o N k g1 g2 f) rf = .ok rf' →
      (∀ q, Untouched o.vd N k n q → rf' q = rf q) ∧
      ∀ op < n, ∃ rf1 : VRF, (∀ q, Untouched o.vd N k op q → rf1 q = rf q) ∧
        ∀ r < k, ∀ e < lanesOf Td, ∃ c, laneF Td o.vd N g1 g2 f rf1 op e r = .ok c from (H N le_rfl rf' h).2
  intro n
  induction n with
  | zero => intro _ rf' h; cases h; exact ⟨fun _ _ => rfl, fun op h => by omega⟩
  | succ n ih =>
    intro hn rf' h
    rw [List.range_succ, List.foldlM_append] at h
    obtain ⟨rf1, h1, h⟩ := bind_ok_inv h
    obtain ⟨u1, i1⟩ := ih (by omega) rf1 h1
    rw [List.foldlM_cons] at h
    obtain ⟨rf2, h2, h⟩ := bind_ok_inv h
    cases h
    unfold opStep at h2
    split at h2
    · obtain ⟨bs, hb, h2⟩ := bind_ok_inv h2
      cases h2
      obtain ⟨l1, l2⟩ := Outcome.mapM_eq_ok _ _ _ hb
      rw [List.length_range] at l1
      obtain ⟨-, s2⟩ := submitAll_get N (by omega) bs rf1 (o.vd + n)
      refine ⟨fun q hq => ?_, fun op hop => ?_⟩
      · rw [s2]
        · exact u1 q (fun o' ho' r hr => hq o' (by omega) r hr)
        · intro i hi heq
          apply hq n (by omega) i (by omega)
          simp only [dreg]; omega
      · by_cases e0 : op < n
        · exact i1 op e0
        · have : op = n := by omega
          subst this
          refine ⟨rf1, u1, fun r hr e he => ?_⟩
          have hr' := l2 r (by simpa using hr) (by omega)
          rw [List.getElem_range] at hr'
          obtain ⟨l, hl, -⟩ := bind_ok_inv (show
            ((List.range (lanesOf Td)).mapM (fun e => laneF Td o.vd N g1 g2 f rf1 op e r) >>= fun l => .ok (packReg Td l)) = _ from hr')
          obtain ⟨m1, m2⟩ := Outcome.mapM_eq_ok _ _ _ hl
          rw [List.length_range] at m1
          have := m2 e (by simpa using he) (by omega)
          rw [List.getElem_range] at this
          exact ⟨_, this⟩
    · cases h2

/-- A 32-bit shift by a signed amount completes exactly when no non-zero lane is shifted by the smallest amount. -/
theorem shift_exact (round : Bool) (T : CTy) (hb : T.bits = 32) (i : VInst) (rf : VRF)
    (a1 : Spec.NoOverlap i.vd i.vs1 i.n) (a2 : i.op2.NoOverlap i.vd i.n) (k e : Nat) (hk : k < i.n) (he : e < Spec.lanes T.bits)
    (h0 : Spec.lane T.signed T.bits (rf (i.vs1 + k)) e ≠ 0)
    (hm : Spec.wrap true T.bits (i.op2.elem T.signed T.bits rf k e) = -2147483648) :
    (VOp.bin (.shift round) T).run i rf = .ub := by
  have hreg : regsPerOpOf false false T T = 1 := by simp [regsPerOpOf]
  have hlane : ∀ rf1, ∀ op < i.n, ∀ e < lanesOf T, ∀ r < 1,
      laneF T (i.operands (.bin (.shift round) T)).vd i.n (commonArg1 T T T (i.operands (.bin (.shift round) T)) i.n)
        (commonArg2 T T (i.operands (.bin (.shift round) T)) i.scalar) (noDest (vShift round T)) rf1 op e r =
      vShift round T ⟨T, Spec.lane T.signed T.bits (rf1 (i.vs1 + op)) e⟩ ⟨T, i.op2.elem T.signed T.bits rf1 op e⟩ := by
    intro rf1 op hop e he r hr
    have : r = 0 := by omega
    subst this
    unfold laneF
    rw [commonArg1_eq T T rfl _ i.vs1 (i.n * 1) _ rfl rf1 op e he (by omega), Outcome.ok_bind,
      commonArg2_eq T T rfl (by omega) i _ rf1 op e he hop, Outcome.ok_bind, noDest]
  have hna : (VOp.bin (.shift round) T).run i rf ≠ .abort := by
    simp only [VOp.run, VOp.exec, BinK.dstTy, hreg]
    refine binOp_noAbort T _ i.n 1 _ _ _ (fun rf1 op hop r hr e he => ?_) rf
    show laneF T _ i.n (commonArg1 T T T _ i.n) _ (noDest (vShift round T)) rf1 op e r ≠ _
    rw [hlane rf1 op hop e he r hr]
    by_cases hbad : Spec.lane T.signed T.bits (rf1 (i.vs1 + op)) e ≠ 0 ∧
        Spec.wrap true T.bits (i.op2.elem T.signed T.bits rf1 op e) = -2147483648
    · rw [vShift_ub round T hb _ _ (lane_inRange T _ _) hbad.1 hbad.2]; exact fun h => nomatch h
    · rw [vShift_ok round T (by omega) _ _ (lane_inRange T _ _) (elem_inRange T _ _ _ _) hbad]; exact fun h => nomatch h
  cases hrun : (VOp.bin (.shift round) T).run i rf with
  | ub => rfl
  | abort => exact absurd hrun hna
  | ok rf' =>
    exfalso
    simp only [VOp.run, VOp.exec, BinK.dstTy, hreg] at hrun
    obtain ⟨rf1, hu, hl⟩ := binOp_inv T _ i.n 1 _ _ _ rf rf' hrun k hk
    have he' : e < lanesOf T := by rw [lanesOf_eq]; exact he
    obtain ⟨c, hc⟩ := hl 0 (by omega) e he'
    have hc := (hlane rf1 k hk e he' 0 (by omega)).symm.trans hc
    rw [hu _ (untouched_of_noOverlap a1 hk), elem_congr _ _ _ _ _ _ _ _ _ _ hu] at hc
    · rw [vShift_ub round T hb _ _ (lane_inRange T _ _) h0 hm] at hc; cases hc
    · intro b hb'
      rw [hb'] at a2
      exact untouched_of_noOverlap a2 hk

/-! ## Depthwise convolutions -/

/-- The cell of a lane. -/
def dwAt (i : Nat) : Nat := 8 * interleave (i &&& 3) + i / 4

theorem dwAt_inj {i j : Nat} (hi : i < 32) (hj : j < 32) (h : dwAt i = dwAt j) : i = j := by
  have h1 := (dwCell_lane _ (dwCell_lt i hi) i hi).1 rfl
  have h2 := (dwCell_lane _ (dwCell_lt i hi) j hj).1 h
  omega

theorem dwBody_noAbort (cmd : DwCmd) (a : Nat → Option (BitVec 32)) (vs3 : Nat → VReg) (r : Nat) (acc : DwAcc) (i : Nat) :
    dwBody cmd a vs3 r acc i ≠ .abort := by
  unfold dwBody
  dsimp only
  split
  · refine bind_noAbort (add_noAbort _ _) fun _ _ => bind_noAbort (add_noAbort _ _) fun _ _ => bind_noAbort (mul_noAbort _ _) fun _ _ =>
      bind_noAbort (add_noAbort _ _) fun _ _ => fun h => nomatch h
  · exact fun h => nomatch h

/-- A lane step that completes had an initialised cell and a sum that fits. -/
theorem dwBody_inv (cmd : DwCmd) (sp : cmd.sparsity < 3) (h1 : -256 ≤ cmd.sbias1 ∧ cmd.sbias1 ≤ 255)
    (h2 : -256 ≤ cmd.sbias2 ∧ cmd.sbias2 ≤ 255) (v0 v1 v2 : VReg) (vs3 : Nat → VReg) (P : Nat → Nat → Int)
    (hP : ∀ i r, P i r = (Spec.wordByte (decide (cmd.sdata1 ≠ 0)) (Spec.dwWord cmd.sparsity v0 v1 v2 r (i / 4)) (i % 4) + cmd.sbias1) *
      Spec.biased (decide (cmd.sdata2 ≠ 0)) cmd.sbias2 (vs3 r) i)
    (r : Nat) (hr : r < 3) (i : Nat) (hi : i < 32) (acc acc' : DwAcc)
    (h : dwBody cmd (dwData cmd.sparsity v0 v1 v2) vs3 r acc i = .ok acc') :
    ∃ c, acc (dwAt i) = some c ∧ -2147483648 ≤ c.toInt + P i r ∧ c.toInt + P i r ≤ 2147483647 ∧
      acc' = fun q => if q = dwAt i then some (BitVec.ofInt 32 (c.toInt + P i r)) else acc q := by
  unfold dwBody at h
  have e1 := dwData_spec cmd.sparsity sp v0 v1 v2 r hr (i / 4) (by omega)
  cases e2 : acc (8 * interleave (i &&& 3) + i / 4) with
  | none => simp only [e1, e2] at h; cases h
  | some c =>
    refine ⟨c, e2, ?_⟩
    simp only [e1, e2] at h
    rw [extByte_word, extByte_eq] at h
    have l1 := value8_bounds (decide (cmd.sdata1 ≠ 0)) ((Spec.dwWord cmd.sparsity v0 v1 v2 r (i / 4)).extractLsb' (i % 4 * 8) 8)
    have l2 := lane8_bounds (decide (cmd.sdata2 ≠ 0)) (vs3 r) i
    have l1' : -128 ≤ Spec.wordByte (decide (cmd.sdata1 ≠ 0)) (Spec.dwWord cmd.sparsity v0 v1 v2 r (i / 4)) (i % 4) ∧
      Spec.wordByte (decide (cmd.sdata1 ≠ 0)) (Spec.dwWord cmd.sparsity v0 v1 v2 r (i / 4)) (i % 4) ≤ 255 := l1
    have hp := prod_bounds _ _ (⟨by omega, by omega⟩ : -384 ≤ Spec.wordByte (decide (cmd.sdata1 ≠ 0)) (Spec.dwWord cmd.sparsity v0 v1 v2 r (i / 4)) (i % 4) + cmd.sbias1 ∧ _)
      (⟨by omega, by omega⟩ : -384 ≤ Spec.lane (decide (cmd.sdata2 ≠ 0)) 8 (vs3 r) i + cmd.sbias2 ∧ _)
    rw [add_i32 _ _ (by omega) (by omega) (by omega) (by omega) (by omega) (by omega), Outcome.ok_bind,
      add_i32 _ _ (by omega) (by omega) (by omega) (by omega) (by omega) (by omega), Outcome.ok_bind,
      mul_i32 _ _ (by omega) (by omega) (by omega) (by omega) (by omega) (by omega), Outcome.ok_bind] at h
    have e4 : (Spec.wordByte (decide (cmd.sdata1 ≠ 0)) (Spec.dwWord cmd.sparsity v0 v1 v2 r (i / 4)) (i % 4) + cmd.sbias1) *
        (Spec.lane (decide (cmd.sdata2 ≠ 0)) 8 (vs3 r) i + cmd.sbias2) = P i r := (hP i r).symm
    rw [e4] at hp h
    have e3 : ofBits .i32 c = ⟨.i32, c.toInt⟩ := ofBits_value .i32 c
    have hc1 := BitVec.le_toInt c
    have hc2 := BitVec.toInt_lt (x := c)
    rw [e3] at h
    simp only [add, CTy.usual, CTy.promote] at h
    rw [wrap_i32_id c.toInt (by omega) (by omega), wrap_i32_id _ (by omega) (by omega)] at h
    by_cases hfit : -2147483648 ≤ c.toInt + P i r ∧ c.toInt + P i r ≤ 2147483647
    · rw [arith_i32 _ hfit.1 hfit.2, Outcome.ok_bind] at h
      cases h
      exact ⟨hfit.1, hfit.2, rfl⟩
    · exfalso
      have : arith .i32 (c.toInt + P i r) = .ub := by
        unfold arith
        rw [if_pos (by rfl)]; exact if_neg hfit
      rw [this] at h
      cases h

theorem dwRound_inv (cmd : DwCmd) (sp : cmd.sparsity < 3) (h1 : -256 ≤ cmd.sbias1 ∧ cmd.sbias1 ≤ 255)
    (h2 : -256 ≤ cmd.sbias2 ∧ cmd.sbias2 ≤ 255) (v0 v1 v2 : VReg) (vs3 : Nat → VReg) (P : Nat → Nat → Int)
    (hP : ∀ i r, P i r = (Spec.wordByte (decide (cmd.sdata1 ≠ 0)) (Spec.dwWord cmd.sparsity v0 v1 v2 r (i / 4)) (i % 4) + cmd.sbias1) *
      Spec.biased (decide (cmd.sdata2 ≠ 0)) cmd.sbias2 (vs3 r) i)
    (r : Nat) (hr : r < 3) (acc : DwAcc) (n : Nat) : n ≤ 32 → ∀ acc',
    (List.range n).foldlM (dwBody cmd (dwData cmd.sparsity v0 v1 v2) vs3 r) acc = .ok acc' →
    (∀ i < n, ∃ c, acc (dwAt i) = some c ∧ -2147483648 ≤ c.toInt + P i r ∧ c.toInt + P i r ≤ 2147483647 ∧
      acc' (dwAt i) = some (BitVec.ofInt 32 (c.toInt + P i r))) ∧
    ∀ q, (∀ i < n, q ≠ dwAt i) → acc' q = acc q := by
  induction n with
  | zero => intro _ acc' h; cases h; exact ⟨fun i h => by omega, fun _ _ => rfl⟩
  | succ n ih =>
    intro hn acc' h
    rw [List.range_succ, List.foldlM_append] at h
    obtain ⟨a1, g1, h⟩ := bind_ok_inv h
    rw [List.foldlM_cons] at h
    obtain ⟨a2, g2, h⟩ := bind_ok_inv h
    injection h with h
    subst h
    obtain ⟨i1, i2⟩ := ih (by omega) a1 g1
    obtain ⟨c, c1, c2, c3, rfl⟩ := dwBody_inv cmd sp h1 h2 v0 v1 v2 vs3 P hP r hr n (by omega) a1 a2 g2
    have hne : ∀ i < n, dwAt n ≠ dwAt i := fun i hi h => by
      have := dwAt_inj (by omega) (by omega) h
      omega
    rw [i2 _ hne] at c1
    refine ⟨fun i hi => ?_, fun q hq => ?_⟩
    · by_cases e : i = n
      · subst e; exact ⟨c, c1, c2, c3, by simp⟩
      · obtain ⟨c', d1, d2, d3, d4⟩ := i1 i (by omega)
        refine ⟨c', d1, d2, d3, ?_⟩
        show (if dwAt i = dwAt n then _ else a1 (dwAt i)) = _
        rw [if_neg (fun h => hne i (by omega) h.symm), d4]
    · show (if q = dwAt n then _ else a1 q) = _
      rw [if_neg (hq n (by omega)), i2 q fun i hi => hq i (by omega)]

theorem dwLoop_inv (cmd : DwCmd) (sp : cmd.sparsity < 3) (h1 : -256 ≤ cmd.sbias1 ∧ cmd.sbias1 ≤ 255)
    (h2 : -256 ≤ cmd.sbias2 ∧ cmd.sbias2 ≤ 255) (v0 v1 v2 : VReg) (vs3 : Nat → VReg) (P : Nat → Nat → Int)
    (hP : ∀ i r, P i r = (Spec.wordByte (decide (cmd.sdata1 ≠ 0)) (Spec.dwWord cmd.sparsity v0 v1 v2 r (i / 4)) (i % 4) + cmd.sbias1) *
      Spec.biased (decide (cmd.sdata2 ≠ 0)) cmd.sbias2 (vs3 r) i) (acc : DwAcc) (n : Nat) : n ≤ 3 → ∀ acc',
    (List.range n).foldlM (fun acc r => (List.range 32).foldlM (dwBody cmd (dwData cmd.sparsity v0 v1 v2) vs3 r) acc) acc = .ok acc' →
    ∀ i < 32, acc' (dwAt i) = (acc (dwAt i)).map (fun c => BitVec.ofInt 32 (c.toInt + Spec.sum n (P i))) ∧
      (0 < n → (acc (dwAt i)).isSome = true) ∧
      ∀ c, acc (dwAt i) = some c → ∀ m ≤ n, -2147483648 ≤ c.toInt + Spec.sum m (P i) ∧ c.toInt + Spec.sum m (P i) ≤ 2147483647 := by
  induction n with
  | zero =>
    intro _ acc' h i hi
    cases h
    refine ⟨?_, by omega, fun c hc m hm => ?_⟩
    · cases acc (dwAt i) <;> simp [Spec.sum]
    · have : m = 0 := by omega
      subst this
      have hc1 := BitVec.le_toInt c
      have hc2 := BitVec.toInt_lt (x := c)
      simp only [Spec.sum, List.range_zero, List.map_nil, List.sum_nil]
      omega
  | succ n ih =>
    intro hn acc' h i hi
    rw [List.range_succ (n := n), List.foldlM_append] at h
    obtain ⟨a1, g1, h⟩ := bind_ok_inv h
    rw [List.foldlM_cons] at h
    obtain ⟨a2, g2, h⟩ := bind_ok_inv h
    injection h with h
    subst h
    obtain ⟨j1, j2, j3⟩ := ih (by omega) a1 g1 i hi
    obtain ⟨i1, -⟩ := dwRound_inv cmd sp h1 h2 v0 v1 v2 vs3 P hP n (by omega) a1 32 le_rfl a2 g2
    obtain ⟨c, c1, c2, c3, c4⟩ := i1 i hi
    cases ha : acc (dwAt i) with
    | none => rw [ha, c1] at j1; cases j1
    | some d =>
      rw [ha, c1] at j1
      injection j1 with j1
      obtain ⟨f1, f2⟩ := j3 d ha n le_rfl
      have hv : c.toInt = d.toInt + Spec.sum n (P i) := by
        rw [j1, BitVec.toInt_ofInt, Int.bmod_eq_of_le] <;> omega
      rw [hv, Int.add_assoc, ← sum_succ] at c2 c3 c4
      refine ⟨by rw [c4]; rfl, fun _ => rfl, fun c' hc' m hm => ?_⟩
      injection hc' with hc'
      subst hc'
      by_cases e : m = n + 1
      · subst e; exact ⟨c2, c3⟩
      · exact j3 d ha m (by omega)

theorem vdwconv_noAbort (wr : Bool) (cmd : BitVec 32) (vs1 len1 vs3 len3 vd vdLen : Nat) (rf : VRF) (acc : DwAcc) :
    vdwconv wr cmd vs1 len1 vs3 len3 vd vdLen rf acc ≠ .abort := by
  unfold vdwconv
  dsimp only
  split
  · refine bind_noAbort (foldlM_noAbort _ _ _ fun _ _ _ => foldlM_noAbort _ _ _ fun _ _ _ => dwBody_noAbort _ _ _ _ _ _) fun acc' _ => ?_
    cases wr
    · exact fun h => nomatch h
    · simp only [if_true]
      refine bind_noAbort ?_ fun _ _ => fun h => nomatch h
      unfold dwWrite
      split
      · refine bind_noAbort (mapM_noAbort _ _ fun _ _ => bind_noAbort (mapM_noAbort _ _ fun _ _ => ?_) fun _ _ => fun h => nomatch h)
          fun _ _ => fun h => nomatch h
        split <;> exact fun h => nomatch h
      · exact fun h => nomatch h
  · exact fun h => nomatch h

end Verif.Proofs
