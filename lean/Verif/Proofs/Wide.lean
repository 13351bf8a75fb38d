import Verif.Proofs.Perm2
import Verif.Proofs.ElemMul
import Verif.Proofs.ElemShift2

/-! # Widening, packed and narrowing instructions -/

namespace Verif.Proofs
open Verif Verif.Model CVal

/-- Instructions whose getters are known and whose element function is functional. -/
theorem gen_run (Td T1 T2 : CTy) (o : Operands) (N k : Nat) (g1 g2 : Getter)
    (f : CVal → CVal → Outcome CVal) (rf : VRF) (A B G : Nat → Nat → Nat → Int)
    (hlen : N + (k - 1) * N ≤ o.vdLen)
    (h1 : ∀ op < N, ∀ rf', (∀ q, Untouched o.vd N k op q → rf' q = rf q) → ∀ r < k, ∀ e < lanesOf Td,
      g1 rf' op e r = .ok ⟨T1, A op r e⟩)
    (h2 : ∀ op < N, ∀ rf', (∀ q, Untouched o.vd N k op q → rf' q = rf q) → ∀ r < k, ∀ e < lanesOf Td,
      g2 rf' op e r = .ok ⟨T2, B op r e⟩)
    (hel : ∀ op < N, ∀ r < k, ∀ e < lanesOf Td,
      f ⟨T1, A op r e⟩ ⟨T2, B op r e⟩ = .ok ⟨Td, G op r e⟩ ∧ Td.InRange (G op r e)) :
    ∃ rf', binOp Td o N k g1 g2 (noDest f) rf = .ok rf' ∧
      (∀ op < N, ∀ r < k, ∀ e < lanesOf Td,
        Spec.lane Td.signed Td.bits (rf' (dreg o.vd N op r)) e = G op r e) ∧
      (∀ q, Untouched o.vd N k N q → rf' q = rf q) := by
  apply binOp_ok Td o N k g1 g2 (noDest f) rf (fun op r e c => c = G op r e) hlen
  intro op hop rf1 hrf r hr e he
  obtain ⟨hc, hin⟩ := hel op hop r hr e he
  refine ⟨_, ?_, hin, rfl⟩
  unfold laneF
  rw [h1 op hop rf1 hrf r hr e he, Outcome.ok_bind, h2 op hop rf1 hrf r hr e he, Outcome.ok_bind, noDest, hc]

theorem untouched_pair {vd vs n op : Nat} (hop : op < n)
    (h : ∀ r < 2, Spec.NoOverlap (vd + r * n) vs n) : Untouched vd n 2 op (vs + op) := by
  intro o ho r hr
  have := h r hr
  unfold Spec.NoOverlap at this
  simp only [dreg]
  omega

theorem wide_size (T : CTy) (hb : T.bits ≤ 16) : T.wide.size = 2 * T.size ∧ lanesOf T = 2 * lanesOf T.wide ∧
    T.wide.bits = 2 * T.bits ∧ T.wide.signed = T.signed := by
  cases T <;> first | (exfalso; revert hb; decide) | decide

theorem wideArg1_eq (T : CTy) (hb : T.bits ≤ 16) (o : Operands) (b len N : Nat)
    (h0 : o.src0 = .vec b len) (rf : VRF) (op e r : Nat) (he : e < lanesOf T.wide) (hr : r < 2) (hop : op < len) :
    commonArg1 T.wide T T o N rf op e r = .ok ⟨T, Spec.lane T.signed T.bits (rf (b + op)) (2 * e + r)⟩ := by
  have hp : 0 < T.size := by cases T <;> decide
  obtain ⟨hs, hl, -, -⟩ := wide_size T hb
  unfold commonArg1
  rw [h0]
  apply readElt_vec T rf b len op (2 * e + r) _ _ (by omega) hop
  have hc : ¬ (T.wide.size = T.size ∧ T.size = 2 * T.size) := by omega
  have : e * (2 * T.size) = (2 * e) * T.size := by ring
  rw [if_neg hc, hs, this, Nat.mul_div_cancel _ hp]; omega

theorem wideArg2_eq (T : CTy) (hb : T.bits ≤ 16) (i : VInst) (v : VOp) (rf : VRF) (op e r : Nat)
    (he : e < lanesOf T.wide) (hr : r < 2) (hop : op < i.n) :
    commonArg2 T.wide T (i.operands v) i.scalar rf op e r =
      .ok ⟨T, i.op2.elem T.signed T.bits rf op (2 * e + r)⟩ := by
  have hp : 0 < T.size := by cases T <;> decide
  obtain ⟨hs, hl, -, -⟩ := wide_size T hb
  unfold commonArg2 VInst.operands VInst.scalar
  cases i.op2 with
  | vreg b =>
    simp only [Bool.false_eq_true, if_false, Spec.Operand.elem]
    apply readElt_vec T rf b i.n op (2 * e + r) _ _ (by omega) hop
    have : e * (2 * T.size) = (2 * e) * T.size := by ring
    rw [hs, this, Nat.mul_div_cancel _ hp]; omega
  | scalar x =>
    simp only [if_true, Spec.Operand.elem]
    exact readElt_scalar T (by omega) rf x

theorem regs_wide (T : CTy) (hb : T.bits ≤ 16) : regsPerOpOf false false T.wide T = 2 := by
  cases T <;> first | (exfalso; revert hb; decide) | decide

/-- Widening instructions: source lane `m` goes to lane `m / 2` of destination group `m % 2`. -/
theorem wid_run (k : WidK) (T : CTy) (hb : T.bits ≤ 16) (i : VInst) (rf : VRF) (g : Int → Int → Int)
    (hel : ∀ a b, T.InRange a → T.InRange b →
      k.fn T.wide ⟨T, a⟩ ⟨T, b⟩ = .ok ⟨T.wide, g a b⟩ ∧ T.wide.InRange (g a b))
    (a1 : ∀ r < 2, Spec.NoOverlap (i.vd + r * i.n) i.vs1 i.n)
    (a2 : ∀ r < 2, i.op2.NoOverlap (i.vd + r * i.n) i.n) :
    ∃ rf', (VOp.wid k T.wide T).run i rf = .ok rf' ∧
      (∀ j < i.n, ∀ m < Spec.lanes T.bits,
        Spec.lane T.signed (2 * T.bits) (rf' (i.vd + (m % 2) * i.n + j)) (m / 2) =
          g (Spec.lane T.signed T.bits (rf (i.vs1 + j)) m) (i.op2.elem T.signed T.bits rf j m)) ∧
      Spec.Frame i.vd (i.n * 2) rf rf' := by
  obtain ⟨hs, hl, hw, hsg⟩ := wide_size T hb
  obtain ⟨rf', h1, h2, h3⟩ := gen_run T.wide T T (i.operands (.wid k T.wide T)) i.n 2
    (commonArg1 T.wide T T (i.operands (.wid k T.wide T)) i.n)
    (commonArg2 T.wide T (i.operands (.wid k T.wide T)) i.scalar) (k.fn T.wide) rf
    (fun op r e => Spec.lane T.signed T.bits (rf (i.vs1 + op)) (2 * e + r))
    (fun op r e => i.op2.elem T.signed T.bits rf op (2 * e + r))
    (fun op r e => g (Spec.lane T.signed T.bits (rf (i.vs1 + op)) (2 * e + r))
      (i.op2.elem T.signed T.bits rf op (2 * e + r)))
    (by simp [VInst.operands, VOp.dstFactor]; omega)
    (by
      intro op hop rf1 hrf r hr e he
      rw [wideArg1_eq T hb _ i.vs1 (i.n * 1) _ rfl rf1 op e r he hr (by omega), hrf _ (untouched_pair hop a1)])
    (by
      intro op hop rf1 hrf r hr e he
      rw [wideArg2_eq T hb i _ rf1 op e r he hr hop, elem_congr _ _ _ _ _ _ _ _ _ _ hrf]
      intro b hb'
      apply untouched_pair hop
      intro r hr
      have := a2 r hr
      rw [hb'] at this
      exact this)
    (by
      intro op _ r _ e _
      exact hel _ _ (lane_inRange T _ _) (elem_inRange T _ _ _ _))
  refine ⟨rf', ?_, ?_, fun q hq => h3 q (untouched_frame2 (numOps_pos _) hq)⟩
  · simp only [VOp.run, VOp.exec, regs_wide T hb]; exact h1
  · rw [← lanesOf_eq]
    intro j hj m hm
    have := h2 j hj (m % 2) (Nat.mod_lt _ (by omega)) (m / 2) (by omega)
    have e1 : 2 * (m / 2) + m % 2 = m := Nat.div_add_mod m 2
    rw [e1, hw, hsg] at this
    have e2 : i.vd + m % 2 * i.n + j = dreg (i.operands (.wid k T.wide T)).vd i.n j (m % 2) := by
      simp only [dreg, VInst.operands]; omega
    rw [e2]; exact this

/-- `vacc`: the first source is a wide register-group pair. -/
theorem acc_run (T : CTy) (hb : T.bits ≤ 16) (i : VInst) (rf : VRF)
    (a1 : ∀ r < 2, ∀ s < 2, Spec.NoOverlap (i.vd + r * i.n) (i.vs1 + s * i.n) i.n)
    (a2 : ∀ r < 2, i.op2.NoOverlap (i.vd + r * i.n) i.n) :
    ∃ rf', (VOp.acc T.wide T).run i rf = .ok rf' ∧
      (∀ j < i.n, ∀ m < Spec.lanes T.bits,
        Spec.lane T.signed (2 * T.bits) (rf' (i.vd + (m % 2) * i.n + j)) (m / 2) =
          Spec.wrap T.signed (2 * T.bits)
            (Spec.lane T.signed (2 * T.bits) (rf (i.vs1 + (m % 2) * i.n + j)) (m / 2) +
              i.op2.elem T.signed T.bits rf j m)) ∧
      Spec.Frame i.vd (i.n * 2) rf rf' := by
  obtain ⟨hs, hl, hw, hsg⟩ := wide_size T hb
  have hp : 0 < T.size := by cases T <;> decide
  have hg : ∀ rf : VRF, ∀ op < i.n, ∀ r < 2, ∀ e < lanesOf T.wide,
      commonArg1 T.wide T.wide T (i.operands (.acc T.wide T)) i.n rf op e r =
        .ok ⟨T.wide, Spec.lane T.wide.signed T.wide.bits (rf (i.vs1 + (op + r * i.n))) e⟩ := by
    intro rf op hop r hr e he
    unfold commonArg1
    refine readElt_vec T.wide rf i.vs1 (i.n * 2) (op + r * i.n) e _ ?_ he ?_
    · rw [if_pos ⟨rfl, hs⟩, Nat.mul_div_cancel _ (by omega)]; ring
    · have : r = 0 ∨ r = 1 := by omega
      rcases this with rfl | rfl <;> omega
  obtain ⟨rf', h1, h2, h3⟩ := gen_run T.wide T.wide T (i.operands (.acc T.wide T)) i.n 2
    (commonArg1 T.wide T.wide T (i.operands (.acc T.wide T)) i.n)
    (commonArg2 T.wide T (i.operands (.acc T.wide T)) i.scalar) (vAcc T.wide) rf
    (fun op r e => Spec.lane T.wide.signed T.wide.bits (rf (i.vs1 + (op + r * i.n))) e)
    (fun op r e => i.op2.elem T.signed T.bits rf op (2 * e + r))
    (fun op r e => Spec.wrap T.signed (2 * T.bits) (Spec.lane T.wide.signed T.wide.bits (rf (i.vs1 + (op + r * i.n))) e +
      (i.op2.elem T.signed T.bits rf op (2 * e + r))))
    (by simp [VInst.operands, VOp.dstFactor]; omega)
    (by
      intro op hop rf1 hrf r hr e he
      rw [hg rf1 op hop r hr e he, hrf]
      have := untouched_pair hop (fun r' hr' => a1 r' hr' r hr)
      rwa [Nat.add_assoc, Nat.add_comm (r * i.n)] at this)
    (by
      intro op hop rf1 hrf r hr e he
      rw [wideArg2_eq T hb i _ rf1 op e r he hr hop, elem_congr _ _ _ _ _ _ _ _ _ _ hrf]
      intro b hb'
      apply untouched_pair hop
      intro r hr
      have := a2 r hr
      rw [hb'] at this
      exact this)
    (by
      intro op _ r _ e _
      refine ⟨vAcc_ok T hb _ _ (lane_inRange T.wide _ _) (elem_inRange T _ _ _ _), ?_⟩
      rw [← hw, ← hsg, wrap_spec]
      exact wrap_inRange _ _)
  refine ⟨rf', ?_, ?_, fun q hq => h3 q (untouched_frame2 (numOps_pos _) hq)⟩
  · simp only [VOp.run, VOp.exec, regs_wide T hb]; exact h1
  · rw [← lanesOf_eq]
    intro j hj m hm
    have := h2 j hj (m % 2) (Nat.mod_lt _ (by omega)) (m / 2) (by omega)
    have e1 : 2 * (m / 2) + m % 2 = m := Nat.div_add_mod m 2
    rw [e1, hw, hsg] at this
    have e2 : i.vd + m % 2 * i.n + j = dreg (i.operands (.acc T.wide T)).vd i.n j (m % 2) := by
      simp only [dreg, VInst.operands]; omega
    have e3 : i.vs1 + m % 2 * i.n + j = i.vs1 + (j + m % 2 * i.n) := by omega
    rw [e2, e3]; exact this

/-- Packed-pair instructions: adjacent lanes of one source register. -/
theorem packed_run (k : WidK) (T : CTy) (hb : T.bits ≤ 16) (i : VInst) (rf : VRF) (g : Int → Int → Int)
    (hel : ∀ a b, T.InRange a → T.InRange b →
      k.fn T.wide ⟨T, a⟩ ⟨T, b⟩ = .ok ⟨T.wide, g a b⟩ ∧ T.wide.InRange (g a b))
    (a1 : Spec.NoOverlap i.vd i.vs1 i.n) :
    ∃ rf', (VOp.packed k T.wide T).run i rf = .ok rf' ∧
      (∀ j < i.n, ∀ e < Spec.lanes (2 * T.bits),
        Spec.lane T.signed (2 * T.bits) (rf' (i.vd + j)) e =
          g (Spec.lane T.signed T.bits (rf (i.vs1 + j)) (2 * e))
            (Spec.lane T.signed T.bits (rf (i.vs1 + j)) (2 * e + 1))) ∧
      Spec.Frame i.vd i.n rf rf' := by
  obtain ⟨hs, hl, hw, hsg⟩ := wide_size T hb
  have hp : 0 < T.size := by cases T <;> decide
  have hk : regsPerOpOf true false T.wide T = 1 := by simp [regsPerOpOf]
  have hidx : ∀ e, e * T.wide.size / T.size = 2 * e := by
    intro e
    have : e * (2 * T.size) = (2 * e) * T.size := by ring
    rw [hs, this, Nat.mul_div_cancel _ hp]
  obtain ⟨rf', h1, h2, h3⟩ := gen_run T.wide T T (i.operands (.packed k T.wide T)) i.n 1
    (packedArg1 T.wide T (i.operands (.packed k T.wide T)))
    (packedArg2 T.wide T (i.operands (.packed k T.wide T))) (k.fn T.wide) rf
    (fun op _ e => Spec.lane T.signed T.bits (rf (i.vs1 + op)) (2 * e))
    (fun op _ e => Spec.lane T.signed T.bits (rf (i.vs1 + op)) (2 * e + 1))
    (fun op _ e => g (Spec.lane T.signed T.bits (rf (i.vs1 + op)) (2 * e))
      (Spec.lane T.signed T.bits (rf (i.vs1 + op)) (2 * e + 1)))
    (by simp [VInst.operands, VOp.dstFactor])
    (by
      intro op hop rf1 hrf r hr e he
      rw [← hrf _ (untouched_of_noOverlap a1 hop)]
      unfold packedArg1
      exact readElt_vec T rf1 i.vs1 (i.n * 1) op (2 * e) _ (by rw [hidx]) (by omega) (by omega))
    (by
      intro op hop rf1 hrf r hr e he
      rw [← hrf _ (untouched_of_noOverlap a1 hop)]
      unfold packedArg2
      exact readElt_vec T rf1 i.vs1 (i.n * 1) op (2 * e + 1) _ (by rw [hidx]; omega) (by omega) (by omega))
    (by
      intro op _ r _ e _
      exact hel _ _ (lane_inRange T _ _) (lane_inRange T _ _))
  refine ⟨rf', ?_, ?_, fun q hq => h3 q (untouched_frame (numOps_pos _) hq)⟩
  · simp only [VOp.run, VOp.exec, hk]; exact h1
  · rw [← hw, ← lanesOf_eq]
    intro j hj e he
    have := h2 j hj 0 (by omega) e he
    rw [hw, hsg] at this
    rw [hw]
    simpa [dreg, VInst.operands] using this

/-- Narrowing shifts. -/
theorem srans_run (round : Bool) (Td Ts : CTy) (f : Nat) (hsg : Td.signed = Ts.signed) (hd : Td.bits ≤ 16)
    (hf : (f = 2 ∨ f = 4) ∧ Ts.bits = f * Td.bits) (hTs : Ts.bits ≤ 32) (i : VInst) (rf : VRF)
    (a1 : ∀ c < f, Spec.NoOverlap i.vd (i.vs1 + c * i.n) i.n) (a2 : i.op2.NoOverlap i.vd i.n) :
    ∃ rf', (VOp.srans round Td Ts).run i rf = .ok rf' ∧
      (∀ j < i.n, ∀ e < Spec.lanes Td.bits,
        Spec.lane Td.signed Td.bits (rf' (i.vd + j)) e =
          Spec.sat Td.signed Td.bits (Spec.shiftRight round ((i.op2.elem Td.signed Td.bits rf j e) % Ts.bits).toNat
            (Spec.lane Ts.signed Ts.bits (rf (i.vs1 + Spec.narrowGroup f e * i.n + j)) (e / f)))) ∧
      Spec.Frame i.vd i.n rf rf' := by
  obtain ⟨hf, hbits⟩ := hf
  have hp : 0 < Td.size := by cases Td <;> decide
  have hp' : 0 < Ts.size := by cases Ts <;> decide
  have hsz : Ts.size = f * Td.size := by
    have h8 : ∀ T : CTy, T.bits = 8 * T.size := by intro T; cases T <;> rfl
    have h1 := h8 Ts; have h2 := h8 Td
    rcases hf with rfl | rfl <;> omega
  have hlan : lanesOf Td = f * lanesOf Ts := by
    clear a1 a2
    rcases hf with rfl | rfl <;> cases Td <;> cases Ts <;>
      first | decide | (exfalso; revert hbits; decide)
  have hk : regsPerOpOf false false Td Td = 1 := by simp [regsPerOpOf]
  have hfac : (VOp.srans round Td Ts).src1Factor = f := by
    rcases hf with rfl | rfl
    · simp [VOp.src1Factor, hsz]; omega
    · simp [VOp.src1Factor, hsz]
  have hgl : ∀ e, Spec.narrowGroup f e < f := by
    intro e
    unfold Spec.narrowGroup
    rcases hf with rfl | rfl
    · simp; omega
    · have : e % 4 = 0 ∨ e % 4 = 1 ∨ e % 4 = 2 ∨ e % 4 = 3 := by omega
      rcases this with h | h | h | h <;> simp [h]
  have hg : ∀ rf : VRF, ∀ op < i.n, ∀ r, ∀ e < lanesOf Td,
      sransArg1 Td Ts (i.operands (.srans round Td Ts)) i.n rf op e r =
        .ok ⟨Ts, Spec.lane Ts.signed Ts.bits (rf (i.vs1 + (Spec.narrowGroup f e * i.n + op))) (e / f)⟩ := by
    intro rf op hop r e he
    unfold sransArg1
    have hsrc : (i.operands (.srans round Td Ts)).src0 = .vec i.vs1 (i.n * f) := by
      simp [VInst.operands, hfac]
    rw [hsrc]
    refine readElt_vec Ts rf i.vs1 (i.n * f) (Spec.narrowGroup f e * i.n + op) (e / f) _ ?_ ?_ ?_
    · have e1 : e * Td.size / Ts.size = e / f := by
        rw [hsz, Nat.mul_div_mul_right _ _ hp]
      have e2 : Ts.size / Td.size = f := by rw [hsz, Nat.mul_div_cancel _ hp]
      rw [e1, e2]
      unfold Spec.narrowGroup
      rcases hf with rfl | rfl
      · simp only [if_true]
        split
        · rename_i h; rw [h]; ring
        · have : e % 2 = 0 := by omega
          rw [this]; ring
      · rw [if_neg (by decide), if_neg (by decide)]; ring
    · rw [hlan] at he
      exact Nat.div_lt_of_lt_mul he
    · have := hgl e
      have h2 : (Spec.narrowGroup f e + 1) * i.n ≤ f * i.n := Nat.mul_le_mul_right _ this
      rw [Nat.mul_comm i.n f]; rw [Nat.add_mul] at h2; omega
  obtain ⟨rf', h1, h2, h3⟩ := gen_run Td Ts Td (i.operands (.srans round Td Ts)) i.n 1
    (sransArg1 Td Ts (i.operands (.srans round Td Ts)) i.n)
    (commonArg2 Td Td (i.operands (.srans round Td Ts)) i.scalar) (vSrans round Td Ts) rf
    (fun op _ e => Spec.lane Ts.signed Ts.bits (rf (i.vs1 + (Spec.narrowGroup f e * i.n + op))) (e / f))
    (fun op _ e => i.op2.elem Td.signed Td.bits rf op e)
    (fun op _ e => Spec.sat Td.signed Td.bits (Spec.shiftRight round ((i.op2.elem Td.signed Td.bits rf op e) % Ts.bits).toNat
            (Spec.lane Ts.signed Ts.bits (rf (i.vs1 + (Spec.narrowGroup f e * i.n + op))) (e / f))))
    (by simp [VInst.operands, VOp.dstFactor])
    (by
      intro op hop rf1 hrf r hr e he
      rw [hg rf1 op hop r e he, hrf]
      have := untouched_of_noOverlap (a1 _ (hgl e)) hop
      rwa [Nat.add_assoc] at this)
    (by
      intro op hop rf1 hrf r hr e he
      have : r = 0 := by omega
      subst this
      rw [commonArg2_eq _ Td rfl (by omega) i _ rf1 op e he hop, elem_congr _ _ _ _ _ _ _ _ _ _ hrf]
      intro b hb'
      rw [hb'] at a2
      exact untouched_of_noOverlap a2 hop)
    (by
      intro op _ r _ e _
      refine ⟨vSrans_ok round Td Ts hsg hd (by rcases hf with rfl | rfl <;> simp [hbits]) hTs _ _ (lane_inRange Ts _ _), ?_⟩
      exact sat_inRange Td _)
  refine ⟨rf', ?_, ?_, fun q hq => h3 q (untouched_frame (numOps_pos _) hq)⟩
  · simp only [VOp.run, VOp.exec, hk]; exact h1
  · rw [← lanesOf_eq]
    intro j hj e he
    have := h2 j hj 0 (by omega) e he
    have e3 : i.vs1 + Spec.narrowGroup f e * i.n + j = i.vs1 + (Spec.narrowGroup f e * i.n + j) := by omega
    rw [e3]
    simpa [dreg, VInst.operands] using this

end Verif.Proofs
