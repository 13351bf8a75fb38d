import Verif.Proofs.Lift

/-! # Instructions that move elements -/

namespace Verif.Proofs
open Verif Verif.Model CVal

theorem readElt_group (T : CTy) (rf : VRF) (b n i : Nat) (h : i < n * lanesOf T) :
    readElt T rf (.vec b n) i = .ok ⟨T, Spec.groupElem T.signed T.bits rf b i⟩ := by
  have hp := lanesOf_pos T
  have h1 : i / lanesOf T < n := (Nat.div_lt_iff_lt_mul hp).2 h
  have h2 : i % lanesOf T < lanesOf T := Nat.mod_lt _ hp
  rw [readElt_vec T rf b n (i / lanesOf T) (i % lanesOf T) i (by rw [Nat.mul_comm]; exact (Nat.div_add_mod _ _).symm) h2 h1,
    Spec.groupElem, lanesOf_eq]

theorem groupElem_inRange (T : CTy) (rf : VRF) (b i : Nat) : T.InRange (Spec.groupElem T.signed T.bits rf b i) :=
  lane_inRange T _ _

/-- An element mover: every getter call returns the element `src`, computed from registers that the
earlier iterations have not written. -/
theorem perm_run (T : CTy) (o : Operands) (N k : Nat) (g1 g2 : Getter) (rf : VRF) (src : Nat → Nat → Nat → Int)
    (hlen : N + (k - 1) * N ≤ o.vdLen)
    (h1 : ∀ op < N, ∀ rf', (∀ q, Untouched o.vd N k op q → rf' q = rf q) → ∀ r < k, ∀ e < lanesOf T,
      g1 rf' op e r = .ok ⟨T, src op r e⟩)
    (h2 : ∀ op < N, ∀ rf' : VRF, ∀ r < k, ∀ e < lanesOf T, ∃ c, g2 rf' op e r = .ok c)
    (hin : ∀ op < N, ∀ r < k, ∀ e < lanesOf T, T.InRange (src op r e)) :
    ∃ rf', binOp T o N k g1 g2 (noDest vFst) rf = .ok rf' ∧
      (∀ op < N, ∀ r < k, ∀ e < lanesOf T,
        Spec.lane T.signed T.bits (rf' (dreg o.vd N op r)) e = src op r e) ∧
      (∀ q, Untouched o.vd N k N q → rf' q = rf q) := by
  apply binOp_ok T o N k g1 g2 (noDest vFst) rf (fun op r e c => c = src op r e) hlen
  intro op hop rf1 hrf r hr e he
  refine ⟨_, ?_, hin op hop r hr e he, rfl⟩
  obtain ⟨c, hc⟩ := h2 op hop rf1 r hr e he
  unfold laneF
  rw [h1 op hop rf1 hrf r hr e he, Outcome.ok_bind, hc, Outcome.ok_bind]
  rfl

/-- From lanes of each register to elements of the group. -/
theorem flat_of_lanes (T : CTy) (vd N : Nat) (rf' : VRF) (F : Nat → Int)
    (h : ∀ op < N, ∀ e < lanesOf T,
      Spec.lane T.signed T.bits (rf' (vd + op)) e = F (op * lanesOf T + e)) :
    ∀ i < N * lanesOf T, Spec.groupElem T.signed T.bits rf' vd i = F i := by
  intro i hi
  have hp := lanesOf_pos T
  have h1 : i / lanesOf T < N := (Nat.div_lt_iff_lt_mul hp).2 hi
  have h2 : i % lanesOf T < lanesOf T := Nat.mod_lt _ hp
  have := h _ h1 _ h2
  rw [Nat.mul_comm, Nat.div_add_mod] at this
  rw [Spec.groupElem, ← lanesOf_eq, this]

theorem group_stable (T : CTy) (vd N k op : Nat) (rf rf' : VRF) (b i : Nat)
    (h : ∀ q, Untouched vd N k op q → rf' q = rf q) (hu : Untouched vd N k op (b + i / lanesOf T)) :
    Spec.groupElem T.signed T.bits rf' b i = Spec.groupElem T.signed T.bits rf b i := by
  rw [Spec.groupElem, Spec.groupElem, ← lanesOf_eq, h _ hu]

theorem apart_untouched {vd N k op b n q : Nat} (hop : op ≤ N) (h : Spec.Apart vd (N * k) b n) (h1 : b ≤ q)
    (h2 : q < b + n) : Untouched vd N k op q := by
  intro o ho r hr
  simp only [dreg]
  have hle : (r + 1) * N ≤ k * N := Nat.mul_le_mul_right _ hr
  rw [Nat.add_mul, Nat.mul_comm k N] at hle
  rcases h with h | h <;> omega

/-- Reading element `i` of the second operand. -/
theorem readElt_op2 (T : CTy) (hb : T.bits ≤ 32) (i : VInst) (v : VOp) (rf : VRF) (j : Nat) (h : j < i.n * lanesOf T) :
    readElt T rf (i.operands v).src1 (if i.scalar then 0 else j) =
      .ok ⟨T, i.op2.groupElem T.signed T.bits rf j⟩ := by
  unfold VInst.operands VInst.scalar
  cases i.op2 with
  | vreg b =>
    simp only [Bool.false_eq_true, if_false, Spec.Operand.groupElem]
    exact readElt_group T rf b i.n j h
  | scalar x =>
    simp only [if_true, Spec.Operand.groupElem]
    exact readElt_scalar T hb rf x

theorem op2_groupElem_inRange (T : CTy) (o : Spec.Operand) (rf : VRF) (j : Nat) :
    T.InRange (o.groupElem T.signed T.bits rf j) := by
  cases o with
  | vreg b => exact groupElem_inRange T _ _ _
  | scalar x => exact scalarElem_inRange T x

theorem catElem_inRange (T : CTy) (rf : VRF) (n vs1 : Nat) (o : Spec.Operand) (j : Nat) :
    T.InRange (Spec.catElem T.signed T.bits rf n vs1 o j) := by
  unfold Spec.catElem
  split
  · exact groupElem_inRange T _ _ _
  · exact op2_groupElem_inRange T _ _ _

theorem op2_stable (T : CTy) (vd N k op : Nat) (rf rf' : VRF) (o : Spec.Operand) (i : Nat)
    (h : ∀ q, Untouched vd N k op q → rf' q = rf q)
    (hu : ∀ b, o = .vreg b → Untouched vd N k op (b + i / lanesOf T)) :
    o.groupElem T.signed T.bits rf' i = o.groupElem T.signed T.bits rf i := by
  cases o with
  | vreg b => exact group_stable T vd N k op rf rf' b i h (hu b rfl)
  | scalar x => rfl

theorem lanesOf_even (T : CTy) : ∃ h, lanesOf T = 2 * h ∧ 0 < h := by
  cases T <;> first | exact ⟨16, rfl, by decide⟩ | exact ⟨8, rfl, by decide⟩ | exact ⟨4, rfl, by decide⟩ | exact ⟨2, rfl, by decide⟩

/-- The getter of `vevn`/`vodd`. -/
theorem evnOddArg_eq (T : CTy) (hb : T.bits ≤ 32) (i : VInst) (v : VOp) (hv : v.src1Factor = 1) (odd : Nat) (ho : odd < 2)
    (rf : VRF) (op e r : Nat) (hop : op < i.n) (he : e < lanesOf T) :
    evnOddArg T (i.operands v) i.scalar i.n odd rf op e r =
      .ok ⟨T, Spec.catElem T.signed T.bits rf i.n i.vs1 i.op2 (2 * (op * lanesOf T + e) + odd)⟩ := by
  have hi : op * lanesOf T * 2 + e * 2 + odd = 2 * (op * lanesOf T + e) + odd := by ring
  have hlt : op * lanesOf T + e < i.n * lanesOf T := by
    have : (op + 1) * lanesOf T ≤ i.n * lanesOf T := Nat.mul_le_mul_right _ hop
    rw [Nat.add_mul] at this; omega
  unfold evnOddArg Spec.catElem
  rw [hi, ← lanesOf_eq, Nat.mul_comm (lanesOf T) i.n]
  split
  · have : (i.operands v).src0 = .vec i.vs1 i.n := by simp [VInst.operands, hv]
    rw [this, readElt_group T rf i.vs1 i.n _ (by assumption)]
  · rw [readElt_op2 T hb i v rf _ (by omega)]

/-- Registers read at flat index `j` of the concatenated sources have not been written. -/
theorem cat_stable (T : CTy) (vd k op : Nat) (i : VInst) (rf rf' : VRF) (j : Nat)
    (h : ∀ q, Untouched vd i.n k op q → rf' q = rf q) (hj : j < 2 * (i.n * lanesOf T)) (hop : op ≤ i.n)
    (hs : i.strip = true → Spec.Apart vd (i.n * k) i.vs1 i.n ∧ i.op2.Apart vd (i.n * k) i.n) (h0 : op < i.n) :
    Spec.catElem T.signed T.bits rf' i.n i.vs1 i.op2 j = Spec.catElem T.signed T.bits rf i.n i.vs1 i.op2 j := by
  by_cases hst : i.strip = true
  · obtain ⟨s1, s2⟩ := hs hst
    unfold Spec.catElem
    rw [← lanesOf_eq]
    split
    · rename_i hlt
      have h1 : j / lanesOf T < i.n := (Nat.div_lt_iff_lt_mul (lanesOf_pos T)).2 hlt
      exact group_stable T vd _ k op rf rf' _ _ h (apart_untouched hop s1 (Nat.le_add_right _ _) (by omega))
    · apply op2_stable T vd _ k op rf rf' _ _ h
      intro b hb'
      rw [hb'] at s2
      have h1 : (j - i.n * lanesOf T) / lanesOf T < i.n := (Nat.div_lt_iff_lt_mul (lanesOf_pos T)).2 (by omega)
      exact apart_untouched hop s2 (Nat.le_add_right _ _) (by omega)
  · have hn : i.n = 1 := by simp [VInst.n, numOpsOf, hst]
    have : op = 0 := by omega
    subst this
    have : rf' = rf := funext fun q => h q (by intro o ho; omega)
    rw [this]

theorem evnOdd_run (T : CTy) (hb : T.bits ≤ 32) (i : VInst) (v : VOp) (hv : v.src1Factor = 1) (hd : v.dstFactor = 1)
    (odd : Nat) (ho : odd < 2) (rf : VRF)
    (hex : ∀ rf, v.run i rf = binOp T (i.operands v) i.n 1 (evnOddArg T (i.operands v) i.scalar i.n odd)
      (evnOddArg T (i.operands v) i.scalar i.n odd) (noDest vFst) rf)
    (hs : i.strip = true → Spec.Apart i.vd i.n i.vs1 i.n ∧ i.op2.Apart i.vd i.n i.n) :
    ∃ rf', v.run i rf = .ok rf' ∧
      (∀ j < i.n * Spec.lanes T.bits, Spec.groupElem T.signed T.bits rf' i.vd j =
        Spec.catElem T.signed T.bits rf i.n i.vs1 i.op2 (2 * j + odd)) ∧ Spec.Frame i.vd i.n rf rf' := by
  have hlt : ∀ op < i.n, ∀ e < lanesOf T, op * lanesOf T + e < i.n * lanesOf T := by
    intro op hop e he
    have : (op + 1) * lanesOf T ≤ i.n * lanesOf T := Nat.mul_le_mul_right _ hop
    rw [Nat.add_mul] at this; omega
  obtain ⟨rf', h1, h2, h3⟩ := perm_run T (i.operands v) i.n 1 (evnOddArg T (i.operands v) i.scalar i.n odd)
    (evnOddArg T (i.operands v) i.scalar i.n odd) rf
    (fun op _ e => Spec.catElem T.signed T.bits rf i.n i.vs1 i.op2 (2 * (op * lanesOf T + e) + odd))
    (by simp [VInst.operands, hd])
    (by
      intro op hop rf1 hrf r hr e he
      have := hlt op hop e he
      rw [evnOddArg_eq T hb i v hv odd ho rf1 op e r hop he,
        cat_stable T i.vd 1 op i rf rf1 _ hrf (by omega) (by omega) (by simpa using hs) hop])
    (by
      intro op hop rf1 r hr e he
      exact ⟨_, evnOddArg_eq T hb i v hv odd ho rf1 op e r hop he⟩)
    (by intros; exact catElem_inRange T _ _ _ _ _)
  refine ⟨rf', by rw [hex, h1], ?_, fun q hq => h3 q (untouched_frame (numOps_pos _) hq)⟩
  rw [← lanesOf_eq]
  apply flat_of_lanes T i.vd i.n rf' (fun j => Spec.catElem T.signed T.bits rf i.n i.vs1 i.op2 (2 * j + odd))
  intro op hop e he
  have := h2 op hop 0 (by omega) e he
  simpa [dreg, VInst.operands] using this

theorem evnodd_run (T : CTy) (hb : T.bits ≤ 32) (i : VInst) (rf : VRF)
    (hs : i.strip = true → Spec.Apart i.vd (i.n * 2) i.vs1 i.n ∧ i.op2.Apart i.vd (i.n * 2) i.n) :
    ∃ rf', (VOp.evnodd T).run i rf = .ok rf' ∧
      (∀ j < i.n * Spec.lanes T.bits,
        Spec.groupElem T.signed T.bits rf' i.vd j = Spec.catElem T.signed T.bits rf i.n i.vs1 i.op2 (2 * j) ∧
        Spec.groupElem T.signed T.bits rf' (i.vd + i.n) j =
          Spec.catElem T.signed T.bits rf i.n i.vs1 i.op2 (2 * j + 1)) ∧
      Spec.Frame i.vd (i.n * 2) rf rf' := by
  have hlt : ∀ op < i.n, ∀ e < lanesOf T, op * lanesOf T + e < i.n * lanesOf T := by
    intro op hop e he
    have : (op + 1) * lanesOf T ≤ i.n * lanesOf T := Nat.mul_le_mul_right _ hop
    rw [Nat.add_mul] at this; omega
  have hg : ∀ rf : VRF, ∀ op < i.n, ∀ r < 2, ∀ e < lanesOf T,
      evnoddArg T (i.operands (.evnodd T)) i.scalar i.n rf op e r =
      .ok ⟨T, Spec.catElem T.signed T.bits rf i.n i.vs1 i.op2 (2 * (op * lanesOf T + e) + r)⟩ := by
    intro rf op hop r hr e he
    have : r = 0 ∨ r = 1 := by omega
    rcases this with rfl | rfl
    · simp only [evnoddArg, if_true]
      exact evnOddArg_eq T hb i _ rfl 0 (by omega) rf op e 0 hop he
    · simp only [evnoddArg, Nat.one_ne_zero, if_false]
      exact evnOddArg_eq T hb i _ rfl 1 (by omega) rf op e 1 hop he
  obtain ⟨rf', h1, h2, h3⟩ := perm_run T (i.operands (.evnodd T)) i.n 2
    (evnoddArg T (i.operands (.evnodd T)) i.scalar i.n) (evnoddArg T (i.operands (.evnodd T)) i.scalar i.n) rf
    (fun op r e => Spec.catElem T.signed T.bits rf i.n i.vs1 i.op2 (2 * (op * lanesOf T + e) + r))
    (by simp [VInst.operands, VOp.dstFactor]; omega)
    (by
      intro op hop rf1 hrf r hr e he
      have := hlt op hop e he
      rw [hg rf1 op hop r hr e he, cat_stable T i.vd 2 op i rf rf1 _ hrf (by omega) (by omega) hs hop])
    (by
      intro op hop rf1 r hr e he
      exact ⟨_, hg rf1 op hop r hr e he⟩)
    (by intros; exact catElem_inRange T _ _ _ _ _)
  refine ⟨rf', ?_, ?_, fun q hq => h3 q (untouched_frame2 (numOps_pos _) hq)⟩
  · have hk : regsPerOpOf false true T T = 2 := by simp [regsPerOpOf]
    simp only [VOp.run, VOp.exec, hk]; exact h1
  · rw [← lanesOf_eq]
    intro j hj
    constructor
    · apply flat_of_lanes T i.vd i.n rf' (fun j => Spec.catElem T.signed T.bits rf i.n i.vs1 i.op2 (2 * j)) _ j hj
      intro op hop e he
      have := h2 op hop 0 (by omega) e he
      simpa [dreg, VInst.operands] using this
    · apply flat_of_lanes T (i.vd + i.n) i.n rf' (fun j => Spec.catElem T.signed T.bits rf i.n i.vs1 i.op2 (2 * j + 1)) _ j hj
      intro op hop e he
      have := h2 op hop 1 (by omega) e he
      rw [← this]; congr 2; simp [dreg, VInst.operands]; omega

/-- `vzip`: the `2n`-register result interleaves the two groups. -/
theorem zip_run (T : CTy) (hb : T.bits ≤ 32) (i : VInst) (rf : VRF)
    (hs : i.strip = true → Spec.Apart i.vd (i.n * 2) i.vs1 i.n ∧ i.op2.Apart i.vd (i.n * 2) i.n) :
    ∃ rf', (VOp.zip T).run i rf = .ok rf' ∧
      (∀ j < i.n * Spec.lanes T.bits,
        Spec.groupElem T.signed T.bits rf' i.vd (2 * j) = Spec.groupElem T.signed T.bits rf i.vs1 j ∧
        Spec.groupElem T.signed T.bits rf' i.vd (2 * j + 1) = i.op2.groupElem T.signed T.bits rf j) ∧
      Spec.Frame i.vd (i.n * 2) rf rf' := by
  obtain ⟨h, hh, hpos⟩ := lanesOf_even T
  have hdiv : lanesOf T / 2 = h := by omega
  -- flat index of the source
  have hidx : ∀ op r e, e < lanesOf T →
      op * (lanesOf T / 2) + e / 2 + r * (lanesOf T / 2) * i.n = ((op + r * i.n) * lanesOf T + e) / 2 := by
    intro op r e _
    rw [hdiv, hh]
    have : (op + r * i.n) * (2 * h) + e = 2 * ((op + r * i.n) * h) + e := by ring
    rw [this, Nat.mul_add_div (by omega)]
    ring
  have hlt : ∀ op < i.n, ∀ r < 2, ∀ e < lanesOf T, ((op + r * i.n) * lanesOf T + e) / 2 < i.n * lanesOf T := by
    intro op hop r hr e he
    have h1 : op + r * i.n + 1 ≤ 2 * i.n := by
      have : r = 0 ∨ r = 1 := by omega
      rcases this with rfl | rfl <;> omega
    have : (op + r * i.n + 1) * lanesOf T ≤ 2 * i.n * lanesOf T := Nat.mul_le_mul_right _ h1
    rw [Nat.add_mul, Nat.mul_assoc] at this
    omega
  let F : VRF → Nat → Int := fun rf j => if j % 2 = 1 then i.op2.groupElem T.signed T.bits rf (j / 2)
    else Spec.groupElem T.signed T.bits rf i.vs1 (j / 2)
  have hpar : ∀ op r e, ((op + r * i.n) * lanesOf T + e) % 2 = e % 2 := by
    intro op r e
    rw [hh, show (op + r * i.n) * (2 * h) + e = 2 * ((op + r * i.n) * h) + e by ring, Nat.mul_add_mod]
  have hg : ∀ rf : VRF, ∀ op < i.n, ∀ r < 2, ∀ e < lanesOf T,
      zipArg T (i.operands (.zip T)) i.scalar i.n rf op e r =
      .ok ⟨T, F rf ((op + r * i.n) * lanesOf T + e)⟩ := by
    intro rf op hop r hr e he
    unfold zipArg
    simp only [F, hidx op r e he, hpar op r e]
    split
    · rw [readElt_op2 T hb i _ rf _ (hlt op hop r hr e he)]
    · have : (i.operands (.zip T)).src0 = .vec i.vs1 i.n := by simp [VInst.operands, VOp.src1Factor]
      rw [this, readElt_group T rf i.vs1 i.n _ (hlt op hop r hr e he)]
  have hFin : ∀ rf j, T.InRange (F rf j) := by
    intro rf j
    simp only [F]
    split
    · exact op2_groupElem_inRange T _ _ _
    · exact groupElem_inRange T _ _ _
  obtain ⟨rf', h1, h2, h3⟩ := perm_run T (i.operands (.zip T)) i.n 2
    (zipArg T (i.operands (.zip T)) i.scalar i.n) (zipArg T (i.operands (.zip T)) i.scalar i.n) rf
    (fun op r e => F rf ((op + r * i.n) * lanesOf T + e))
    (by simp [VInst.operands, VOp.dstFactor]; omega)
    (by
      intro op hop rf1 hrf r hr e he
      rw [hg rf1 op hop r hr e he]
      have hl := hlt op hop r hr e he
      have hq : ((op + r * i.n) * lanesOf T + e) / 2 / lanesOf T < i.n := (Nat.div_lt_iff_lt_mul (lanesOf_pos T)).2 hl
      congr 2
      by_cases hst : i.strip = true
      · obtain ⟨s1, s2⟩ := hs hst
        simp only [F]
        split
        · apply op2_stable T i.vd _ 2 op rf rf1 _ _ hrf
          intro b hb'
          rw [hb'] at s2
          exact apart_untouched (by omega) s2 (Nat.le_add_right _ _) (by omega)
        · exact group_stable T i.vd _ 2 op rf rf1 _ _ hrf (apart_untouched (by omega) s1 (Nat.le_add_right _ _) (by omega))
      · have hn : i.n = 1 := by simp [VInst.n, numOpsOf, hst]
        have : op = 0 := by omega
        subst this
        have : rf1 = rf := funext fun q => hrf q (by intro o ho; omega)
        rw [this])
    (by
      intro op hop rf1 r hr e he
      exact ⟨_, hg rf1 op hop r hr e he⟩)
    (by intros; exact hFin _ _)
  have hflat : ∀ j < i.n * 2 * lanesOf T, Spec.groupElem T.signed T.bits rf' i.vd j = F rf j := by
    apply flat_of_lanes T i.vd (i.n * 2) rf' (F rf)
    intro op hop e he
    by_cases ho : op < i.n
    · have := h2 op ho 0 (by omega) e he
      simpa [dreg, VInst.operands] using this
    · have := h2 (op - i.n) (by omega) 1 (by omega) e he
      have e1 : op - i.n + 1 * i.n = op := by omega
      simp only [dreg] at this
      rw [e1] at this
      exact this
  refine ⟨rf', ?_, ?_, fun q hq => h3 q (untouched_frame2 (numOps_pos _) hq)⟩
  · have hk : regsPerOpOf false true T T = 2 := by simp [regsPerOpOf]
    simp only [VOp.run, VOp.exec, hk]; exact h1
  · rw [← lanesOf_eq]
    intro j hj
    have e1 : i.n * 2 * lanesOf T = 2 * (i.n * lanesOf T) := by ring
    constructor
    · rw [hflat (2 * j) (by omega)]
      simp [F]
    · rw [hflat (2 * j + 1) (by omega)]
      have : (2 * j + 1) / 2 = j := by omega
      simp [F, this, Nat.add_mod]

end Verif.Proofs
