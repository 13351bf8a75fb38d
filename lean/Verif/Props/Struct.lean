import Verif.Proofs.PropAux

/-!
# C18, C19, C21–C24: how vector instructions use the register file
-/

namespace Verif.Props
open Verif Verif.Model Verif.Proofs

/-! ## C18 -/

/-- C18: a two-operand lane-by-lane instruction applies its element operation to the same lane of
both sources (a scalar second operand is truncated to the lane and broadcast), over `i.n` registers,
and changes nothing else. `R` is any relation the element operation establishes. -/
theorem C18_binary (k : BinK) (T : CTy) (hb : T.bits ≤ 32) (i : VInst) (rf : VRF) (R : Int → Int → Int → Prop)
    (hel : ∀ a b, T.InRange a → T.InRange b →
      ∃ c, k.fn T ⟨T, a⟩ ⟨T, b⟩ = .ok ⟨k.dstTy T, c⟩ ∧ (k.dstTy T).InRange c ∧ R a b c)
    (a1 : Spec.NoOverlap i.vd i.vs1 i.n) (a2 : i.op2.NoOverlap i.vd i.n) :
    ∃ rf', (VOp.bin k T).run i rf = .ok rf' ∧
      Spec.LanewiseR (k.dstTy T).signed T.bits T.signed T.bits i.n i.vd i.vs1 i.op2 R rf rf' :=
  bin_run k T hb i rf R hel a1 a2

/-- C18 for instructions that also read the destination. -/
theorem C18_ternary (k : TerK) (T : CTy) (hb : T.bits ≤ 32) (i : VInst) (rf : VRF) (g : Int → Int → Int → Int)
    (hel : ∀ d a b, T.InRange d → T.InRange a → T.InRange b →
      k.fn T ⟨T, d⟩ ⟨T, a⟩ ⟨T, b⟩ = .ok ⟨T, g d a b⟩ ∧ T.InRange (g d a b))
    (a1 : Spec.NoOverlap i.vd i.vs1 i.n) (a2 : i.op2.NoOverlap i.vd i.n) :
    ∃ rf', (VOp.ter k T).run i rf = .ok rf' ∧
      Spec.Lanewise3 T.signed T.bits i.n i.vd i.vs1 i.op2 g rf rf' :=
  ter_run k T hb i rf g hel a1 a2

/-- C18 for one-operand instructions. -/
theorem C18_unary (k : UnK) (T : CTy) (i : VInst) (rf : VRF) (R : Int → Int → Prop)
    (hel : ∀ a, T.InRange a → ∃ c, k.fn T ⟨T, a⟩ = .ok ⟨T, c⟩ ∧ T.InRange c ∧ R a c)
    (a1 : Spec.NoOverlap i.vd i.vs1 i.n) :
    ∃ rf', (VOp.un k T).run i rf = .ok rf' ∧ Spec.Lanewise1 T.signed T.bits i.n i.vd i.vs1 R rf rf' :=
  un_run k T i rf R hel a1

/-! ## C19 -/

/-- C19: every vector register instruction, with any operands and any aliasing, changes only its
destination group (1 or 4 registers, doubled for the widening forms). -/
theorem C19_frame (v : VOp) (i : VInst) (rf rf' : VRF) (h : v.run i rf = .ok rf') :
    Spec.Frame i.vd ((if i.strip then 4 else 1) * v.dstFactor) rf rf' :=
  run_frame v i rf rf' h

/-! ## C21 -/

/-- C21: a strip-mined two-operand instruction is its four single-register instructions executed in
increasing register order, whatever the overlap of the operand groups. -/
theorem C21_sequential_bin (k : BinK) (T : CTy) (i : VInst) (hs : i.strip = true) (rf : VRF) :
    (VOp.bin k T).run i rf = (do
      let rf ← (VOp.bin k T).run (regInst i 0) rf
      let rf ← (VOp.bin k T).run (regInst i 1) rf
      let rf ← (VOp.bin k T).run (regInst i 2) rf
      (VOp.bin k T).run (regInst i 3) rf) := by
  rw [bin_seq k T i hs rf]
  simp [List.range, List.range.loop, List.foldlM_cons, List.foldlM_nil, Outcome.bind_ok]

/-- C21 for instructions that also read the destination. -/
theorem C21_sequential_ter (k : TerK) (T : CTy) (i : VInst) (hs : i.strip = true) (rf : VRF) :
    (VOp.ter k T).run i rf = (do
      let rf ← (VOp.ter k T).run (regInst i 0) rf
      let rf ← (VOp.ter k T).run (regInst i 1) rf
      let rf ← (VOp.ter k T).run (regInst i 2) rf
      (VOp.ter k T).run (regInst i 3) rf) := by
  rw [ter_seq k T i hs rf]
  simp [List.range, List.range.loop, List.foldlM_cons, List.foldlM_nil, Outcome.bind_ok]

/-- C21 for one-operand instructions. -/
theorem C21_sequential_un (k : UnK) (T : CTy) (i : VInst) (hs : i.strip = true) (rf : VRF) :
    (VOp.un k T).run i rf = (do
      let rf ← (VOp.un k T).run (regInst i 0) rf
      let rf ← (VOp.un k T).run (regInst i 1) rf
      let rf ← (VOp.un k T).run (regInst i 2) rf
      (VOp.un k T).run (regInst i 3) rf) := by
  rw [un_seq k T i hs rf]
  simp [List.range, List.range.loop, List.foldlM_cons, List.foldlM_nil, Outcome.bind_ok]

/-- A register file whose registers are all different. -/
def rf4 : VRF := fun q => BitVec.ofNat 256 ((q + 1) * 0x0123456789abcdef0123456789abcdef0123456789abcdef0123456789abcdef)

/-- C21, in-place horizontal slide: with `vd = vs2`, `vslidehp` reads registers it has already
overwritten, so lane 0 of the second destination register is not the window of C22. -/
theorem C21_slidehp_in_place_hazard :
    ∃ rf', (VOp.slidep true 1 .i32).run ⟨0, 8, .vreg 0, true⟩ rf4 = .ok rf' ∧
      Spec.groupElem true 32 rf' 0 8 ≠ Spec.catElem true 32 rf4 4 8 (.vreg 0) (4 * 8 + 8 - 1) := by
  have := (okAnd_iff ((VOp.slidep true 1 .i32).run ⟨0, 8, .vreg 0, true⟩ rf4)
    (fun rf' => decide (Spec.groupElem true 32 rf' 0 8 ≠
      Spec.catElem true 32 rf4 4 8 (.vreg 0) (4 * 8 + 8 - 1)))).1 (by decide +kernel)
  obtain ⟨rf', h1, h2⟩ := this
  exact ⟨rf', h1, of_decide_eq_true h2⟩

/-- C21: the hypotheses `NoOverlap` of C18 cannot be dropped: strip-mined `vadd` with `vd = vs1 + 1`
feeds results of earlier registers into later ones. -/
theorem C21_overlap_hazard :
    ∃ rf', (VOp.bin .add .i32).run ⟨1, 0, .vreg 16, true⟩ rf4 = .ok rf' ∧
      Spec.lane true 32 (rf' 2) 0 ≠
        Spec.wrap true 32 (Spec.lane true 32 (rf4 1) 0 + Spec.lane true 32 (rf4 17) 0) := by
  have := (okAnd_iff ((VOp.bin .add .i32).run ⟨1, 0, .vreg 16, true⟩ rf4)
    (fun rf' => decide (Spec.lane true 32 (rf' 2) 0 ≠
        Spec.wrap true 32 (Spec.lane true 32 (rf4 1) 0 + Spec.lane true 32 (rf4 17) 0)))).1 (by decide +kernel)
  obtain ⟨rf', h1, h2⟩ := this
  exact ⟨rf', h1, of_decide_eq_true h2⟩

/-! ## C22 -/

/-- C22: `vslidevn`: within each register, lane `e` takes lane `e + index` of `vs1`, running over
into `vs2`. -/
theorem C22_vslidevn (T : CTy) (index : Nat) (hidx : index ≤ 4) (i : VInst) (vs2 : Nat)
    (h2 : i.op2 = .vreg vs2) (rf : VRF)
    (a1 : Spec.NoOverlap i.vd i.vs1 i.n) (a2 : Spec.NoOverlap i.vd vs2 i.n) :
    ∃ rf', (VOp.sliden false index T).run i rf = .ok rf' ∧
      (∀ k < i.n, ∀ e < Spec.lanes T.bits, Spec.lane T.signed T.bits (rf' (i.vd + k)) e =
        Spec.catElem T.signed T.bits rf 1 (i.vs1 + k) (.vreg (vs2 + k)) (e + index)) ∧
      Spec.Frame i.vd i.n rf rf' := by
  obtain ⟨rf', h1, hl, h3⟩ := slidevn_run T index (lanesOf_le T index hidx) i vs2 h2 rf a1 a2
  refine ⟨rf', h1, fun k hk e he => ?_, h3⟩
  rw [hl k hk e he]
  have hle := lanesOf_le T index hidx
  rw [← lanesOf_eq] at he ⊢
  unfold Spec.catElem
  rw [← lanesOf_eq, Nat.one_mul]
  split
  · have := groupElem_split T rf (i.vs1 + k) 0 (e + index) (by assumption)
    simpa using this.symm
  · have := groupElem_split T rf (vs2 + k) 0 (e + index - lanesOf T) (by omega)
    simpa [Spec.Operand.groupElem] using this.symm

/-- C22: `vslidevp`: within each register, lane `e` takes lane `e - index` of `vs2`, the first
`index` lanes being the last ones of `vs1`. -/
theorem C22_vslidevp (T : CTy) (index : Nat) (hidx : index ≤ 4) (i : VInst) (vs2 : Nat)
    (h2 : i.op2 = .vreg vs2) (rf : VRF)
    (a1 : Spec.NoOverlap i.vd i.vs1 i.n) (a2 : Spec.NoOverlap i.vd vs2 i.n) :
    ∃ rf', (VOp.slidep false index T).run i rf = .ok rf' ∧
      (∀ k < i.n, ∀ e < Spec.lanes T.bits, Spec.lane T.signed T.bits (rf' (i.vd + k)) e =
        Spec.catElem T.signed T.bits rf 1 (i.vs1 + k) (.vreg (vs2 + k)) (Spec.lanes T.bits + e - index)) ∧
      Spec.Frame i.vd i.n rf rf' := by
  obtain ⟨rf', h1, hl, h3⟩ := slidevp_run T index (lanesOf_le T index hidx) i vs2 h2 rf a1 a2
  refine ⟨rf', h1, fun k hk e he => ?_, h3⟩
  rw [hl k hk e he]
  have hle := lanesOf_le T index hidx
  rw [← lanesOf_eq] at he ⊢
  unfold Spec.catElem
  rw [← lanesOf_eq, Nat.one_mul]
  by_cases h : e < index
  · rw [if_pos h, if_pos (by omega)]
    have := groupElem_split T rf (i.vs1 + k) 0 (lanesOf T - index + e) (by omega)
    have e1 : lanesOf T + e - index = lanesOf T - index + e := by omega
    rw [e1]
    simpa using this.symm
  · rw [if_neg h, if_neg (by omega)]
    have := groupElem_split T rf (vs2 + k) 0 (e - index) (by omega)
    have e1 : lanesOf T + e - index - lanesOf T = e - index := by omega
    rw [e1]
    simpa [Spec.Operand.groupElem] using this.symm

/-- C22: `vslidehn` (always strip-mined): the four destination registers are the window starting at
`index` of the eight source registers. -/
theorem C22_vslidehn (T : CTy) (index : Nat) (hidx : index ≤ 4) (i : VInst) (hst : i.strip = true) (vs2 : Nat)
    (h2 : i.op2 = .vreg vs2) (rf : VRF)
    (a1 : Spec.NoOverlap i.vd i.vs1 4) (a2 : vs2 < i.vd ∨ i.vd + 3 ≤ vs2) :
    ∃ rf', (VOp.sliden true index T).run i rf = .ok rf' ∧
      (∀ j < 4 * Spec.lanes T.bits, Spec.groupElem T.signed T.bits rf' i.vd j =
        Spec.catElem T.signed T.bits rf 4 i.vs1 i.op2 (j + index)) ∧
      Spec.Frame i.vd 4 rf rf' :=
  slidehn_run T index (lanesOf_le T index hidx) i hst vs2 h2 rf a1 a2

/-- C22: `vslidehp`: the window ending `index` elements before the end. -/
theorem C22_vslidehp (T : CTy) (index : Nat) (hidx : index ≤ 4) (i : VInst) (hst : i.strip = true) (vs2 : Nat)
    (h2 : i.op2 = .vreg vs2) (rf : VRF)
    (a2 : i.vd < vs2 ∨ vs2 + 4 ≤ i.vd) :
    ∃ rf', (VOp.slidep true index T).run i rf = .ok rf' ∧
      (∀ j < 4 * Spec.lanes T.bits, Spec.groupElem T.signed T.bits rf' i.vd j =
        Spec.catElem T.signed T.bits rf 4 i.vs1 i.op2 (4 * Spec.lanes T.bits + j - index)) ∧
      Spec.Frame i.vd 4 rf rf' :=
  slidehp_run T index (lanesOf_le T index hidx) i hst vs2 h2 rf a2

/-! ## C23 -/

/-- C23: `vevn` extracts the even elements of the concatenation `vs1 ++ vs2`. -/
theorem C23_vevn (T : CTy) (hb : T.bits ≤ 32) (i : VInst) (rf : VRF)
    (hs : i.strip = true → Spec.Apart i.vd i.n i.vs1 i.n ∧ i.op2.Apart i.vd i.n i.n) :
    ∃ rf', (VOp.evn T).run i rf = .ok rf' ∧
      (∀ j < i.n * Spec.lanes T.bits, Spec.groupElem T.signed T.bits rf' i.vd j =
        Spec.catElem T.signed T.bits rf i.n i.vs1 i.op2 (2 * j)) ∧ Spec.Frame i.vd i.n rf rf' := by
  have hk : regsPerOpOf false false T T = 1 := by simp [regsPerOpOf]
  have := evnOdd_run T hb i (.evn T) rfl rfl 0 (by omega) rf (by
    intro rf; simp only [VOp.run, VOp.exec, hk]; rfl) hs
  simpa using this

/-- C23: `vodd` extracts the odd elements of the concatenation `vs1 ++ vs2`. -/
theorem C23_vodd (T : CTy) (hb : T.bits ≤ 32) (i : VInst) (rf : VRF)
    (hs : i.strip = true → Spec.Apart i.vd i.n i.vs1 i.n ∧ i.op2.Apart i.vd i.n i.n) :
    ∃ rf', (VOp.odd T).run i rf = .ok rf' ∧
      (∀ j < i.n * Spec.lanes T.bits, Spec.groupElem T.signed T.bits rf' i.vd j =
        Spec.catElem T.signed T.bits rf i.n i.vs1 i.op2 (2 * j + 1)) ∧ Spec.Frame i.vd i.n rf rf' := by
  have hk : regsPerOpOf false false T T = 1 := by simp [regsPerOpOf]
  exact evnOdd_run T hb i (.odd T) rfl rfl 1 (by omega) rf (by
    intro rf; simp only [VOp.run, VOp.exec, hk]; rfl) hs

/-- C23: `vevnodd` writes both. -/
theorem C23_vevnodd (T : CTy) (hb : T.bits ≤ 32) (i : VInst) (rf : VRF)
    (hs : i.strip = true → Spec.Apart i.vd (i.n * 2) i.vs1 i.n ∧ i.op2.Apart i.vd (i.n * 2) i.n) :
    ∃ rf', (VOp.evnodd T).run i rf = .ok rf' ∧
      (∀ j < i.n * Spec.lanes T.bits,
        Spec.groupElem T.signed T.bits rf' i.vd j = Spec.catElem T.signed T.bits rf i.n i.vs1 i.op2 (2 * j) ∧
        Spec.groupElem T.signed T.bits rf' (i.vd + i.n) j =
          Spec.catElem T.signed T.bits rf i.n i.vs1 i.op2 (2 * j + 1)) ∧
      Spec.Frame i.vd (i.n * 2) rf rf' :=
  evnodd_run T hb i rf hs

/-- C23: `vzip` interleaves. -/
theorem C23_vzip (T : CTy) (hb : T.bits ≤ 32) (i : VInst) (rf : VRF)
    (hs : i.strip = true → Spec.Apart i.vd (i.n * 2) i.vs1 i.n ∧ i.op2.Apart i.vd (i.n * 2) i.n) :
    ∃ rf', (VOp.zip T).run i rf = .ok rf' ∧
      (∀ j < i.n * Spec.lanes T.bits,
        Spec.groupElem T.signed T.bits rf' i.vd (2 * j) = Spec.groupElem T.signed T.bits rf i.vs1 j ∧
        Spec.groupElem T.signed T.bits rf' i.vd (2 * j + 1) = i.op2.groupElem T.signed T.bits rf j) ∧
      Spec.Frame i.vd (i.n * 2) rf rf' :=
  zip_run T hb i rf hs

/-- C23: `vevnodd` of the result of `vzip` restores both source groups (in any destination that
meets the overlap rules). -/
theorem C23_unzip_zip (T : CTy) (hb : T.bits ≤ 32) (strip : Bool) (vd vs1 vs2 vd2 : Nat) (rf : VRF)
    (hs : strip = true → Spec.Apart vd 8 vs1 4 ∧ Spec.Apart vd 8 vs2 4 ∧ Spec.Apart vd2 8 vd 8) :
    ∃ rf1 rf2, (VOp.zip T).run ⟨vd, vs1, .vreg vs2, strip⟩ rf = .ok rf1 ∧
      (VOp.evnodd T).run ⟨vd2, vd, .vreg (vd + if strip then 4 else 1), strip⟩ rf1 = .ok rf2 ∧
      ∀ k < (if strip then 4 else 1), rf2 (vd2 + k) = rf (vs1 + k) ∧
        rf2 (vd2 + (if strip then 4 else 1) + k) = rf (vs2 + k) := by
  have hn : ∀ a b c, (VInst.mk a b c strip).n = if strip then 4 else 1 := fun _ _ _ => rfl
  obtain ⟨rf1, z1, z2, -⟩ := zip_run T hb ⟨vd, vs1, .vreg vs2, strip⟩ rf (by
    intro (h : strip = true)
    obtain ⟨h1, h2, -⟩ := hs h
    simp only [hn, h, if_true]
    exact ⟨h1, h2⟩)
  obtain ⟨rf2, e1, e2, -⟩ := evnodd_run T hb ⟨vd2, vd, .vreg (vd + if strip then 4 else 1), strip⟩ rf1 (by
    intro (h : strip = true)
    obtain ⟨-, -, h3⟩ := hs h
    subst h
    simp only [VInst.n, numOpsOf, if_true, Spec.Operand.Apart, Spec.Apart] at *
    omega)
  refine ⟨rf1, rf2, z1, e1, ?_⟩
  simp only [hn, ← lanesOf_eq] at z2 e2
  intro k hk
  constructor
  · refine regs_of_flat T rf rf2 vd2 vs1 _ ?_ k hk
    intro j hj
    rw [(e2 j hj).1, cat_pair, (z2 j hj).1]
  · refine regs_of_flat T rf rf2 _ vs2 _ ?_ k hk
    intro j hj
    rw [(e2 j hj).2, cat_pair, (z2 j hj).2]; rfl

/-- C23: `vzip` of the result of `vevnodd` restores both source groups. -/
theorem C23_zip_unzip (T : CTy) (hb : T.bits ≤ 32) (strip : Bool) (vd vs1 vs2 vd2 : Nat) (rf : VRF)
    (hs : strip = true → Spec.Apart vd 8 vs1 4 ∧ Spec.Apart vd 8 vs2 4 ∧ Spec.Apart vd2 8 vd 8) :
    ∃ rf1 rf2, (VOp.evnodd T).run ⟨vd, vs1, .vreg vs2, strip⟩ rf = .ok rf1 ∧
      (VOp.zip T).run ⟨vd2, vd, .vreg (vd + if strip then 4 else 1), strip⟩ rf1 = .ok rf2 ∧
      ∀ k < (if strip then 4 else 1), rf2 (vd2 + k) = rf (vs1 + k) ∧
        rf2 (vd2 + (if strip then 4 else 1) + k) = rf (vs2 + k) := by
  have hn : ∀ a b c, (VInst.mk a b c strip).n = if strip then 4 else 1 := fun _ _ _ => rfl
  obtain ⟨rf1, z1, z2, -⟩ := evnodd_run T hb ⟨vd, vs1, .vreg vs2, strip⟩ rf (by
    intro (h : strip = true)
    obtain ⟨h1, h2, -⟩ := hs h
    simp only [hn, h, if_true]
    exact ⟨h1, h2⟩)
  obtain ⟨rf2, e1, e2, -⟩ := zip_run T hb ⟨vd2, vd, .vreg (vd + if strip then 4 else 1), strip⟩ rf1 (by
    intro (h : strip = true)
    obtain ⟨-, -, h3⟩ := hs h
    subst h
    simp only [VInst.n, numOpsOf, if_true, Spec.Operand.Apart, Spec.Apart] at *
    omega)
  refine ⟨rf1, rf2, z1, e1, ?_⟩
  simp only [hn, ← lanesOf_eq] at z2 e2
  generalize hN : (if strip then 4 else 1) = N at *
  -- the destination of the zip is the concatenation of the original groups
  have hcat : ∀ m < 2 * (N * lanesOf T), Spec.groupElem T.signed T.bits rf2 vd2 m =
      Spec.catElem T.signed T.bits rf N vs1 (.vreg vs2) m := by
    intro m hm
    obtain ⟨j, hj⟩ : ∃ j, m = 2 * j ∨ m = 2 * j + 1 := ⟨m / 2, by omega⟩
    rcases hj with rfl | rfl
    · rw [(e2 j (by omega)).1, (z2 j (by omega)).1]
    · rw [(e2 j (by omega)).2, Spec.Operand.groupElem, (z2 j (by omega)).2]
  intro k hk
  constructor
  · refine regs_of_flat T rf rf2 vd2 vs1 N ?_ k hk
    intro j hj
    rw [hcat j (by omega), Spec.catElem, ← lanesOf_eq, if_pos hj]
  · refine regs_of_flat T rf rf2 (vd2 + N) vs2 N ?_ k hk
    intro j hj
    rw [group_add, hcat _ (by omega), Spec.catElem, ← lanesOf_eq, if_neg (by omega), Nat.add_sub_cancel_left]; rfl

/-! ## C24 -/

/-- C24: `vsel` keeps the destination lane where bit 0 of the `vs1` lane is set, and takes the second
operand elsewhere. -/
theorem C24_vsel (T : CTy) (hb : T.bits ≤ 32) (i : VInst) (rf : VRF)
    (a1 : Spec.NoOverlap i.vd i.vs1 i.n) (a2 : i.op2.NoOverlap i.vd i.n) :
    ∃ rf', (VOp.ter .sel T).run i rf = .ok rf' ∧
      Spec.Lanewise3 T.signed T.bits i.n i.vd i.vs1 i.op2 (fun d a b => if a % 2 = 1 then d else b) rf rf' :=
  ter_run .sel T hb i rf _ (fun d a b hd ha hb' => ⟨vSel_ok T hb d a b, by split <;> assumption⟩) a1 a2

/-- C24: `vmvp` copies `vs1` into the first and the second operand into the second destination group. -/
theorem C24_vmvp (T : CTy) (hb : T.bits ≤ 32) (i : VInst) (rf : VRF)
    (a1 : ∀ r < 2, Spec.NoOverlap (i.vd + r * i.n) i.vs1 i.n)
    (a2 : ∀ r < 2, i.op2.NoOverlap (i.vd + r * i.n) i.n) :
    ∃ rf', (VOp.mvp T).run i rf = .ok rf' ∧
      (∀ k < i.n, rf' (i.vd + k) = rf (i.vs1 + k) ∧
        ∀ e < Spec.lanes T.bits,
          Spec.lane T.signed T.bits (rf' (i.vd + i.n + k)) e = i.op2.elem T.signed T.bits rf k e) ∧
      Spec.Frame i.vd (i.n * 2) rf rf' := by
  obtain ⟨rf', h1, h2, h3⟩ := mvp_run T hb i rf a1 a2
  refine ⟨rf', h1, fun k hk => ⟨?_, fun e he => (h2 k hk e he).2⟩, h3⟩
  apply reg_ext T
  intro e he
  exact (h2 k hk e (by rw [← lanesOf_eq]; exact he)).1

/-- C24: `vmv` copies whole registers. -/
theorem C24_vmv (T : CTy) (i : VInst) (rf : VRF) (a1 : Spec.NoOverlap i.vd i.vs1 i.n) :
    ∃ rf', (VOp.un .mv T).run i rf = .ok rf' ∧
      (∀ k < i.n, rf' (i.vd + k) = rf (i.vs1 + k)) ∧ Spec.Frame i.vd i.n rf rf' := by
  obtain ⟨rf', h1, h2, h3⟩ := un_run .mv T i rf (fun a c => c = a) (fun a ha => ⟨a, rfl, ha, rfl⟩) a1
  refine ⟨rf', h1, fun k hk => ?_, h3⟩
  apply reg_ext T
  intro e he
  exact h2 k hk e (by rw [← lanesOf_eq]; exact he)

/-! ## Concrete instances -/

/-- The horizontal slide hypotheses admit in-place use on `vs1`. -/
example : ∃ rf', (VOp.sliden true 3 .i16).run ⟨8, 8, .vreg 12, true⟩ rf4 = .ok rf' ∧
    Spec.groupElem true 16 rf' 8 15 = Spec.lane true 16 (rf4 9) 2 := by
  obtain ⟨rf', h1, h2, h3⟩ := C22_vslidehn .i16 3 (by decide) ⟨8, 8, .vreg 12, true⟩ rfl 12 rfl rf4 (by decide) (by decide)
  exact ⟨rf', h1, (h2 15 (by decide)).trans (by decide)⟩

example : ∃ rf', (VOp.slidep true 2 .i8).run ⟨8, 4, .vreg 12, true⟩ rf4 = .ok rf' ∧
    Spec.groupElem true 8 rf' 8 0 = Spec.lane true 8 (rf4 7) 30 := by
  obtain ⟨rf', h1, h2, h3⟩ := C22_vslidehp .i8 2 (by decide) ⟨8, 4, .vreg 12, true⟩ rfl 12 rfl rf4 (by decide)
  exact ⟨rf', h1, (h2 0 (by decide)).trans (by decide)⟩

/-- Strip-mined zip and unzip on disjoint groups. -/
example := C23_unzip_zip .i8 (by decide) true 16 0 8 32 rf4 (by intro _; unfold Spec.Apart; decide)

/-- A select that uses both alternatives. -/
example : ∃ rf', (VOp.ter .sel .i32).run ⟨8, 2, .vreg 4, true⟩ rf4 = .ok rf' ∧
    Spec.lane true 32 (rf' 8) 0 = Spec.lane true 32 (rf4 8) 0 ∧
    Spec.lane true 32 (rf' 9) 0 = Spec.lane true 32 (rf4 5) 0 := by
  obtain ⟨rf', h1, h2, h3⟩ := C24_vsel .i32 (by decide) ⟨8, 2, .vreg 4, true⟩ rf4 (by decide)
    (by show Spec.NoOverlap _ _ _; decide)
  exact ⟨rf', h1, (h2 0 (by decide) 0 (by decide)).trans (by decide), (h2 1 (by decide) 0 (by decide)).trans (by decide)⟩

end Verif.Props
