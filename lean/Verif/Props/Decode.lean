import Verif.Proofs.DecodeBase
import Verif.Proofs.DecodeTotal
import Verif.Spec.Isa
import Verif.Props.ShiftMul
import Verif.Props.VecMem
import Verif.Props.Conv

/-!
# C35–C38, C60–C62: decoding

`Row`s are the lines of the encoding tables together with the instruction they select; `Row.matches r w`
says that the word `w` satisfies every constraint of the line; `Decodes w r` that the decoder may select
`r` for `w`: the line matches, and no line of an instruction group that is tried earlier does.
-/

namespace Verif.Props
open Verif Verif.Model Verif.Proofs

/-! ## C35 -/

/-- C35: at most one instruction can be selected for a word, with one exception: `acset` and the
single-register `vdup`. (The exception is real: `C35_ambiguous`.) -/
theorem C35_unique_partial (w : BitVec 32) (r r' : Row) (h : Decodes w r) (h' : Decodes w r') :
    r = r' ∨ (r.name = [.acset] ∧ isVdupX r' = true) ∨ (r'.name = [.acset] ∧ isVdupX r = true) := by
  obtain ⟨hr, hm, hlt⟩ := h
  obtain ⟨hr', hm', hlt'⟩ := h'
  have hg : r.group = r'.group := by
    rcases Nat.lt_trichotomy r.group r'.group with e | e | e
    · exact absurd hm (by rw [hlt' r hr e]; exact Bool.false_ne_true)
    · exact e
    · exact absurd hm' (by rw [hlt r' hr' e]; exact Bool.false_ne_true)
  have grp : ∀ sp ∈ specials, sp.group = 3 := fun sp hsp => by
    simpa using List.all_eq_true.1 specials_group sp hsp
  have main : ∀ r r' : Row, r ∈ allRows → r' ∈ allRows → r.group = r'.group → r.matches w = true → r'.matches w = true →
      isSpecial r = true → r = r' ∨ (r.name = [.acset] ∧ isVdupX r' = true) := by
    intro r r' hr hr' hg hm hm' hs
    have h3 := grp r (mem_specials hr hs)
    rcases special_overlap (mem_specials hr hs) hr' (by omega) hm hm' with e | e | e
    · exact .inl e.symm
    · exfalso
      have := List.all_eq_true.1 allRows_shadowOk r' hr'
      simp only [shadowOk, List.contains_iff_mem, e, Bool.not_true, Bool.false_or, Bool.and_eq_true,
        decide_eq_true_eq] at this
      simp [e] at this
      omega
    · exact .inr e
  by_cases hs : isSpecial r = true
  · rcases main r r' hr hr' hg hm hm' hs with e | e
    · exact .inl e
    · exact .inr (.inl e)
  · by_cases hs' : isSpecial r' = true
    · rcases main r' r hr' hr hg.symm hm' hm hs' with e | e
      · exact .inl e.symm
      · exact .inr (.inr e)
    · exact .inl (unique_match hr hr' (by simpa using hs) (by simpa using hs') hm hm')

/-- C35, negative part: the word `0x40000c1f` satisfies both `acset` and `vdup.b.x` and no line of an
earlier group: which one is selected depends on the order of the tests in the generated decoder. -/
theorem C35_ambiguous : ∃ r r', Decodes 0x40000c1f#32 r ∧ Decodes 0x40000c1f#32 r' ∧ r.name = [.acset] ∧
    r'.name = [.vdup, .b, .x] := by
  have h : (allRows.all fun r => !(decide (r.group < 3) && r.matches 0x40000c1f#32)) = true := by decide +kernel
  have h1 : (allRows.any fun r => r.name == [.acset] && r.group == 3 && r.matches 0x40000c1f#32) = true := by decide +kernel
  have h2 : (allRows.any fun r => r.name == [.vdup, .b, .x] && r.group == 3 && r.matches 0x40000c1f#32) = true := by decide +kernel
  have fin : ∀ r ∈ allRows, r.group = 3 → r.matches 0x40000c1f#32 = true → Decodes 0x40000c1f#32 r := by
    intro r hr hg hm
    refine ⟨hr, hm, fun r' hr' hlt => ?_⟩
    have := List.all_eq_true.1 h r' hr'
    simp only [Bool.not_eq_true', Bool.and_eq_false_iff, decide_eq_false_iff_not] at this
    rcases this with e | e
    · omega
    · exact e
  simp only [List.any_eq_true, Bool.and_eq_true, beq_iff_eq] at h1 h2
  obtain ⟨r, hr, ⟨hn, hg⟩, hm⟩ := h1
  obtain ⟨r', hr', ⟨hn', hg'⟩, hm'⟩ := h2
  exact ⟨r, r', fin r hr hg hm, fin r' hr' hg' hm', hn, hn'⟩

/-! ## C36 -/

/-- C36: every word that satisfies a line is decoded to it, and to nothing else, except for the three
lines that constrain neither `func1` nor `form` (`acset`, `actr`, `adwinit`; see `C36_accumulator`), the
24 lines they hide in part (`C36_shadowed`), and `vdup` (`C35_ambiguous`). -/
theorem C36_decodes_partial (w : BitVec 32) (r : Row) (hr : r ∈ allRows) (h : r.matches w = true)
    (h1 : r.name ∉ [[.acset], [.actr], [.adwinit]]) (h2 : r.name ∉ shadowed) :
    Decodes w r ∧ (isVdupX r = false → ∀ r', Decodes w r' → r' = r) := by
  have hs : isSpecial r = false := by
    simp only [List.mem_cons, List.not_mem_nil, or_false, not_or] at h1
    simp [isSpecial, Row.isAcset, Row.isAdwinit, h1]
  have hd : Decodes w r := by
    refine ⟨hr, h, fun r' hr' hlt => ?_⟩
    by_contra hm
    have hm : r'.matches w = true := by simpa using hm
    by_cases hs' : isSpecial r' = true
    · have h3 : r'.group = 3 := by simpa using List.all_eq_true.1 specials_group r' (mem_specials hr' hs')
      rcases special_overlap (mem_specials hr' hs') hr (by omega) hm h with e | e | e
      · subst e; omega
      · exact h2 e
      · have : (allRows.all fun r => !isVdupX r || r.group == 3) = true := by decide +kernel
        have := List.all_eq_true.1 this r hr
        simp [e.2] at this
        omega
    · have := unique_match hr hr' hs (by simpa using hs') h hm
      subst this; omega
  refine ⟨hd, fun hv r' hd' => ?_⟩
  rcases C35_unique_partial w r r' hd hd' with e | ⟨e, -⟩ | ⟨-, e⟩
  · exact e.symm
  · exact absurd e (by simp only [List.mem_cons, not_or] at h1; exact h1.1)
  · rw [hv] at e; exact absurd e Bool.false_ne_true

/-- C36: `acset`, `actr` and `adwinit` encoded with `func1 = 1`, `form = 2` are decoded to themselves only. -/
theorem C36_accumulator (w : BitVec 32) (r : Row) (hr : r ∈ allRows) (h : r.matches w = true)
    (h1 : r.name ∈ [[.acset], [.actr], [.adwinit]]) (hf : Spec.bitsAt w 2 3 = 1 ∧ Spec.bitsAt w 0 2 = 2) :
    Decodes w r ∧ ∀ r', Decodes w r' → r' = r := by
  have hs : isSpecial r = true := by
    simp only [List.mem_cons, List.not_mem_nil, or_false] at h1
    rcases h1 with e | e | e <;> simp [isSpecial, Row.isAcset, Row.isAdwinit, e]
  have hf : AccForm w := ⟨(field_eq ..).trans hf.1, (field_eq ..).trans hf.2⟩
  have hap := List.all_eq_true.1 accRow_apart r (mem_specials hr hs)
  have only : ∀ r' ∈ allRows, r'.matches w = true → r' = r := by
    intro r' hr' hm
    have := List.all_eq_true.1 hap r' hr'
    simp only [Bool.or_eq_true, beq_iff_eq] at this
    rcases this with e | e
    · exact e
    · exact (conflict_disj e w (accRow_matches h hf) hm).elim
  refine ⟨⟨hr, h, fun r' hr' hlt => ?_⟩, fun r' hd => only r' hd.1 hd.2.1⟩
  by_contra hm
  have := only r' hr' (by simpa using hm)
  subst this; omega

/-- C36, negative part: each of the 24 listed lines (some `vdmulh`, `vsrans`, `vsransu` and `vsel`) has a
word that satisfies it but is not decoded to it: a line of an earlier group takes it. -/
theorem C36_shadowed (r : Row) (hr : r ∈ allRows) (h : r.name ∈ shadowed) :
    ∃ w, r.matches w = true ∧ ¬ Decodes w r := by
  have := List.all_eq_true.1 allRows_shadowOk r hr
  have hc : shadowed.contains r.name = true := by simpa using h
  simp only [shadowOk, hc, Bool.not_true, Bool.false_or, Bool.and_eq_true, decide_eq_true_eq,
    List.any_eq_true, beq_iff_eq] at this
  obtain ⟨⟨hm, hg⟩, sp, hsp, h3, hm'⟩ := this
  refine ⟨_, hm, fun hd => ?_⟩
  have hsp' : sp ∈ allRows := (List.mem_filter.1 hsp).1
  have := hd.2.2 sp hsp' (by omega)
  rw [hm'] at this
  exact absurd this (by decide)

/-- The 24 names do occur in the tables. -/
example : shadowed.length = 24 ∧ shadowed.all (fun n => allRows.any fun r => r.name == n) = true := by
  refine ⟨rfl, ?_⟩
  decide +kernel

/-- `vadd.w.vx.m` (`v8`, `v4`, `x5`) meets the hypotheses of `C36_decodes_partial`. -/
example : ∃ r ∈ allRows, r.matches 0x00512222#32 = true ∧ r.name = [.vadd, .w, .vx, .m] ∧
    r.name ∉ [[.acset], [.actr], [.adwinit]] ∧ r.name ∉ shadowed := by
  have : (allRows.any fun r => r.matches 0x00512222#32 && r.name == [.vadd, .w, .vx, .m]) = true := by decide +kernel
  simp only [List.any_eq_true, Bool.and_eq_true, beq_iff_eq] at this
  obtain ⟨r, hr, hm, hn⟩ := this
  exact ⟨r, hr, hm, hn, by rw [hn]; decide, by rw [hn]; decide⟩

/-- `acset.v v48, v16` as encoded by the repository's own test meets those of `C36_accumulator`. -/
example : ∃ r ∈ allRows, r.matches 0x40040c06#32 = true ∧ r.name = [.acset] ∧
    Spec.bitsAt 0x40040c06#32 2 3 = 1 ∧ Spec.bitsAt 0x40040c06#32 0 2 = 2 := by
  have : (allRows.any fun r => r.matches 0x40040c06#32 && r.name == [.acset]) = true := by decide +kernel
  simp only [List.any_eq_true, Bool.and_eq_true, beq_iff_eq] at this
  obtain ⟨r, hr, hm, hn⟩ := this
  exact ⟨r, hr, hm, hn, by decide, by decide⟩

/-! ## C37 -/

/-- C37: a lane instruction is executed on the registers named by the fields of the word: destination
`vd`, sources `vs1` and `vs2` (a scalar register when the instruction is of the `vx` form), four
registers each when the `m` bit is set. The widening of the groups is that of the operation. -/
theorem C37_operands (maxPhys : Nat) (fresh : Nat → VReg) (r : Row) (hr : r ∈ allRows) (w : BitVec 32)
    (h : r.matches w = true) (op : VOp) (sc st : Bool) (hs : r.sem = .vec op sc st) (s : Arch) :
    execRow maxPhys fresh r w s = some (do
      let v ← op.run { vd := Spec.bitsAt w 6 6, vs1 := Spec.bitsAt w 14 6,
                       op2 := if sc then .scalar (if Spec.bitsAt w 20 6 = 0 then 0 else s.x (Spec.bitsAt w 20 6 % 32))
                              else .vreg (Spec.bitsAt w 20 6),
                       strip := st } s.v
      .ok (false, { s with v := v })) := by
  rw [exec_vec maxPhys fresh hr h hs s]
  simp only [instOf, xs2, fVd, fVs1, fVs2, field_eq]

/-- The instructions for which completion needs more: the 32-bit shifts by a signed amount, the depthwise
convolutions, and the accumulator instructions. -/
def needsMore (r : Row) : Bool :=
  (r.name.head? == some .vsha || r.name.head? == some .vshl) && r.name.contains .w ||
    [[.acset], [.actr], [.adwinit], [.adwconv, .vxv], [.vdwconv, .vxv]].contains r.name

set_option maxRecDepth 100000 in
/-- C37: every word that satisfies the line of a vector instruction not listed in `needsMore` is executed
to completion from every state: no access outside the groups built by the decoder, no operand of the
wrong kind, no other undefined behaviour. -/
theorem C37_completes (maxPhys : Nat) (fresh : Nat → VReg) (r : Row) (hr : r ∈ allRows) (w : BitVec 32)
    (h : r.matches w = true) (hs : r.sem ≠ .scalar) (hn : needsMore r = false) (s : Arch) :
    ∃ trap s', execRow maxPhys fresh r w s = some (.ok (trap, s')) := by
  have : (allRows.all fun r => needsMore r || !conditional r) = true := by decide +kernel
  have := List.all_eq_true.1 this r hr
  simp only [hn, Bool.false_or, Bool.not_eq_true'] at this
  refine exec_total maxPhys fresh hr h hs ?_ s
  unfold conditional at this
  unfold formOk
  split at this <;> first | exact this | (exact absurd this (by decide)) | skip
  exact trivial

/-- C37 for the accumulator instructions, in the encoding `func1 = 1`, `form = 2`. -/
theorem C37_accumulator (maxPhys : Nat) (fresh : Nat → VReg) (r : Row) (hr : r ∈ allRows) (w : BitVec 32)
    (h : r.matches w = true) (h1 : r.name ∈ [[.acset], [.actr], [.adwinit]])
    (hf : Spec.bitsAt w 2 3 = 1 ∧ Spec.bitsAt w 0 2 = 2) (s : Arch) :
    ∃ s', execRow maxPhys fresh r w s = some (.ok (false, s')) := by
  have hf : AccForm w := ⟨(field_eq ..).trans hf.1, (field_eq ..).trans hf.2⟩
  have key : (allRows.all fun r => !([[.acset], [.actr], [.adwinit]].contains r.name) ||
      (r.sem == .acset false || r.sem == .acset true || r.sem == .adwinit)) = true := by decide +kernel
  have := List.all_eq_true.1 key r hr
  have hc : [[Tok.acset], [.actr], [.adwinit]].contains r.name = true := by simpa using h1
  simp only [hc, Bool.not_true, Bool.false_or, Bool.or_eq_true, beq_iff_eq] at this
  have hacc : ∀ t, r.sem = .acset t → ∃ s', execRow maxPhys fresh r w s = some (.ok (false, s')) := by
    intro t e
    obtain ⟨n, hn, h'⟩ := exec_acset maxPhys fresh hr h hf e s
    rw [h', acset_len _ _ _ hn, acset_run]; exact ⟨_, rfl⟩
  rcases this with (e | e) | e
  · exact hacc _ e
  · exact hacc _ e
  · obtain ⟨n, hn, h'⟩ := exec_adwinit maxPhys fresh hr hf e s
    obtain ⟨p, hp⟩ := adwinit_total (fVs1 w) (fVd w) fresh s.v s.dw
    rw [h', adwinit_len _ _ _ hn, hp]; exact ⟨_, rfl⟩

/-- C37 for the 32-bit shifts by a signed amount, which fail exactly as described in C13. -/
theorem C37_word_shift_partial (maxPhys : Nat) (fresh : Nat → VReg) (r : Row) (hr : r ∈ allRows) (w : BitVec 32)
    (h : r.matches w = true) (round : Bool) (T : CTy) (hT : T.bits = 32) (st sc : Bool)
    (hs : r.sem = .vec (.bin (.shift round) T) sc st) (s : Arch) (i : VInst)
    (hi : i = { vd := Spec.bitsAt w 6 6, vs1 := Spec.bitsAt w 14 6,
                op2 := if sc then .scalar (if Spec.bitsAt w 20 6 = 0 then 0 else s.x (Spec.bitsAt w 20 6 % 32))
                       else .vreg (Spec.bitsAt w 20 6),
                strip := st })
    (a1 : Spec.NoOverlap i.vd i.vs1 i.n) (a2 : i.op2.NoOverlap i.vd i.n)
    (hub : ∀ k < i.n, ∀ e < 8, Spec.lane T.signed 32 (s.v (i.vs1 + k)) e = 0 ∨
        Spec.wrap true 32 (i.op2.elem T.signed 32 s.v k e) ≠ -2147483648) :
    ∃ s', execRow maxPhys fresh r w s = some (.ok (false, s')) := by
  rw [C37_operands maxPhys fresh r hr w h _ sc st hs s, ← hi]
  obtain ⟨rf', h1, -⟩ := C13_vshift_partial round T (by omega) i s.v a1 a2 (by
    rw [hT]
    intro k hk e he hh
    rcases hub k hk e he with h0 | h0
    · exact hh.1 h0
    · exact h0 hh.2)
  rw [h1]; exact ⟨_, rfl⟩

/-- C37 for the depthwise convolutions: 9 activation registers, 4 weight registers and 4 destination
registers, the sizes for which C34 is proved. -/
theorem C37_dwconv (maxPhys : Nat) (fresh : Nat → VReg) (r : Row) (hr : r ∈ allRows) (w : BitVec 32)
    (h : r.matches w = true) (wr : Bool) (hs : r.sem = .dwconv wr) (s : Arch) :
    execRow maxPhys fresh r w s = some (do
      let p ← vdwconv wr (if Spec.bitsAt w 20 5 = 0 then 0 else s.x (Spec.bitsAt w 20 5)) (Spec.bitsAt w 14 6) 9
        (Spec.bitsAt w 26 6) 4 (Spec.bitsAt w 6 6) 4 s.v s.dw
      .ok (p.1, { s with v := p.2.1, dw := p.2.2 })) := by
  rw [exec_dwconv maxPhys fresh hr h hs s]
  simp only [xr, fVd, fVs1, fVs3, fRs2, field_eq]

/-- C37, negative part: `0x40040c08` is the encoding of `vsrans.b.vv v48, v16, v0`. It is decoded as `acset`
with a source group of two registers, of which `acset` reads eight. -/
theorem C37_acset_ub : ∃ r, Decodes 0x40040c08#32 r ∧ r.name = [.acset] ∧
    (∃ r' ∈ allRows, r'.name = [.vsrans, .b, .vv] ∧ r'.matches 0x40040c08#32 = true) ∧
    ∀ maxPhys fresh s, execRow maxPhys fresh r 0x40040c08#32 s = some .ub := by
  have h0 : (allRows.all fun r => !(decide (r.group < 3) && r.matches 0x40040c08#32)) = true := by decide +kernel
  have h1 : (allRows.any fun r => r.name == [.acset] && r.group == 3 && r.matches 0x40040c08#32 &&
    r.sem == .acset false && r.src == [.vs1]) = true := by decide +kernel
  have h2 : (allRows.any fun r => r.name == [.vsrans, .b, .vv] && r.matches 0x40040c08#32) = true := by decide +kernel
  simp only [List.any_eq_true, Bool.and_eq_true, beq_iff_eq] at h1 h2
  obtain ⟨r, hr, ⟨⟨⟨hn, hg⟩, hm⟩, hs⟩, hsrc⟩ := h1
  obtain ⟨r', hr', hn', hm'⟩ := h2
  refine ⟨r, ⟨hr, hm, fun q hq hlt => ?_⟩, hn, ⟨r', hr', hn', hm'⟩, fun maxPhys fresh s => ?_⟩
  · have := List.all_eq_true.1 h0 q hq
    simp only [Bool.not_eq_true', Bool.and_eq_false_iff, decide_eq_false_iff_not] at this
    rcases this with e | e
    · omega
    · exact e
  · have e : source r 0x40040c08#32 0 = some (.vgroup 16 2) := by
      have e1 : fForm 0x40040c08#32 = 0 := by decide
      have e2 : fM 0x40040c08#32 = false := by decide
      have e3 : fVs1 0x40040c08#32 = 16 := by decide
      have e4 : src1Bits (fFunc1 0x40040c08#32) (fFunc2 0x40040c08#32) (fSz 0x40040c08#32) = 2 := by decide
      simp [source, hsrc, srcOpd, srcVs1, e1, e2, e3, src1Factor, e4, Row.isDw, Row.isAdwinit, hn, numOpsOf]
    simp only [execRow, hs, e, SrcOpd.group, Outcome.ok_bind]
    rfl

/-- `vevn.h.vv.m` and `vld.w.sp.xx` (a lane and a memory instruction) are among the instructions of
`C37_completes`, and `vsha.w.vv` of `C37_word_shift_partial`. -/
example : (∃ r ∈ allRows, r.name = [.vevn, .h, .vv, .m] ∧ r.sem ≠ .scalar ∧ needsMore r = false) ∧
    (∃ r ∈ allRows, r.name = [.vld, .w, .sp, .xx] ∧ r.sem ≠ .scalar ∧ needsMore r = false) ∧
    (∃ r ∈ allRows, r.name = [.vsha, .w, .vv] ∧ r.sem = .vec (.bin (.shift false) .i32) false false) := by
  have h1 : (allRows.any fun r => r.name == [.vevn, .h, .vv, .m] && r.sem != .scalar && !needsMore r) = true := by
    decide +kernel
  have h2 : (allRows.any fun r => r.name == [.vld, .w, .sp, .xx] && r.sem != .scalar && !needsMore r) = true := by
    decide +kernel
  have h3 : (allRows.any fun r => r.name == [.vsha, .w, .vv] && r.sem == .vec (.bin (.shift false) .i32) false false) = true := by
    decide +kernel
  simp only [List.any_eq_true, Bool.and_eq_true, beq_iff_eq, bne_iff_ne, Bool.not_eq_true'] at h1 h2 h3
  obtain ⟨a, ha, ⟨a1, a2⟩, a3⟩ := h1
  obtain ⟨b, hb, ⟨b1, b2⟩, b3⟩ := h2
  obtain ⟨c, hc, c1, c2⟩ := h3
  exact ⟨⟨a, ha, a1, a2, a3⟩, ⟨b, hb, b1, b2, b3⟩, ⟨c, hc, c1, c2⟩⟩

/-! ## C38 -/

set_option maxRecDepth 100000 in
/-- C38: every word of a line of the RV32IM listing, except the two kinds of `C38_jalr_hole` and
`C38_addi_hole`, is decoded to that instruction (or to its assembler alias), and to nothing else. -/
theorem C38_rv32im_partial (e : Spec.StdEnc) (he : e ∈ Spec.rv32im) (w : BitVec 32) (h : e.Is w)
    (h1 : ¬ Spec.JalrHole w) (h2 : ¬ Spec.AddiHole w) :
    ∃ r, Decodes w r ∧ r.name ∈ Spec.aliases e.name ∧ ∀ r', Decodes w r' → r' = r := by
  have hnm := List.all_eq_true.1 std_names e he
  have hsplit := List.all_eq_true.1 std_covered e he
  obtain ⟨p, hp, hpe, hpn⟩ := splits_cover w splitFlds
  have hc := List.all_eq_true.1 hsplit p hp
  simp only [Bool.or_eq_true] at hc
  have hcov : covered (Spec.aliases e.name) (stdFlds e ++ p.1) p.2 = true := by
    rcases hc with hc | hc
    · exfalso
      simp only [holeSplit, Bool.or_eq_true, Bool.and_eq_true, beq_iff_eq, List.contains_iff_mem] at hc
      simp only [Bool.and_eq_true, Bool.or_eq_true, bne_iff_ne, beq_iff_eq] at hnm
      obtain ⟨i1, i2, i3⟩ := h
      have F : ∀ a b c, (⟨a, b, c⟩ : Fld) ∈ p.1 → Spec.bitsAt w a b = c := fun a b c hm => by
        rw [← field_eq]; exact hpe _ hm
      have G : ∀ a b c, (⟨a, b, c⟩ : Fld) ∈ p.2 → Spec.bitsAt w a b ≠ c := fun a b c hm => by
        rw [← field_eq]; exact hpn _ hm
      rcases hc with ⟨⟨⟨hn, m1⟩, m2⟩, m3⟩ | ⟨⟨⟨hn, m1⟩, m2⟩, m3⟩
      · rcases hnm.1 with x | x
        · exact x hn
        · subst x
          exact h1 ⟨i1, i2 0 rfl, F _ _ _ m1, F _ _ _ m2, G _ _ _ m3⟩
      · rcases hnm.2 with x | x
        · exact x hn
        · subst x
          exact h2 ⟨i1, i2 0 rfl, F _ _ _ m1, F _ _ _ m2, G _ _ _ m3⟩
    · exact hc
  obtain ⟨r, hd, hname⟩ := covered_decodes hcov (w := w) (by
    intro f hf
    rcases List.mem_append.1 hf with hf | hf
    · exact stdFlds_holds h f hf
    · exact hpe f hf) hpn
  refine ⟨r, hd, hname, fun r' hd' => ?_⟩
  have key : (Spec.rv32im.all fun e => (Spec.aliases e.name).all fun n => n != [.acset] && n.head? != some .vdup) = true := by
    decide +kernel
  have key := List.all_eq_true.1 key e he
  have key := List.all_eq_true.1 key _ hname
  simp only [Bool.and_eq_true, bne_iff_ne] at key
  rcases C35_unique_partial w r r' hd hd' with x | ⟨x, -⟩ | ⟨-, x⟩
  · exact x.symm
  · exact absurd x key.1
  · exfalso
    have : (allRows.all fun r => !isVdupX r || r.name.head? == some .vdup) = true := by decide +kernel
    have := List.all_eq_true.1 this r hd.1
    simp only [x, Bool.not_true, Bool.false_or, beq_iff_eq] at this
    exact key.2 this

/-- C38: `ecall` and `ebreak`. -/
theorem C38_system : (∃ r, Decodes 0x00000073#32 r ∧ r.name = [.ecall]) ∧ (∃ r, Decodes 0x00100073#32 r ∧ r.name = [.ebreak]) := by
  have h1 : (allRows.any fun r => r.name == [.ecall] && r.group == 0 && r.matches 0x00000073#32) = true := by decide +kernel
  have h2 : (allRows.any fun r => r.name == [.ebreak] && r.group == 0 && r.matches 0x00100073#32) = true := by decide +kernel
  simp only [List.any_eq_true, Bool.and_eq_true, beq_iff_eq] at h1 h2
  obtain ⟨a, ha, ⟨a1, a2⟩, a3⟩ := h1
  obtain ⟨b, hb, ⟨b1, b2⟩, b3⟩ := h2
  exact ⟨⟨a, ⟨ha, a3, fun r _ h => by omega⟩, a1⟩, ⟨b, ⟨hb, b3, fun r _ h => by omega⟩, b1⟩⟩

/-- C38, negative part: `jalr x0, imm(x1)` with `imm ≠ 0` satisfies no line at all: a legal return with an
offset is an illegal instruction. -/
theorem C38_jalr_hole (w : BitVec 32) (h : Spec.JalrHole w) (r : Row) (hr : r ∈ allRows) : r.matches w = false := by
  by_contra hm
  have hm : r.matches w = true := by simpa using hm
  have hj : jalrHoleRow.matches w = true := by
    obtain ⟨h1, h2, h3, h4, h5⟩ := h
    simp only [← field_eq] at h1 h2 h3 h4 h5
    simp [jalrHoleRow, Row.matches, Fld.holds, h1, h2, h3, h4, h5]
  have := List.all_eq_true.1 holes_free r hr
  simp only [Bool.and_eq_true, Bool.or_eq_true] at this
  rcases this.1 with e | e
  · exact conflict_disj e w hj hm
  · exact guardConflict_disj e w hj hm

/-- C38, negative part: the hint `addi x0, x0, imm` with `imm ≠ 0` satisfies no line except possibly `adwinit`. -/
theorem C38_addi_hole (w : BitVec 32) (h : Spec.AddiHole w) (r : Row) (hr : r ∈ allRows) (hm : r.matches w = true) :
    r.name = [.adwinit] := by
  have hj : addiHoleRow.matches w = true := by
    obtain ⟨h1, h2, h3, h4, h5⟩ := h
    simp only [← field_eq] at h1 h2 h3 h4 h5
    simp [addiHoleRow, Row.matches, Fld.holds, h1, h2, h3, h4, h5]
  have := List.all_eq_true.1 holes_free r hr
  simp only [Bool.and_eq_true, Bool.or_eq_true] at this
  rcases this.2 with (e | e) | e
  · exact (conflict_disj e w hj hm).elim
  · exact (guardConflict_disj e w hj hm).elim
  · simpa [Row.isAdwinit] using e

/-- C38, negative part: the hint `addi x0, x0, 0x480` is decoded as `adwinit`, and executing it is undefined
(its source operand is a scalar, cast to a vector operand). -/
theorem C38_addi_adwinit : Spec.AddiHole 0x48000013#32 ∧ ∃ r, Decodes 0x48000013#32 r ∧ r.name = [.adwinit] ∧
    ∀ maxPhys fresh s, execRow maxPhys fresh r 0x48000013#32 s = some .ub := by
  refine ⟨⟨by decide, by decide, by decide, by decide, by decide⟩, ?_⟩
  have h0 : (allRows.all fun r => !(decide (r.group < 3) && r.matches 0x48000013#32)) = true := by decide +kernel
  have h1 : (allRows.any fun r => r.name == [.adwinit] && r.group == 3 && r.matches 0x48000013#32 &&
    r.sem == .adwinit && r.src == [.vs1]) = true := by decide +kernel
  simp only [List.any_eq_true, Bool.and_eq_true, beq_iff_eq] at h1
  obtain ⟨r, hr, ⟨⟨⟨hn, hg⟩, hm⟩, hs⟩, hsrc⟩ := h1
  refine ⟨r, ⟨hr, hm, fun q hq hlt => ?_⟩, hn, fun maxPhys fresh s => ?_⟩
  · have := List.all_eq_true.1 h0 q hq
    simp only [Bool.not_eq_true', Bool.and_eq_false_iff, decide_eq_false_iff_not] at this
    rcases this with e | e
    · omega
    · exact e
  · have e : source r 0x48000013#32 0 = some .zero := by
      have e1 : fForm 0x48000013#32 = 3 := by decide
      have e3 : fVs1 0x48000013#32 = 0 := by decide
      simp [source, hsrc, srcOpd, srcVs1, e1, e3]
    simp only [execRow, hs, e, SrcOpd.group]
    rfl

/-- `jalr x0, 4(x1)` is a word of the hole; `lw x5, 8(x6)` and `jalr x1, 4(x1)` meet the hypotheses of `C38_rv32im_partial`. -/
example : Spec.JalrHole 0x00408067#32 ∧
    (⟨.lw, 0b0000011, some 2, none⟩ ∈ Spec.rv32im ∧ Spec.StdEnc.Is ⟨.lw, 0b0000011, some 2, none⟩ 0x00832283#32 ∧
      ¬ Spec.JalrHole 0x00832283#32 ∧ ¬ Spec.AddiHole 0x00832283#32) ∧
    (Spec.StdEnc.Is ⟨.jalr, 0b1100111, some 0, none⟩ 0x004080e7#32 ∧ ¬ Spec.JalrHole 0x004080e7#32) := by
  refine ⟨⟨by decide, by decide, by decide, by decide, by decide⟩, ⟨by decide, ⟨by decide, ?_, ?_⟩, ?_, ?_⟩,
    ⟨by decide, ?_, ?_⟩, ?_⟩
  · intro f hf; cases hf; decide
  · intro f hf; cases hf
  · rintro ⟨h, -⟩; revert h; decide
  · rintro ⟨h, -⟩; revert h; decide
  · intro f hf; cases hf; decide
  · intro f hf; cases hf
  · rintro ⟨-, -, h, -⟩; revert h; decide

/-! ## C60 -/

set_option maxRecDepth 100000 in
/-- C60: every vector mnemonic is bound to the operation, lane type, rounding, operand form and
strip-mining it names. -/
theorem C60_mnemonic (r : Row) (hr : r ∈ allRows) (hs : r.sem ≠ .scalar) : Spec.meaning r.name = some r.sem := by
  have h : (allRows.all fun r => r.sem == .scalar || decide (Spec.meaning r.name = some r.sem)) = true := by decide +kernel
  have := List.all_eq_true.1 h r hr
  simp only [Bool.or_eq_true, beq_iff_eq, decide_eq_true_eq] at this
  exact this.resolve_left hs

set_option maxRecDepth 100000 in
/-- C60: the width field of the word is the width named by the mnemonic (0, 1, 2 for `b`, `h`, `w`), and the
strip-mine bit is set exactly for the `m` mnemonics. (`getvl` and `getmaxvl` encode both elsewhere, `vcget` has no
strip-mine bit.) -/
theorem C60_fields (r : Row) (hr : r ∈ allRows) (hs : r.sem ≠ .scalar) (w : BitVec 32) (h : r.matches w = true)
    (h1 : r.name.head? ≠ some .getvl) (h2 : r.name.head? ≠ some .getmaxvl) :
    (∀ k, Spec.widthOf r.name = some k → Spec.bitsAt w 12 2 = k) ∧
    (r.name.head? ∉ [some .vcget, some .aconv, some .adwconv, some .vdwconv] →
      Spec.bitsAt w 5 1 = if .m ∈ r.name then 1 else 0) := by
  have key : (allRows.all fun r => r.sem == .scalar || r.name.head? == some .getvl || r.name.head? == some .getmaxvl ||
      ((match Spec.widthOf r.name with | some k => fixedFld r 12 2 == some k | none => true) &&
      ([some .vcget, some .aconv, some .adwconv, some .vdwconv].contains r.name.head? ||
        fixedFld r 5 1 == some (if .m ∈ r.name then 1 else 0)))) = true := by decide +kernel
  have := List.all_eq_true.1 key r hr
  simp only [Bool.or_eq_true, beq_iff_eq, Bool.and_eq_true, List.contains_iff_mem, hs, h1, h2, false_or] at this
  obtain ⟨a, b⟩ := this
  refine ⟨fun k hk => ?_, fun hn => ?_⟩
  · rw [hk] at a
    rw [← field_eq]
    exact fixedFld_field h (by simpa using a)
  · rw [← field_eq]
    exact fixedFld_field h (b.resolve_left hn)

/-! ## C61 -/

/-- The instructions whose disassembly names another instruction. -/
def misprinted : List (List Tok) :=
  [[.vdwconv, .vxv], [.vst, .w, .p, .xx, .m], [.vstq, .b, .sp, .xx], [.vstq, .h, .sp, .xx], [.vstq, .w, .sp, .xx],
   [.vstq, .b, .sp, .xx, .m], [.vstq, .h, .sp, .xx, .m], [.vstq, .w, .sp, .xx, .m]]

set_option maxRecDepth 100000 in
/-- C61: the mnemonic printed by the disassembler names the operation that is executed, except for the 8
instructions of `misprinted`. -/
theorem C61_disasm_partial (r : Row) (hr : r ∈ allRows) (hs : r.sem ≠ .scalar) (hm : r.name ∉ misprinted) :
    Spec.meaning r.disasm = some r.sem := by
  have h : (allRows.all fun r => r.sem == .scalar || misprinted.contains r.name ||
    decide (Spec.meaning r.disasm = some r.sem)) = true := by decide +kernel
  have := List.all_eq_true.1 h r hr
  simp only [Bool.or_eq_true, beq_iff_eq, decide_eq_true_eq, List.contains_iff_mem, hs, hm, false_or] at this
  exact this

set_option maxRecDepth 100000 in
/-- C61, negative part: each of the 8 prints a mnemonic that means something else. -/
theorem C61_misprinted (n : List Tok) (hn : n ∈ misprinted) :
    ∃ r ∈ allRows, r.name = n ∧ ∃ m, Spec.meaning r.disasm = some m ∧ m ≠ r.sem := by
  have h : (misprinted.all fun n => allRows.any fun r => r.name == n &&
    ((Spec.meaning r.disasm).any fun m => m != r.sem)) = true := by decide +kernel
  have := List.all_eq_true.1 h n hn
  simp only [List.any_eq_true, Bool.and_eq_true, beq_iff_eq, Option.any_eq_true, bne_iff_ne] at this
  exact this

/-! ## C62 -/

/-- C62: executing a vector instruction changes no scalar register, except the address register of a
post-increment memory instruction and the destination of `getvl`. -/
theorem C62_scalar_frame (maxPhys : Nat) (fresh : Nat → VReg) (r : Row) (hr : r ∈ allRows) (w : BitVec 32)
    (h : r.matches w = true) (s s' : Arch) (trap : Bool) (he : execRow maxPhys fresh r w s = some (.ok (trap, s')))
    (q : Nat) (hq : q ≠ Spec.bitsAt w 15 5) (hd : q ≠ Spec.bitsAt w 7 5) : s'.x q = s.x q := by
  refine exec_x maxPhys fresh hr h s s' trap he q ?_
  have e1 : fVs1 w / 2 = Spec.bitsAt w 15 5 := by
    have := field_eq w 14 6
    rw [fVs1, this, Spec.bitsAt, Spec.bitsAt]
    omega
  have e2 : fRd w = Spec.bitsAt w 7 5 := field_eq ..
  have hv : (if fRd w = 0 then none else some (fRd w)) ≠ some q := by
    split
    · exact nofun
    · intro hh; cases hh; exact hd e2
  have hp : ∀ p : Bool, (if p = true ∧ fVs1 w ≠ 0 then some (fVs1 w / 2) else none) ≠ some q := by
    intro p
    split
    · intro hh; cases hh; exact hq e1
    · exact nofun
  unfold writesX
  split <;> first | exact hp _ | exact hv | exact nofun

/-- C62: the register `x0` keeps its value, unless the instruction is a post-increment memory instruction whose
address field holds 1, the second encoding of `x0` (`C62_x0_written`). -/
theorem C62_x0_partial (maxPhys : Nat) (fresh : Nat → VReg) (r : Row) (hr : r ∈ allRows) (w : BitVec 32)
    (h : r.matches w = true) (hf : Spec.bitsAt w 14 6 ≠ 1)
    (s s' : Arch) (trap : Bool) (he : execRow maxPhys fresh r w s = some (.ok (trap, s'))) : s'.x 0 = s.x 0 := by
  refine exec_x maxPhys fresh hr h s s' trap he 0 ?_
  have e1 : fVs1 w = Spec.bitsAt w 14 6 := field_eq ..
  unfold writesX
  split
  iterate 3
    split
    · rename_i hh; intro hz; simp only [Option.some.injEq] at hz; omega
    · exact nofun
  · split
    · exact nofun
    · rename_i hh; intro hz; simp only [Option.some.injEq] at hz; exact hh hz
  · exact nofun

/-- Executing decoded words one after the other. -/
inductive Runs (maxPhys : Nat) (fresh : Nat → VReg) : List (BitVec 32) → Arch → Arch → Prop
  | nil (s : Arch) : Runs maxPhys fresh [] s s
  | cons {w : BitVec 32} {ws : List (BitVec 32)} {r : Row} {trap : Bool} {s s1 s2 : Arch} (hd : Decodes w r)
      (he : execRow maxPhys fresh r w s = some (.ok (trap, s1))) (h : Runs maxPhys fresh ws s1 s2) :
      Runs maxPhys fresh (w :: ws) s s2

/-- C62, for a whole sequence of vector instructions: `x0` stays 0. -/
theorem C62_x0_program_partial (maxPhys : Nat) (fresh : Nat → VReg) (ws : List (BitVec 32)) (s s' : Arch)
    (h : Runs maxPhys fresh ws s s') (hf : ∀ w ∈ ws, Spec.bitsAt w 14 6 ≠ 1) (h0 : s.x 0 = 0) : s'.x 0 = 0 := by
  induction h with
  | nil => exact h0
  | cons hd he _ ih =>
    refine ih (fun w hw => hf w (by simp [hw])) ?_
    rw [C62_x0_partial maxPhys fresh _ hd.1 _ hd.2.1 (hf _ (by simp)) _ _ _ he, h0]

/-- A state with all registers 0. -/
def zeroArch : Arch := ⟨fun _ => 0, fun _ => 0, fun _ => 0, fun _ _ => 0, fun _ => none⟩

/-- C62, negative part: the word `0x1000421f`, `vld.b.p.x v8` with address field 1, sets `x0` to 32, and any later
instruction that names `x0` by its second encoding reads 32. -/
theorem C62_x0_written : ∃ r s', Decodes 0x1000421f#32 r ∧ r.name = [.vld, .b, .p, .x] ∧
    (∀ fresh, execRow 0xffffffff fresh r 0x1000421f#32 zeroArch = some (.ok (false, s'))) ∧ s'.x 0 = 32 := by
  have h1 : (allRows.any fun r => r.name == [.vld, .b, .p, .x] && r.matches 0x1000421f#32 &&
    r.sem == .vld .i8 false false false false true) = true := by decide +kernel
  simp only [List.any_eq_true, Bool.and_eq_true, beq_iff_eq] at h1
  obtain ⟨r, hr, ⟨hn, hm⟩, hs⟩ := h1
  have hd := (C36_decodes_partial 0x1000421f#32 r hr hm (by rw [hn]; decide) (by rw [hn]; decide)).1
  have hk : Form (memInst r 0x1000421f#32 .i8 false false false false true) .unit := ⟨rfl, rfl, rfl⟩
  obtain ⟨m, hm', -, -, -, hx⟩ := vld_run _ .unit hk 0xffffffff (memState zeroArch)
  refine ⟨r, memBack zeroArch m, hd, hn, fun fresh => ?_, ?_⟩
  · rw [(exec_vld 0xffffffff fresh hr hm hs zeroArch).2, hm']; rfl
  · show m.x 1 = 32
    rw [hx 1]
    have e1 : (memInst r 0x1000421f#32 .i8 false false false false true).rs1 = 1 := by
      have h1 : fForm 0x1000421f#32 = 3 := by decide
      have h2 : fVs1 0x1000421f#32 = 1 := by decide
      simp [memInst, srcVs1, h1, h2, scalarIdx]
    rw [if_pos ⟨rfl, e1.symm, by decide⟩]
    simp only [access, e1, Spec.Access.count, Spec.Access.cap, Spec.lanes]
    simp [memInst, Spec.effBase, Spec.scalar, memState, zeroArch, CTy.bits, Spec.PostInc.bytes]

/-- `vld.b.p.x v8, x1` and `vadd.w.vx.m v8, v4, x5`. -/
example : ∀ w ∈ [0x1000c21f#32, 0x00512222#32], Spec.bitsAt w 14 6 ≠ 1 := by
  intro w hw
  simp only [List.mem_cons, List.not_mem_nil, or_false] at hw
  rcases hw with rfl | rfl <;> decide

end Verif.Props
