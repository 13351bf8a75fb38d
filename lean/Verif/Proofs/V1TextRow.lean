import Verif.Proofs.V1Text

/-! # The row and the operands determine the execution -/

namespace Verif.Proofs.Text
open Verif Verif.Model Verif.Model.Text Verif.Proofs

/-! ## The mnemonic determines the row -/

theorem nodup_buckets {l : List Nat} {k : Nat} (hk : 0 < k)
    (h : ((List.range k).all fun i => decide (l.filter (fun a => a % k == i)).Nodup) = true) : l.Nodup := by
  rw [List.nodup_iff_count]
  intro a
  have := List.all_eq_true.1 h (a % k) (List.mem_range.2 (Nat.mod_lt _ hk))
  have := List.nodup_iff_count.1 (of_decide_eq_true this) a
  rwa [List.count_filter (by simp)] at this

/-- A number for a mnemonic. -/
def key (p : Row × List Piece) : Nat := p.1.disasm.foldl (fun a t => 512 * a + (t.ctorIdx + 1)) 0

/-- The instructions whose printed mnemonic is that of another instruction. -/
def twins : List (List Tok) :=
  [[.vdwconv, .vxv], [.vst, .w, .p, .xx, .m], [.vstq, .b, .sp, .xx], [.vstq, .h, .sp, .xx], [.vstq, .w, .sp, .xx],
   [.vstq, .b, .sp, .xx, .m], [.vstq, .h, .sp, .xx, .m], [.vstq, .w, .sp, .xx, .m]]

set_option maxRecDepth 100000 in
theorem keys_ok : ((List.range 61).all fun i =>
    decide (((rows.filter fun p => !twins.contains p.1.name).map key).filter (fun a => a % 61 == i)).Nodup) = true := by
  decide +kernel

theorem inj_of_nodup_map {α β : Type} {f : α → β} : ∀ {l : List α}, (l.map f).Nodup → ∀ {a b : α}, a ∈ l → b ∈ l → f a = f b → a = b
  | [], _, _, _, h, _, _ => by simp at h
  | c :: l, hn, a, b, ha, hb, e => by
    rw [List.map_cons, List.nodup_cons] at hn
    rcases List.mem_cons.1 ha with ea | ha' <;> rcases List.mem_cons.1 hb with eb | hb'
    · rw [ea, eb]
    · exact absurd (by rw [← ea, e]; exact List.mem_map_of_mem hb') hn.1
    · exact absurd (by rw [← eb, ← e]; exact List.mem_map_of_mem ha') hn.1
    · exact inj_of_nodup_map hn.2 ha' hb' e

theorem row_unique {p q : Row × List Piece} (hp : p ∈ rows) (hq : q ∈ rows) (np : p.1.name ∉ twins) (nq : q.1.name ∉ twins)
    (h : p.1.disasm = q.1.disasm) : p = q := by
  refine inj_of_nodup_map (nodup_buckets (by decide) keys_ok) (List.mem_filter.2 ⟨hp, by simpa using np⟩)
    (List.mem_filter.2 ⟨hq, by simpa using nq⟩) ?_
  unfold key
  rw [h]

theorem row_mem {p : Row × List Piece} (hp : p ∈ rows) : p.1 ∈ allRows ∧ p.1.sem ≠ .scalar := by
  have h1 : p.1 ∈ vecRows := (List.of_mem_zip (show (p.1, p.2) ∈ _ from hp)).1
  simpa [vecRows] using h1

/-! ## The fields outside the operands -/

/-- What the operand getters look at besides the register numbers. -/
structure SameCtl (r : Row) (w w' : BitVec 32) : Prop where
  form : fForm w = fForm w'
  m : fM w = fM w'
  factor : src1Factor r w = src1Factor r w'
  widen : r.isAconv = true ∨ isWidenDst r w = isWidenDst r w'

/-- The row fixes these fields. -/
def ctlOk (r : Row) : Bool :=
  match r.sem with
  | .scalar | .getvl .. | .vcget => true
  | .acset _ | .adwinit => fixedFld r 5 1 != none && fixedFld r 26 6 != none
  | .aconv => r.isAconv && fixedFld r 5 1 != none && fixedFld r 0 3 == some 5 && fixedFld r 3 2 == some 0
  | .dwconv _ => fixedFld r 5 1 != none && fixedFld r 0 3 == some 5 && fixedFld r 3 2 == some 2
  | _ => fixedFld r 5 1 != none && fixedFld r 0 2 != none &&
      match fixedFld r 2 3, fixedFld r 26 6 with
      | some f1, some f2 => fixedFld r 12 2 != none || [1, 2, 3].all fun sz => src1Bits f1 f2 sz == src1Bits f1 f2 0
      | _, _ => false

set_option maxRecDepth 100000 in
theorem allRows_ctlOk : allRows.all ctlOk = true := by decide +kernel

theorem fixed_same {r : Row} {w w' : BitVec 32} (h : r.matches w = true) (h' : r.matches w' = true) {p n : Nat}
    (hf : fixedFld r p n ≠ none) : field w p n = field w' p n := by
  cases e : fixedFld r p n with
  | none => exact absurd e hf
  | some v => rw [fixedFld_field h e, fixedFld_field h' e]

/-- Rows that do not constrain `func1` and `form`. -/
def isAcc (r : Row) : Bool :=
  match r.sem with
  | .acset _ | .adwinit => true
  | _ => false

theorem src1Bits_acc (f2 sz : Nat) : src1Bits 1 f2 sz = 0 := by simp [src1Bits]
theorem src1Bits_dw (f2 sz : Nat) : src1Bits 5 f2 sz = 0 := by simp [src1Bits]

theorem sameCtl {r : Row} (hr : r ∈ allRows) {w w' : BitVec 32} (h : r.matches w = true) (h' : r.matches w' = true)
    (hs : r.sem ≠ .scalar) (hv : r.sem ≠ .vcget) (hg : ∀ T a b c, r.sem ≠ .getvl T a b c)
    (ha : isAcc r = true → AccForm w ∧ AccForm w') : SameCtl r w w' := by
  have hok := List.all_eq_true.1 allRows_ctlOk r hr
  have conv : ∀ k, fixedFld r 0 3 = some 5 → fixedFld r 3 2 = some k → ∀ u, r.matches u = true →
      fForm u = 1 ∧ fFunc1 u = 1 + 2 * k := by
    intro k h0 h3 u hu
    have e0 : field u 0 3 = 5 := fixedFld_field hu h0
    have e3 : field u 3 2 = k := fixedFld_field hu h3
    exact ⟨by rw [fForm, (field_sub u).1, e0], by rw [fFunc1, (field_sub u).2, e0, e3]⟩
  have main : (fixedFld r 5 1 != none && fixedFld r 0 2 != none &&
      match fixedFld r 2 3, fixedFld r 26 6 with
      | some f1, some f2 => fixedFld r 12 2 != none || [1, 2, 3].all fun sz => src1Bits f1 f2 sz == src1Bits f1 f2 0
      | _, _ => false) = true → SameCtl r w w' := by
    intro hok
    split at hok
    · rename_i f1 f2 e1 e2
      simp only [Bool.and_eq_true, bne_iff_ne, Bool.or_eq_true] at hok
      obtain ⟨⟨hm, hf⟩, hz⟩ := hok
      have a1 : fFunc1 w = f1 := fixedFld_field h e1
      have a1' : fFunc1 w' = f1 := fixedFld_field h' e1
      have a2 : fFunc2 w = f2 := fixedFld_field h e2
      have a2' : fFunc2 w' = f2 := fixedFld_field h' e2
      refine ⟨fixed_same h h' hf, ?_, ?_, .inr ?_⟩
      · rw [fM, fM, fixed_same h h' hm]
      · have : src1Bits f1 f2 (fSz w) = src1Bits f1 f2 (fSz w') := by
          rcases hz with hz | hz
          · rw [fSz, fSz, fixed_same h h' hz]
          · have all : ∀ sz, sz < 4 → src1Bits f1 f2 sz = src1Bits f1 f2 0 := by
              intro sz hlt
              simp only [List.all_cons, List.all_nil, Bool.and_eq_true, beq_iff_eq] at hz
              rcases (by omega : sz = 0 ∨ sz = 1 ∨ sz = 2 ∨ sz = 3) with rfl | rfl | rfl | rfl
              · rfl
              · exact hz.1
              · exact hz.2.1
              · exact hz.2.2.1
            rw [all (fSz w) (fld_lt w 12 2), all (fSz w') (fld_lt w' 12 2)]
        simp only [src1Factor, a1, a1', a2, a2', this]
      · simp only [isWidenDst, a1, a1', a2, a2']
    · simp at hok
  unfold ctlOk at hok
  cases hsem : r.sem with
  | scalar => exact absurd hsem hs
  | vcget => exact absurd hsem hv
  | getvl T a b c => exact absurd hsem (hg T a b c)
  | acset t =>
    simp only [hsem, Bool.and_eq_true, bne_iff_ne] at hok
    obtain ⟨⟨x1, x2⟩, y1, y2⟩ := ha (by simp [isAcc, hsem])
    have e2 : fFunc2 w = fFunc2 w' := fixed_same h h' hok.2
    exact ⟨by rw [x2, y2], by rw [fM, fM, fixed_same h h' hok.1],
      by simp only [src1Factor, x1, y1, src1Bits_acc], .inr (by simp only [isWidenDst, x1, y1, e2])⟩
  | adwinit =>
    simp only [hsem, Bool.and_eq_true, bne_iff_ne] at hok
    obtain ⟨⟨x1, x2⟩, y1, y2⟩ := ha (by simp [isAcc, hsem])
    have e2 : fFunc2 w = fFunc2 w' := fixed_same h h' hok.2
    exact ⟨by rw [x2, y2], by rw [fM, fM, fixed_same h h' hok.1],
      by simp only [src1Factor, x1, y1, src1Bits_acc], .inr (by simp only [isWidenDst, x1, y1, e2])⟩
  | aconv =>
    simp only [hsem, Bool.and_eq_true, bne_iff_ne, beq_iff_eq] at hok
    obtain ⟨⟨⟨ha, hm⟩, h0⟩, h3⟩ := hok
    obtain ⟨x2, x1⟩ := conv 0 h0 h3 w h
    obtain ⟨y2, y1⟩ := conv 0 h0 h3 w' h'
    have x1 : fFunc1 w = 1 := x1
    have y1 : fFunc1 w' = 1 := y1
    exact ⟨by rw [x2, y2], by rw [fM, fM, fixed_same h h' hm],
      by simp only [src1Factor, x1, y1, src1Bits_acc], .inl ha⟩
  | dwconv wr =>
    simp only [hsem, Bool.and_eq_true, bne_iff_ne, beq_iff_eq] at hok
    obtain ⟨⟨hm, h0⟩, h3⟩ := hok
    obtain ⟨x2, x1⟩ := conv 2 h0 h3 w h
    obtain ⟨y2, y1⟩ := conv 2 h0 h3 w' h'
    have x1 : fFunc1 w = 5 := x1
    have y1 : fFunc1 w' = 5 := y1
    exact ⟨by rw [x2, y2], by rw [fM, fM, fixed_same h h' hm],
      by simp only [src1Factor, x1, y1, src1Bits_dw], .inr (by simp [isWidenDst, x1, y1, widenBits])⟩
  | vec op sc st => exact main (by simpa only [hsem] using hok)
  | vld T a b c d e => exact main (by simpa only [hsem] using hok)
  | vst T a b c d e => exact main (by simpa only [hsem] using hok)
  | vstq T a b => exact main (by simpa only [hsem] using hok)
  | vdup T a => exact main (by simpa only [hsem] using hok)

/-! ## Operands -/

/-- With the same control fields, operands with the same first register are the same. -/
theorem srcOpd_same {r : Row} {w w' : BitVec 32} (c : SameCtl r w w') {o : Opd} {a b : SrcOpd}
    (ha : srcOpd r w o = some a) (hb : srcOpd r w' o = some b) (h : SameBase a b) : a = b := by
  obtain ⟨hf, hm, hk, -⟩ := c
  have key : ∀ {a b : SrcOpd}, SameBase a b → (∀ x n y k, a = .vgroup x n → b = .vgroup y k → n = k) → a = b := by
    intro a b h hn
    match a, b, h, hn with
    | .zero, .zero, _, _ => rfl
    | .xreg _, .xreg _, h, _ => exact congrArg _ h
    | .vgroup x n, .vgroup y k, h, hn =>
      have h : x = y := h
      rw [h, hn x n y k rfl rfl]
  refine key h ?_
  rintro x n y k rfl rfl
  cases o <;> simp only [srcOpd, Option.some.injEq, reduceCtorEq] at ha hb
  · unfold srcVs1 at ha hb
    rw [← hf, ← hm, ← hk] at hb
    split at ha
    · split at ha <;> cases ha
    · rename_i h3
      rw [if_neg h3] at hb
      split at ha <;> rename_i hd
      · rw [if_pos hd] at hb; cases ha; cases hb; rfl
      · rw [if_neg hd] at hb; cases ha; cases hb; rfl
  · unfold srcVs2 at ha hb
    rw [← hf, ← hm] at hb
    split at ha
    · split at ha <;> cases ha
    · rename_i h3
      rw [if_neg h3] at hb
      cases ha; cases hb; rfl
  · cases ha; cases hb; rfl
  · unfold srcVd at ha hb
    rw [← hm] at hb
    cases ha; cases hb; rfl
  · unfold srcRs at ha; split at ha <;> cases ha
  · unfold srcRs at ha; split at ha <;> cases ha

/-- The operands that the semantic functions use exist. -/
def usesOk (r : Row) : Bool :=
  let vd := (r.src ++ r.dst).contains .vd
  match r.sem with
  | .scalar | .acset _ | .aconv => true
  | .getvl _ _ b1 b2 => r.dst.contains .rd && (!b1 || r.src.contains .rs1) && (!b2 || r.src.contains .rs2)
  | .vld _ _ _ _ x _ | .vst _ _ _ _ x _ => vd && r.src.contains .vs1 && (!x || r.src.contains .vs2)
  | .vstq .. => vd && r.src.contains .vs1 && r.src.contains .vs2
  | _ => vd

set_option maxRecDepth 100000 in
theorem allRows_usesOk : allRows.all usesOk = true := by decide +kernel

set_option maxRecDepth 100000 in
theorem allRows_aconvOk : (allRows.all fun r => !r.isAconv || r.sem == .aconv) = true := by decide +kernel

/-- The instruction performed is determined by the row, the operands and the control fields. -/
theorem execRow_same (maxPhys : Nat) (fresh : Nat → VReg) {r : Row} (hr : r ∈ allRows) {w w' : BitVec 32}
    (c : SameCtl r w w') (hsrc : ∀ o ∈ r.src, srcOpd r w o = srcOpd r w' o)
    (hvd : .vd ∈ r.src ++ r.dst → fVd w = fVd w') (hsc : ∀ T a b c, r.sem ≠ .getvl T a b c) (s : Arch) :
    execRow maxPhys fresh r w s = execRow maxPhys fresh r w' s := by
  have hu := List.all_eq_true.1 allRows_usesOk r hr
  have hsource : ∀ k, source r w k = source r w' k := by
    intro k
    unfold source
    cases h : r.src[k]? with
    | none => rfl
    | some o => exact hsrc o (List.mem_of_getElem? h)
  have hlen : r.isAconv = false → dstVdLen r w = dstVdLen r w' := by
    intro ha
    unfold dstVdLen
    rw [c.m, c.widen.resolve_left (by rw [ha]; exact Bool.false_ne_true)]
  have hnot : ∀ {m}, r.sem = m → m ≠ .aconv → r.isAconv = false := by
    intro m hm hne
    have := List.all_eq_true.1 allRows_aconvOk r hr
    simp only [Bool.or_eq_true, Bool.not_eq_true', beq_iff_eq] at this
    exact this.resolve_right fun e => hne (hm.symm.trans e)
  have hvs1 : .vs1 ∈ r.src → srcVs1 r w = srcVs1 r w' := fun h => Option.some.inj (hsrc .vs1 h)
  have hvs2 : .vs2 ∈ r.src → srcVs2 r w = srcVs2 r w' := fun h => Option.some.inj (hsrc .vs2 h)
  have hmem : ∀ {T : CTy} {a b d x e : Bool}, .vd ∈ r.src ++ r.dst → .vs1 ∈ r.src → (x = false ∨ .vs2 ∈ r.src) →
      memInst r w T a b d x e = memInst r w' T a b d x e := by
    intro T a b d x e h1 h2 h3
    unfold memInst
    rw [hvd h1, hvs1 h2]
    rcases h3 with rfl | h3
    · rfl
    · rw [hvs2 h3]
  unfold usesOk at hu
  cases hs : r.sem with
  | scalar => simp only [execRow, hs]
  | getvl T a b c => exact absurd hs (hsc T a b c)
  | vec op sc st =>
    simp only [hs, List.contains_iff_mem] at hu
    simp only [execRow, hs, hsource, hvd hu, hlen (hnot hs nofun)]
  | vdup T st =>
    simp only [hs, List.contains_iff_mem] at hu
    simp only [execRow, hs, hsource, hvd hu, hlen (hnot hs nofun)]
  | vcget =>
    simp only [hs, List.contains_iff_mem] at hu
    simp only [execRow, hs, hvd hu, hlen (hnot hs nofun)]
  | acset t => simp only [execRow, hs, hsource]
  | aconv => simp only [execRow, hs, hsource]
  | adwinit =>
    simp only [hs, List.contains_iff_mem] at hu
    simp only [execRow, hs, hsource, hvd hu, hlen (hnot hs nofun)]
  | dwconv wr =>
    simp only [hs, List.contains_iff_mem] at hu
    simp only [execRow, hs, hsource, hvd hu, hlen (hnot hs nofun)]
  | vld T a b d x e =>
    simp only [hs, Bool.and_eq_true, List.contains_iff_mem, Bool.or_eq_true, Bool.not_eq_true'] at hu
    simp only [execRow, hs, hmem hu.1.1 hu.1.2 hu.2, c.form, hlen (hnot hs nofun)]
  | vst T a b d x e =>
    simp only [hs, Bool.and_eq_true, List.contains_iff_mem, Bool.or_eq_true, Bool.not_eq_true'] at hu
    have : srcVd w = srcVd w' := by rw [srcVd, srcVd, hvd hu.1.1, c.m]
    simp only [execRow, hs, hmem hu.1.1 hu.1.2 hu.2, c.form, this, hvd hu.1.1]
  | vstq T d e =>
    simp only [hs, Bool.and_eq_true, List.contains_iff_mem] at hu
    have : srcVd w = srcVd w' := by rw [srcVd, srcVd, hvd hu.1.1, c.m]
    simp only [execRow, hs, hmem hu.1.1 hu.1.2 (.inr hu.2), c.form, this, hvd hu.1.1]

/-- The scalar registers named by a `getvl`. -/
theorem execRow_getvl (maxPhys : Nat) (fresh : Nat → VReg) {r : Row} (hr : r ∈ allRows) {w w' : BitVec 32}
    {T : CTy} {a b c : Bool} (hs : r.sem = .getvl T a b c) (hrd : .rd ∈ r.src ++ r.dst → fRd w = fRd w')
    (h1 : .rs1 ∈ r.src → fRs1 w = fRs1 w') (h2 : .rs2 ∈ r.src → fRs2 w = fRs2 w') (s : Arch) :
    execRow maxPhys fresh r w s = execRow maxPhys fresh r w' s := by
  have hu := List.all_eq_true.1 allRows_usesOk r hr
  simp only [usesOk, hs, Bool.and_eq_true, List.contains_iff_mem, Bool.or_eq_true, Bool.not_eq_true'] at hu
  obtain ⟨⟨hd, u1⟩, u2⟩ := hu
  rw [exec_getvl _ _ hr hs, exec_getvl _ _ hr hs, hrd (by simp [hd])]
  rcases u1 with rfl | u1 <;> rcases u2 with rfl | u2
  · rfl
  · simp only [h2 u2, Bool.false_eq_true, if_false]
  · simp only [h1 u1, Bool.false_eq_true, if_false]
  · simp only [h1 u1, h2 u2]

end Verif.Proofs.Text
