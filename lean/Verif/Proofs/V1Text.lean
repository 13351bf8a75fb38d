import Verif.Model.V1Text
import Verif.Proofs.DecodeExec

/-! # Lemmas on the printed form of the vector instructions -/

namespace Verif.Proofs.Text
open Verif Verif.Model Verif.Model.Text Verif.Proofs

/-! ## Splitting at a separator -/

theorem split_sep {α : Type} {c : α} {a b x y : List α} (ha : c ∉ a) (hb : c ∉ b) (h : a ++ c :: x = b ++ c :: y) :
    a = b ∧ x = y := by
  induction a generalizing b with
  | nil =>
    cases b with
    | nil => exact ⟨rfl, by simpa using h⟩
    | cons d b =>
      simp only [List.nil_append, List.cons_append, List.cons.injEq] at h
      exact absurd (by rw [h.1]; exact List.mem_cons_self) hb
  | cons e a ih =>
    cases b with
    | nil =>
      simp only [List.nil_append, List.cons_append, List.cons.injEq] at h
      exact absurd (by rw [← h.1]; exact List.mem_cons_self) ha
    | cons d b =>
      simp only [List.cons_append, List.cons.injEq] at h
      obtain ⟨h1, h2⟩ := ih (fun m => ha (List.mem_cons_of_mem _ m)) (fun m => hb (List.mem_cons_of_mem _ m)) h.2
      exact ⟨by rw [h.1, h1], h2⟩

theorem join_inj : ∀ {l l' : List (List Char)}, (∀ a ∈ l, '.' ∉ a) → (∀ a ∈ l', '.' ∉ a) → l ≠ [] → l' ≠ [] →
    join l = join l' → l = l'
  | [], _, _, _, h, _, _ => absurd rfl h
  | _, [], _, _, _, h, _ => absurd rfl h
  | [a], [b], _, _, _, _, h => by
    have h : a = b := h
    rw [h]
  | [a], b :: c :: l, ha, _, _, _, h => by
    have h : a = b ++ '.' :: join (c :: l) := h
    exact absurd (by rw [h]; simp) (ha a List.mem_cons_self)
  | a :: b :: l, [c], _, hc, _, _, h => by
    have h : a ++ '.' :: join (b :: l) = c := h
    exact absurd (by rw [← h]; simp) (hc c List.mem_cons_self)
  | a :: b :: l, c :: d :: l', ha, hc, _, _, h => by
    have h : a ++ '.' :: join (b :: l) = c ++ '.' :: join (d :: l') := h
    obtain ⟨h1, h2⟩ := split_sep (ha a List.mem_cons_self) (hc c List.mem_cons_self) h
    rw [h1, join_inj (fun x hx => ha x (List.mem_cons_of_mem _ hx)) (fun x hx => hc x (List.mem_cons_of_mem _ hx))
      (List.cons_ne_nil _ _) (List.cons_ne_nil _ _) h2]

theorem map_inj_on {α β : Type} {f : α → β} {P : α → Prop} (hf : ∀ a b, P a → P b → f a = f b → a = b) :
    ∀ {l l' : List α}, (∀ a ∈ l, P a) → (∀ a ∈ l', P a) → l.map f = l'.map f → l = l'
  | [], [], _, _, _ => rfl
  | [], _ :: _, _, _, h => by simp at h
  | _ :: _, [], _, _, h => by simp at h
  | a :: l, b :: l', ha, hb, h => by
    simp only [List.map_cons, List.cons.injEq] at h
    rw [hf a b (ha a List.mem_cons_self) (hb b List.mem_cons_self) h.1,
      map_inj_on hf (fun x hx => ha x (List.mem_cons_of_mem _ hx)) (fun x hx => hb x (List.mem_cons_of_mem _ hx)) h.2]

/-! ## Mnemonics -/

/-- The parts that occur in the mnemonics. -/
def known (t : Tok) : Prop := t ∈ toks.map Prod.fst

theorem toks_ok : (toks.all fun p => (p.2 == tokChars p.1) && !p.2.contains '.' && !p.2.contains ' ' &&
    toks.all fun q => p.2 != q.2 || p.1 == q.1) = true := by decide +kernel

theorem tok_of {t : Tok} (h : known t) : ∃ p ∈ toks, p.1 = t := by
  simpa [known] using h

theorem tok_inj (t t' : Tok) (h : known t) (h' : known t') (e : tokChars t = tokChars t') : t = t' := by
  obtain ⟨p, hp, rfl⟩ := tok_of h
  obtain ⟨q, hq, rfl⟩ := tok_of h'
  have a := List.all_eq_true.1 toks_ok p hp
  have b := List.all_eq_true.1 toks_ok q hq
  simp only [Bool.and_eq_true, beq_iff_eq, List.all_eq_true, Bool.or_eq_true, bne_iff_ne] at a b
  exact (a.2 q hq).resolve_left fun hn => hn (by rw [a.1.1.1, b.1.1.1, e])

theorem tok_chars {t : Tok} (h : known t) : '.' ∉ tokChars t ∧ ' ' ∉ tokChars t := by
  obtain ⟨p, hp, rfl⟩ := tok_of h
  have a := List.all_eq_true.1 toks_ok p hp
  simp only [Bool.and_eq_true, beq_iff_eq, Bool.not_eq_true'] at a
  rw [← a.1.1.1]
  exact ⟨by simpa using a.1.1.2, by simpa using a.1.2⟩

/-- What the table must satisfy for the first field to be separated from the operands. -/
def nameOk (p : Row × List Piece) : Bool :=
  decide ((mnemonic p.1).length ≤ 17) && p.1.disasm != [] && p.1.disasm.all fun t => (toks.map Prod.fst).contains t

set_option maxRecDepth 100000 in
theorem rows_nameOk : rows.all nameOk = true := by decide +kernel

theorem name_ok {p : Row × List Piece} (hp : p ∈ rows) :
    (mnemonic p.1).length ≤ 17 ∧ p.1.disasm ≠ [] ∧ ∀ t ∈ p.1.disasm, known t := by
  have := List.all_eq_true.1 rows_nameOk p hp
  simpa [nameOk, known, and_assoc] using this

theorem join_mem {c : Char} (hc : c ≠ '.') : ∀ {l : List (List Char)}, c ∈ join l → ∃ a ∈ l, c ∈ a
  | [], h => by simp [join] at h
  | [a], h => ⟨a, List.mem_cons_self, h⟩
  | a :: b :: l, h => by
    have h : c ∈ a ++ '.' :: join (b :: l) := h
    simp only [List.mem_append, List.mem_cons, hc, false_or] at h
    rcases h with h | h
    · exact ⟨a, List.mem_cons_self, h⟩
    · obtain ⟨x, hx, h⟩ := join_mem hc h
      exact ⟨x, List.mem_cons_of_mem _ hx, h⟩

theorem mnemonic_blank {p : Row × List Piece} (hp : p ∈ rows) : ' ' ∉ mnemonic p.1 := by
  intro h
  obtain ⟨a, ha, h⟩ := join_mem (by decide) h
  simp only [List.mem_map] at ha
  obtain ⟨t, ht, rfl⟩ := ha
  exact (tok_chars ((name_ok hp).2.2 t ht)).2 h

/-- Equal texts have equal mnemonics and equal operand parts. -/
theorem text_split {p q : Row × List Piece} {w w' : BitVec 32} (hp : p ∈ rows) (hq : q ∈ rows)
    (h : text p w = text q w') : p.1.disasm = q.1.disasm ∧ argText p.1 w p.2 = argText q.1 w' q.2 := by
  obtain ⟨lp, np, kp⟩ := name_ok hp
  obtain ⟨lq, nq, kq⟩ := name_ok hq
  have pad : ∀ (n : Nat) (l : List Char), n ≤ 17 → List.replicate (18 - n) ' ' ++ l = ' ' :: (List.replicate (17 - n) ' ' ++ l) := by
    intro n l hn
    rw [show 18 - n = (17 - n) + 1 by omega, List.replicate_succ]; rfl
  unfold text at h
  rw [pad _ _ lp, pad _ _ lq] at h
  obtain ⟨h1, h2⟩ := split_sep (mnemonic_blank hp) (mnemonic_blank hq) h
  refine ⟨?_, ?_⟩
  · refine map_inj_on tok_inj kp kq (join_inj ?_ ?_ (by simpa using np) (by simpa using nq) h1)
    · intro a ha
      obtain ⟨t, ht, rfl⟩ := List.mem_map.1 ha
      exact (tok_chars (kp t ht)).1
    · intro a ha
      obtain ⟨t, ht, rfl⟩ := List.mem_map.1 ha
      exact (tok_chars (kq t ht)).1
  · rw [h1] at h2
    exact List.append_cancel_left h2

/-! ## Operands -/

theorem reg_ok : (aliases.all fun a => a.head? != some 'v' && !a.contains ',' &&
    (List.range 32).all fun n => aliases.getD n [] != a || aliases.idxOf a == n) = true := by decide +kernel

theorem regName_mem {n : Nat} (h : n < 32) : regName n ∈ aliases := by
  unfold regName
  rw [List.getD_eq_getElem _ _ (show n < aliases.length from h)]
  exact List.getElem_mem _

theorem reg_facts {n : Nat} (h : n < 32) : (regName n).head? ≠ some 'v' ∧ ',' ∉ regName n ∧
    ∀ m, m < 32 → regName m = regName n → aliases.idxOf (regName n) = m := by
  have := List.all_eq_true.1 reg_ok _ (regName_mem h)
  simp only [Bool.and_eq_true, bne_iff_ne, Bool.not_eq_true', List.all_eq_true, List.mem_range, Bool.or_eq_true,
    beq_iff_eq] at this
  exact ⟨this.1.1, by simpa using this.1.2, fun m hm e => (this.2 m hm).resolve_left fun hn => hn e⟩

theorem regName_inj {m n : Nat} (hm : m < 32) (hn : n < 32) (h : regName m = regName n) : m = n := by
  exact ((reg_facts hn).2.2 m hm h).symm.trans ((reg_facts hn).2.2 n hn rfl)

theorem vName_ok : ((List.range 64).all fun n => !(vName n).contains ',' &&
    (List.range 64).all fun m => vName m != vName n || m == n) = true := by decide +kernel

theorem vName_facts {n : Nat} (h : n < 64) : ',' ∉ vName n ∧ ∀ m, m < 64 → vName m = vName n → m = n := by
  have := List.all_eq_true.1 vName_ok n (List.mem_range.2 h)
  simp only [Bool.and_eq_true, bne_iff_ne, Bool.not_eq_true', List.all_eq_true, List.mem_range, Bool.or_eq_true,
    beq_iff_eq] at this
  exact ⟨by simpa using this.1, fun m hm e => (this.2 m hm).resolve_left fun hn => hn e⟩

/-- The operand exists in the register files. -/
def InRange : SrcOpd → Prop
  | .zero => True
  | .xreg n => n < 32
  | .vgroup b _ => b < 64

/-- Same operand up to the size of a group. -/
def SameBase : SrcOpd → SrcOpd → Prop
  | .zero, .zero => True
  | .xreg m, .xreg n => m = n
  | .vgroup a _, .vgroup b _ => a = b
  | _, _ => False

theorem opdName_inj {a b : SrcOpd} (ha : InRange a) (hb : InRange b) (na : a ≠ .xreg 0) (nb : b ≠ .xreg 0)
    (h : opdName a = opdName b) : SameBase a b := by
  have v : ∀ {n k : Nat}, n < 32 → regName n ≠ vName k := by
    intro n k hn e
    exact (reg_facts hn).1 (by rw [e]; rfl)
  match a, b, ha, hb, na, nb, h with
  | .zero, .zero, _, _, _, _, _ => trivial
  | .zero, .xreg n, _, hb, _, nb, h => exact nb (by rw [← regName_inj (by decide) hb h])
  | .zero, .vgroup b _, _, _, _, _, h => exact v (by decide) h
  | .xreg n, .zero, ha, _, na, _, h => exact na (by rw [regName_inj ha (by decide) h])
  | .xreg m, .xreg n, ha, hb, _, _, h => exact regName_inj ha hb h
  | .xreg m, .vgroup b _, ha, _, _, _, h => exact v ha h
  | .vgroup a _, .zero, _, _, _, _, h => exact v (by decide) h.symm
  | .vgroup a _, .xreg n, _, hb, _, _, h => exact v hb h.symm
  | .vgroup a _, .vgroup b _, ha, hb, _, _, h => exact (vName_facts hb).2 a ha h

theorem srcOpd_range {r : Row} {w : BitVec 32} {o : Opd} {a : SrcOpd} (h : srcOpd r w o = some a) : InRange a := by
  have f5 : ∀ p, field w p 5 < 32 := fun p => fld_lt w p 5
  have f6 : ∀ p, field w p 6 < 64 := fun p => fld_lt w p 6
  have h14 := f6 14
  have h15 := f5 15
  have h20 := f5 20
  cases o <;> simp only [srcOpd, Option.some.injEq, reduceCtorEq] at h <;> subst h
  · unfold srcVs1
    split
    · split
      · trivial
      · show fVs1 w / 2 < 32
        have : fVs1 w < 64 := h14
        omega
    · split <;> exact h14
  · unfold srcVs2
    split
    · split
      · trivial
      · exact Nat.mod_lt _ (by decide)
    · exact f6 20
  · exact f6 26
  · exact f6 6
  · unfold srcRs
    split
    · trivial
    · exact h15
  · unfold srcRs
    split
    · trivial
    · exact h20

theorem opdName_comma {a : SrcOpd} (h : InRange a) : ',' ∉ opdName a := by
  cases a with
  | zero => exact (reg_facts (by decide)).2.1
  | xreg n => exact (reg_facts h).2.1
  | vgroup b _ => exact (vName_facts h).1

theorem opText_comma (r : Row) (w : BitVec 32) (o : Opd) : ',' ∉ opText r w o := by
  unfold opText
  split
  · exact (reg_facts (fld_lt w 7 5)).2.1
  · cases h : srcOpd r w o with
    | none => simp
    | some a => exact opdName_comma (srcOpd_range h)

/-- Operands separated by literals that begin with a comma. -/
def sepOk : List Piece → Bool
  | [] => true
  | [.op _] => true
  | .op _ :: .lit (c :: _) :: t => c == ',' && sepOk t
  | _ => false

theorem render_inj {f g : Opd → List Char} (hf : ∀ o, ',' ∉ f o) (hg : ∀ o, ',' ∉ g o) : ∀ {t : List Piece}, sepOk t = true →
    t.flatMap (fun | .lit cs => cs | .op o => f o) = t.flatMap (fun | .lit cs => cs | .op o => g o) →
    ∀ o, .op o ∈ t → f o = g o
  | [], _, _, o, ho => by simp at ho
  | [.op o'], _, h, o, ho => by
    simp only [List.mem_singleton, Piece.op.injEq] at ho
    subst ho
    simpa using h
  | .op o' :: .lit (c :: cs) :: t, hs, h, o, ho => by
    simp only [sepOk, Bool.and_eq_true, beq_iff_eq] at hs
    obtain ⟨rfl, hs⟩ := hs
    simp only [List.flatMap_cons, List.cons_append] at h
    obtain ⟨h1, h2⟩ := split_sep (hf o') (hg o') h
    have h2 := List.append_cancel_left h2
    simp only [List.mem_cons, Piece.op.injEq, reduceCtorEq, false_or] at ho
    rcases ho with rfl | ho
    · exact h1
    · exact render_inj hf hg hs h2 o ho
  | .lit _ :: _, hs, _, _, _ => by simp [sepOk] at hs
  | .op _ :: .lit [] :: _, hs, _, _, _ => by simp [sepOk] at hs
  | .op _ :: .op _ :: _, hs, _, _, _ => by simp [sepOk] at hs

/-- The operands named by a template. -/
def opsOf (t : List Piece) : List Opd := t.filterMap fun
  | .op o => some o
  | .lit _ => none

theorem templates_sepOk : templates.all sepOk = true := by decide +kernel

/-- The operands of the template are those of the instruction. -/
def opsOk (p : Row × List Piece) : Bool :=
  (p.1.src ++ p.1.dst).all (opsOf p.2).contains && (opsOf p.2).all (p.1.src ++ p.1.dst).contains && sepOk p.2

set_option maxRecDepth 100000 in
theorem rows_opsOk : rows.all opsOk = true := by decide +kernel

theorem mem_opsOf {t : List Piece} {o : Opd} : o ∈ opsOf t ↔ .op o ∈ t := by
  unfold opsOf
  rw [List.mem_filterMap]
  constructor
  · rintro ⟨a, ha, h⟩
    cases a with
    | lit _ => cases h
    | op x => cases h; exact ha
  · exact fun h => ⟨_, h, rfl⟩

/-- Equal operand parts of one template name the same operands. -/
theorem args_inj {p : Row × List Piece} (hp : p ∈ rows) {w w' : BitVec 32} (h : argText p.1 w p.2 = argText p.1 w' p.2)
    {o : Opd} (ho : o ∈ p.1.src ++ p.1.dst) : opText p.1 w o = opText p.1 w' o := by
  have := List.all_eq_true.1 rows_opsOk p hp
  simp only [opsOk, Bool.and_eq_true, List.all_eq_true, List.contains_iff_mem] at this
  exact render_inj (opText_comma _ _) (opText_comma _ _) this.2 h o (mem_opsOf.1 (this.1.1 o ho))

end Verif.Proofs.Text
