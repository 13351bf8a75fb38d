import Verif.Props.Decode

/-! # C103: exactly what a word is decoded to -/

namespace Verif.Props
open Verif Verif.Model Verif.Proofs

/-- A word with the bits of `acset`, `actr` or `adwinit`, which leave bits 4:0 open. -/
def AccWord (w : BitVec 32) : Prop :=
  Spec.bitsAt w 20 6 = 0 ∧ Spec.bitsAt w 5 1 = 0 ∧
    ((Spec.bitsAt w 26 6 = 16 ∧ Spec.bitsAt w 6 6 = 48) ∨
     (Spec.bitsAt w 26 6 = 17 ∧ Spec.bitsAt w 14 4 = 0 ∧ Spec.bitsAt w 6 6 = 48) ∨
     (Spec.bitsAt w 26 6 = 18 ∧ Spec.bitsAt w 14 2 = 0 ∧ Spec.bitsAt w 12 2 = 0 ∧ Spec.bitsAt w 6 2 = 0))

/-- The fields of the special rows. -/
theorem specials_fields : specials.map (fun r => (r.name, r.eq, r.ne)) =
    [([.acset], [⟨26, 6, 16⟩, ⟨20, 6, 0⟩, ⟨5, 1, 0⟩, ⟨6, 6, 48⟩], []),
     ([.actr], [⟨26, 6, 17⟩, ⟨20, 6, 0⟩, ⟨14, 4, 0⟩, ⟨5, 1, 0⟩, ⟨6, 6, 48⟩], []),
     ([.adwinit], [⟨26, 6, 18⟩, ⟨20, 6, 0⟩, ⟨14, 2, 0⟩, ⟨12, 2, 0⟩, ⟨5, 1, 0⟩, ⟨6, 2, 0⟩], [])] := by decide +kernel

theorem special_fields {r : Row} (h : r ∈ specials) :
    (r.name, r.eq, r.ne) = ([.acset], [⟨26, 6, 16⟩, ⟨20, 6, 0⟩, ⟨5, 1, 0⟩, ⟨6, 6, 48⟩], []) ∨
    (r.name, r.eq, r.ne) = ([.actr], [⟨26, 6, 17⟩, ⟨20, 6, 0⟩, ⟨14, 4, 0⟩, ⟨5, 1, 0⟩, ⟨6, 6, 48⟩], []) ∨
    (r.name, r.eq, r.ne) = ([.adwinit], [⟨26, 6, 18⟩, ⟨20, 6, 0⟩, ⟨14, 2, 0⟩, ⟨12, 2, 0⟩, ⟨5, 1, 0⟩, ⟨6, 2, 0⟩], []) := by
  have := List.mem_map_of_mem (f := fun r : Row => (r.name, r.eq, r.ne)) h
  rw [specials_fields] at this
  simpa using this

/-- Some special row matches exactly the words of `AccWord`. -/
theorem accWord_iff (w : BitVec 32) : AccWord w ↔ ∃ sp ∈ specials, sp.matches w = true := by
  constructor
  · rintro ⟨h1, h2, h3⟩
    have mem : ∀ x, x ∈ specials.map (fun r => (r.name, r.eq, r.ne)) → ∃ sp ∈ specials, sp.eq = x.2.1 ∧ sp.ne = x.2.2 := by
      rintro x hx
      obtain ⟨sp, h, rfl⟩ := List.mem_map.1 hx
      exact ⟨sp, h, rfl, rfl⟩
    rw [specials_fields] at mem
    rcases h3 with h3 | h3 | h3
    · obtain ⟨sp, h, e1, e2⟩ := mem _ (.head _)
      exact ⟨sp, h, by simp [Row.matches, e1, e2, Fld.holds, field_eq, h1, h2, h3]⟩
    · obtain ⟨sp, h, e1, e2⟩ := mem _ (.tail _ (.head _))
      exact ⟨sp, h, by simp [Row.matches, e1, e2, Fld.holds, field_eq, h1, h2, h3]⟩
    · obtain ⟨sp, h, e1, e2⟩ := mem _ (.tail _ (.tail _ (.head _)))
      exact ⟨sp, h, by simp [Row.matches, e1, e2, Fld.holds, field_eq, h1, h2, h3]⟩
  · rintro ⟨sp, h, hm⟩
    rcases special_fields h with e | e | e <;> injection e with e0 e <;> injection e with e1 e2 <;>
      simp [Row.matches, e1, e2, Fld.holds, field_eq] at hm <;> simp [AccWord, hm]

/-- C103: a word of the table is always decoded to something. -/
theorem C103_some (w : BitVec 32) (h : ∃ r ∈ allRows, r.matches w = true) : ∃ r, Decodes w r := by
  obtain ⟨r, hr, hm⟩ := h
  induction hg : r.group using Nat.strong_induction_on generalizing r with
  | _ g ih =>
    by_cases hx : ∃ r' ∈ allRows, r'.group < g ∧ r'.matches w = true
    · obtain ⟨r', h1, h2, h3⟩ := hx
      exact ih _ h2 r' h1 h3 rfl
    · refine ⟨r, hr, hm, fun r' hr' hlt => ?_⟩
      by_contra hc
      exact hx ⟨r', hr', by omega, by simpa using hc⟩

/-- C103: a word is decoded to a line it satisfies, other than `acset`, `actr` and `adwinit`, exactly when the line is in one of the
first four groups or the word is not one of those three. -/
theorem C103_line (w : BitVec 32) (r : Row) (hr : r ∈ allRows) (h : r.matches w = true)
    (h1 : r.name ∉ [[.acset], [.actr], [.adwinit]]) : Decodes w r ↔ r.group ≤ 3 ∨ ¬ AccWord w := by
  have hs : isSpecial r = false := by
    simp only [List.mem_cons, List.not_mem_nil, or_false, not_or] at h1
    simp [isSpecial, Row.isAcset, Row.isAdwinit, h1]
  have grp : ∀ sp ∈ specials, sp.group = 3 := fun sp hsp => by
    simpa using List.all_eq_true.1 specials_group sp hsp
  constructor
  · intro hd
    by_contra hc
    simp only [not_or, not_le, not_not] at hc
    obtain ⟨sp, hsp, hm⟩ := (accWord_iff w).1 hc.2
    have := hd.2.2 sp (List.mem_filter.1 hsp).1 (by rw [grp sp hsp]; exact hc.1)
    rw [hm] at this
    cases this
  · intro hc
    refine ⟨hr, h, fun r' hr' hlt => ?_⟩
    by_contra hm
    have hm : r'.matches w = true := by simpa using hm
    by_cases hs' : isSpecial r' = true
    · have := grp r' (mem_specials hr' hs')
      rcases hc with hc | hc
      · omega
      · exact hc ((accWord_iff w).2 ⟨r', mem_specials hr' hs', hm⟩)
    · have := unique_match hr hr' hs (by simpa using hs') h hm
      subst this; omega

/-- C103: `acset`, `actr` and `adwinit` are selected exactly for their words that satisfy no line of the first three groups. -/
theorem C103_accumulator (w : BitVec 32) (hw : AccWord w) :
    (∃ r, Decodes w r ∧ r.name ∈ [[.acset], [.actr], [.adwinit]]) ↔ ∀ r ∈ allRows, r.group < 3 → r.matches w = false := by
  have grp : ∀ sp ∈ specials, sp.group = 3 := fun sp hsp => by
    simpa using List.all_eq_true.1 specials_group sp hsp
  constructor
  · rintro ⟨r, hd, hn⟩ r' hr' hlt
    have hs : isSpecial r = true := by
      simp only [List.mem_cons, List.not_mem_nil, or_false] at hn
      rcases hn with e | e | e <;> simp [isSpecial, Row.isAcset, Row.isAdwinit, e]
    exact hd.2.2 r' hr' (by rw [grp r (mem_specials hd.1 hs)]; exact hlt)
  · intro h
    obtain ⟨sp, hsp, hm⟩ := (accWord_iff w).1 hw
    refine ⟨sp, ⟨(List.mem_filter.1 hsp).1, hm, fun r' hr' hlt => h r' hr' (by rw [grp sp hsp] at hlt; exact hlt)⟩, ?_⟩
    rcases special_fields hsp with e | e | e <;> injection e with e0 e <;> simp [e0]

theorem word_of_fields (n s : Nat) (hlt : n < 2 ^ 32) (h26 : n / 2 ^ 26 % 2 ^ 6 = 16) (h20 : n / 2 ^ 20 % 2 ^ 6 = 0)
    (h14 : n / 2 ^ 14 % 2 ^ 6 = 0) (h12 : n / 2 ^ 12 % 2 ^ 2 = s) (h6 : n / 2 ^ 6 % 2 ^ 6 = 48) (h5 : n / 2 ^ 5 % 2 ^ 1 = 0)
    (h2 : n / 2 ^ 2 % 2 ^ 3 = 7) (h0 : n / 2 ^ 0 % 2 ^ 2 = 3) : n = 0x40000c1f + 4096 * s := by
  have step : ∀ a b : Nat, n / 2 ^ a = 2 ^ b * (n / 2 ^ (a + b)) + n / 2 ^ a % 2 ^ b := by
    intro a b
    rw [Nat.pow_add, ← Nat.div_div_eq_div_mul]
    exact (Nat.div_add_mod _ _).symm
  have e0 := step 0 2
  have e2 := step 2 3
  have e5 := step 5 1
  have e6 := step 6 6
  have e12 := step 12 2
  have e14 := step 14 6
  have e20 := step 20 6
  have e26 := step 26 6
  have z : n / 2 ^ (26 + 6) = 0 := Nat.div_eq_of_lt hlt
  rw [z, h26] at e26
  rw [h20, show 20 + 6 = 26 from rfl, e26] at e20
  rw [h14, show 14 + 6 = 20 from rfl, e20] at e14
  rw [h12, show 12 + 2 = 14 from rfl, e14] at e12
  rw [h6, show 6 + 6 = 12 from rfl, e12] at e6
  rw [h5, show 5 + 1 = 6 from rfl, e6] at e5
  rw [h2, show 2 + 3 = 5 from rfl, e5] at e2
  rw [h0, show 0 + 2 = 2 from rfl, e2] at e0
  rw [Nat.pow_zero, Nat.div_one] at e0
  clear z e2 e5 e6 e12 e14 e20 e26 h26 h20 h14 h12 h6 h5 h2 h0 step hlt
  rw [e0]
  ring

/-- C103: the words for which two different lines can be selected are these three. -/
theorem C103_ambiguous (w : BitVec 32) :
    (∃ r r', Decodes w r ∧ Decodes w r' ∧ r ≠ r') ↔ w ∈ [0x40000c1f#32, 0x40001c1f#32, 0x40002c1f#32] := by
  constructor
  · rintro ⟨r, r', hd, hd', hne⟩
    have key : ∀ r r', Decodes w r → Decodes w r' → r.name = [.acset] → isVdupX r' = true →
        w ∈ [0x40000c1f#32, 0x40001c1f#32, 0x40002c1f#32] := by
      intro r r' hd hd' hn hv
      have hsp : r ∈ specials := mem_specials hd.1 (by simp [isSpecial, Row.isAcset, hn])
      have hm := hd.2.1
      have hm' := hd'.2.1
      have hvd : (allRows.all fun r => !isVdupX r || (r.ne == [] &&
          (r.eq == [⟨26, 6, 16⟩, ⟨14, 6, 0⟩, ⟨12, 2, 0⟩, ⟨5, 1, 0⟩, ⟨2, 3, 7⟩, ⟨0, 2, 3⟩] ||
           r.eq == [⟨26, 6, 16⟩, ⟨14, 6, 0⟩, ⟨12, 2, 1⟩, ⟨5, 1, 0⟩, ⟨2, 3, 7⟩, ⟨0, 2, 3⟩] ||
           r.eq == [⟨26, 6, 16⟩, ⟨14, 6, 0⟩, ⟨12, 2, 2⟩, ⟨5, 1, 0⟩, ⟨2, 3, 7⟩, ⟨0, 2, 3⟩]))) = true := by decide +kernel
      have hvd := List.all_eq_true.1 hvd r' hd'.1
      simp only [hv, Bool.not_true, Bool.false_or, Bool.and_eq_true, Bool.or_eq_true, beq_iff_eq] at hvd
      have hlt := w.isLt
      have hin : ∀ n, w.toNat = n → n ∈ [0x40000c1f, 0x40001c1f, 0x40002c1f] → w ∈ [0x40000c1f#32, 0x40001c1f#32, 0x40002c1f#32] := by
        intro n h hn
        simp only [List.mem_cons, List.not_mem_nil, or_false] at hn ⊢
        rcases hn with e | e | e
        · exact .inl (BitVec.eq_of_toNat_eq (h.trans e))
        · exact .inr (.inl (BitVec.eq_of_toNat_eq (h.trans e)))
        · exact .inr (.inr (BitVec.eq_of_toNat_eq (h.trans e)))
      rcases special_fields hsp with e | e | e
      · injection e with e0 e
        injection e with e1 e2
        simp only [Row.matches, e1, e2, Fld.holds, field_eq, List.all_cons, List.all_nil, Bool.and_true, Bool.and_eq_true,
          beq_iff_eq, decide_eq_true_eq, Spec.bitsAt] at hm
        obtain ⟨n1, n2⟩ := hvd
        rcases n2 with (n2 | n2) | n2 <;>
          simp only [Row.matches, n1, n2, Fld.holds, field_eq, List.all_cons, List.all_nil, Bool.and_true, Bool.and_eq_true,
            beq_iff_eq, decide_eq_true_eq, Spec.bitsAt] at hm'
        · exact hin 0x40000c1f (word_of_fields _ 0 hlt hm.1 hm.2.1 hm'.2.1 hm'.2.2.1 hm.2.2.2 hm.2.2.1 hm'.2.2.2.2.1 hm'.2.2.2.2.2) (by simp)
        · exact hin 0x40001c1f (word_of_fields _ 1 hlt hm.1 hm.2.1 hm'.2.1 hm'.2.2.1 hm.2.2.2 hm.2.2.1 hm'.2.2.2.2.1 hm'.2.2.2.2.2) (by simp)
        · exact hin 0x40002c1f (word_of_fields _ 2 hlt hm.1 hm.2.1 hm'.2.1 hm'.2.2.1 hm.2.2.2 hm.2.2.1 hm'.2.2.2.2.1 hm'.2.2.2.2.2) (by simp)
      · injection e with e0 e; rw [hn] at e0; cases e0
      · injection e with e0 e; rw [hn] at e0; cases e0
    rcases C35_unique_partial w r r' hd hd' with e | ⟨e1, e2⟩ | ⟨e1, e2⟩
    · exact absurd e hne
    · exact key r r' hd hd' e1 e2
    · exact key r' r hd' hd e1 e2
  · intro h
    have hall : ([0x40000c1f#32, 0x40001c1f#32, 0x40002c1f#32].all fun w =>
        (allRows.any fun r => r.name == [.acset] && r.group == 3 && r.matches w) &&
        (allRows.any fun r => isVdupX r && r.group == 3 && r.matches w) &&
        (allRows.all fun r => !(decide (r.group < 3) && r.matches w))) = true := by decide +kernel
    have := List.all_eq_true.1 hall w h
    simp only [List.any_eq_true, Bool.and_eq_true, beq_iff_eq] at this
    obtain ⟨⟨⟨r, hr, ⟨hn, hg⟩, hm⟩, r', hr', ⟨hn', hg'⟩, hm'⟩, h0⟩ := this
    have fin : ∀ r ∈ allRows, r.group = 3 → r.matches w = true → Decodes w r := by
      intro r hr hg hm
      refine ⟨hr, hm, fun r' hr' hlt => ?_⟩
      have := List.all_eq_true.1 h0 r' hr'
      simp only [Bool.not_eq_true', Bool.and_eq_false_iff, decide_eq_false_iff_not] at this
      rcases this with e | e
      · omega
      · exact e
    refine ⟨r, r', fin r hr hg hm, fin r' hr' hg' hm', fun e => ?_⟩
    subst e
    simp [isVdupX, hn] at hn'

/-- Both sides of `C103_line` occur: `vsrans.b.vv` satisfies the words 0x40040c08 and 0x40040008, and is selected for the second only. -/
example : ∃ r ∈ allRows, r.name = [.vsrans, .b, .vv] ∧ r.matches 0x40040c08#32 = true ∧ ¬ Decodes 0x40040c08#32 r ∧
    Decodes 0x40040008#32 r := by
  have h1 : (allRows.any fun r => r.name == [.vsrans, .b, .vv] && r.matches 0x40040c08#32 && r.matches 0x40040008#32 &&
    decide (3 < r.group)) = true := by decide +kernel
  simp only [List.any_eq_true, Bool.and_eq_true, beq_iff_eq, decide_eq_true_eq] at h1
  obtain ⟨r, hr, ⟨⟨hn, hm⟩, hm'⟩, hg⟩ := h1
  have hs : r.name ∉ [[.acset], [.actr], [.adwinit]] := by rw [hn]; decide
  refine ⟨r, hr, hn, hm, fun hd => ?_, (C103_line _ r hr hm' hs).2 (.inr ?_)⟩
  · rcases (C103_line _ r hr hm hs).1 hd with h | h
    · omega
    · exact h (by simp [AccWord, Spec.bitsAt])
  · simp [AccWord, Spec.bitsAt]

end Verif.Props
