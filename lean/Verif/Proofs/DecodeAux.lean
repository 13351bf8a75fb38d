import Verif.Proofs.DecodeKeys

/-! # Two matching rows are equal, unless one is `acset`, `actr` or `adwinit` -/

namespace Verif.Proofs
open Verif Verif.Model

theorem field_nat (w : BitVec 32) (p n : Nat) : field w p n = (w.toNat >>> p) % 2 ^ n := by
  simp [field, BitVec.extractLsb'_toNat]

theorem holds_iff (f : Fld) (w : BitVec 32) : f.holds w = true ↔ field w f.pos f.width = f.val := by
  simp [Fld.holds]

theorem matches_eq {r : Row} {w : BitVec 32} (h : r.matches w = true) {f : Fld} (hf : f ∈ r.eq) :
    field w f.pos f.width = f.val := by
  simp only [Row.matches, Bool.and_eq_true, List.all_eq_true] at h
  exact (holds_iff f w).1 (h.1 f hf)

theorem matches_ne {r : Row} {w : BitVec 32} (h : r.matches w = true) {f : Fld} (hf : f ∈ r.ne) :
    field w f.pos f.width ≠ f.val := by
  simp only [Row.matches, Bool.and_eq_true, List.all_eq_true] at h
  have := h.2 f hf
  intro he
  rw [(holds_iff f w).2 he] at this
  exact absurd this (by decide)

theorem ones_testBit (f : Fld) (j : Nat) :
    (fOnes f).testBit j = (decide (f.pos ≤ j) && (decide (j - f.pos < f.width) && f.val.testBit (j - f.pos))) := by
  simp [fOnes, Nat.testBit_shiftLeft, Nat.testBit_mod_two_pow]

theorem zeros_testBit (f : Fld) (j : Nat) :
    (fZeros f).testBit j = (decide (f.pos ≤ j) && (decide (j - f.pos < f.width) && !f.val.testBit (j - f.pos))) := by
  simp only [fZeros, Nat.testBit_shiftLeft, Nat.testBit_xor, Nat.testBit_two_pow_sub_one, Nat.testBit_mod_two_pow]
  by_cases h1 : f.pos ≤ j <;> by_cases h2 : j - f.pos < f.width <;> simp [h1, h2]

theorem field_testBit (w : BitVec 32) (p n j : Nat) :
    (field w p n).testBit j = (decide (j < n) && w.toNat.testBit (p + j)) := by
  rw [field_nat, Nat.testBit_mod_two_pow, Nat.testBit_shiftRight]

theorem fOnes_sub (f : Fld) (w : BitVec 32) (h : field w f.pos f.width = f.val) :
    w.toNat &&& fOnes f = fOnes f := by
  apply Nat.eq_of_testBit_eq
  intro j
  rw [Nat.testBit_and, ones_testBit, ← h, field_testBit]
  by_cases h1 : f.pos ≤ j
  · have : f.pos + (j - f.pos) = j := by omega
    rw [this]
    cases w.toNat.testBit j <;> simp
  · simp [h1]

theorem fZeros_disj (f : Fld) (w : BitVec 32) (h : field w f.pos f.width = f.val) :
    w.toNat &&& fZeros f = 0 := by
  apply Nat.eq_of_testBit_eq
  intro j
  rw [Nat.testBit_and, zeros_testBit, ← h, field_testBit, Nat.zero_testBit]
  by_cases h1 : f.pos ≤ j
  · have : f.pos + (j - f.pos) = j := by omega
    rw [this]
    by_cases h2 : j - f.pos < f.width <;> cases w.toNat.testBit j <;> simp [h2]
  · simp [h1]

theorem field_of_bits (f : Fld) (w : BitVec 32) (hv : f.val < 2 ^ f.width) (h1 : w.toNat &&& fOnes f = fOnes f)
    (h0 : w.toNat &&& fZeros f = 0) : field w f.pos f.width = f.val := by
  apply Nat.eq_of_testBit_eq
  intro j
  rw [field_testBit]
  by_cases hj : j < f.width
  · have a := congrArg (fun n => n.testBit (f.pos + j)) h1
    have b := congrArg (fun n => n.testBit (f.pos + j)) h0
    simp only [Nat.testBit_and, ones_testBit, zeros_testBit, Nat.le_add_right, Nat.add_sub_cancel_left, hj,
      decide_true, Bool.true_and, Nat.zero_testBit] at a b
    simp only [hj, decide_true, Bool.true_and]
    cases hb : f.val.testBit j <;> simp_all
  · have : f.val.testBit j = false := Nat.testBit_lt_two_pow (Nat.lt_of_lt_of_le hv (Nat.pow_le_pow_right (by omega) (by omega)))
    simp [hj, this]

theorem onesOf_sub (l : List Fld) (w : BitVec 32) (h : ∀ f ∈ l, field w f.pos f.width = f.val) :
    w.toNat &&& onesOf l = onesOf l := by
  induction l with
  | nil => simp [onesOf]
  | cons f l ih =>
    rw [onesOf, Nat.and_or_distrib_left, fOnes_sub f w (h f (by simp)), ih fun g hg => h g (by simp [hg])]

theorem zerosOf_disj (l : List Fld) (w : BitVec 32) (h : ∀ f ∈ l, field w f.pos f.width = f.val) :
    w.toNat &&& zerosOf l = 0 := by
  induction l with
  | nil => simp [zerosOf]
  | cons f l ih =>
    rw [zerosOf, Nat.and_or_distrib_left, fZeros_disj f w (h f (by simp)), ih fun g hg => h g (by simp [hg])]
    simp

theorem forces_field {r : Row} {w : BitVec 32} (h : r.matches w = true) {f : Fld} (hf : forces r f = true) :
    field w f.pos f.width = f.val := by
  simp only [forces, Bool.and_eq_true, decide_eq_true_eq, beq_iff_eq] at hf
  have h1 := onesOf_sub r.eq w fun f hf => matches_eq h hf
  have h0 := zerosOf_disj r.eq w fun f hf => matches_eq h hf
  refine field_of_bits f w hf.1.1 ?_ ?_
  · rw [← hf.1.2, ← Nat.and_assoc, h1]
  · rw [← hf.2, ← Nat.and_assoc, h0, Nat.zero_and]

theorem swap_conflict {r r' : Row} {w : BitVec 32} (h : r.matches w = true) (h' : r'.matches w = true) :
    Nat.land (swapKey (rowKey r)) (rowKey r') = 0 := by
  show swapKey (rowKey r) &&& rowKey r' = 0
  have h1 := onesOf_sub r.eq w fun f hf => matches_eq h hf
  have h0 := zerosOf_disj r.eq w fun f hf => matches_eq h hf
  have h1' := onesOf_sub r'.eq w fun f hf => matches_eq h' hf
  have h0' := zerosOf_disj r'.eq w fun f hf => matches_eq h' hf
  have hw := w.isLt
  generalize w.toNat = x at *
  apply Nat.eq_of_testBit_eq
  intro j
  have e1 := fun j => congrArg (fun n => n.testBit j) h1
  have e0 := fun j => congrArg (fun n => n.testBit j) h0
  have e1' := fun j => congrArg (fun n => n.testBit j) h1'
  have e0' := fun j => congrArg (fun n => n.testBit j) h0'
  have hx : ∀ j, 32 ≤ j → x.testBit j = false := fun j hj =>
    Nat.testBit_lt_two_pow (Nat.lt_of_lt_of_le hw (Nat.pow_le_pow_right (by omega) hj))
  simp only [Nat.testBit_and, Nat.zero_testBit] at e1 e0 e1' e0'
  simp only [swapKey, rowKey, Nat.testBit_and, Nat.testBit_or, Nat.testBit_shiftRight, Nat.testBit_shiftLeft,
    Nat.testBit_mod_two_pow, Nat.zero_testBit, Nat.add_sub_cancel_left]
  have ho : ∀ j, 32 ≤ j → (onesOf r.eq).testBit j = false := fun j hj => by
    have := e1 j; rw [hx j hj] at this; simpa using this.symm
  have ho' : ∀ j, 32 ≤ j → (onesOf r'.eq).testBit j = false := fun j hj => by
    have := e1' j; rw [hx j hj] at this; simpa using this.symm
  have a1 := e1 j; have a0 := e0 j; have a1' := e1' j; have a0' := e0' j
  have b1 := e1 (j - 32); have b0 := e0 (j - 32); have b1' := e1' (j - 32); have b0' := e0' (j - 32)
  by_cases hj : 32 ≤ j
  · rw [ho (32 + j) (by omega), ho' j hj]
    have hj' : ¬ j < 32 := by omega
    have hj2 : ¬ (j - 32 < 32 ∧ 32 ≤ j - 32) := by omega
    cases hxj : x.testBit (j - 32)
    · simp_all
      rintro (⟨h, -⟩ | ⟨h, h', -⟩) <;> omega
    · simp_all
  · rw [ho (32 + j) (by omega)]
    simp only [hj, ge_iff_le, decide_false, Bool.false_and, Bool.or_false, Bool.false_or, Nat.le_add_right, decide_true,
      Bool.true_and]
    cases hxj : x.testBit j <;> simp_all

theorem conflictAll_mem (s : Nat) : ∀ (l : List Nat), conflictAll s l = true → ∀ k ∈ l, Nat.land s k ≠ 0
  | [], _, k, hk => by simp at hk
  | b :: l, h, k, hk => by
    unfold conflictAll at h
    split at h
    · exact absurd h (by decide)
    · rename_i n hn
      rcases List.mem_cons.1 hk with rfl | hk
      · rw [hn]; omega
      · exact conflictAll_mem s l h k hk

theorem conflictPairs_pairwise (f : Row → Nat) : ∀ (l : List Row), conflictPairs (l.map f) = true →
    l.Pairwise fun a b => Nat.land (swapKey (f a)) (f b) ≠ 0
  | [], _ => List.Pairwise.nil
  | a :: l, h => by
    simp only [List.map_cons, conflictPairs] at h
    split at h
    · rename_i hc
      refine List.Pairwise.cons (fun b hb => ?_) (conflictPairs_pairwise f l h)
      exact conflictAll_mem _ _ hc _ (List.mem_map_of_mem hb)
    · exact absurd h (by decide)

/-- No word matches both rows. -/
def Disjoint (r r' : Row) : Prop := ∀ w, r.matches w = true → r'.matches w = true → False

theorem Disjoint.symm {r r' : Row} (h : Disjoint r r') : Disjoint r' r := fun w a b => h w b a

theorem guardConflict_disj {r r' : Row} (h : guardConflict r r' = true) : Disjoint r r' := by
  intro w a b
  simp only [guardConflict, Bool.or_eq_true, List.any_eq_true] at h
  rcases h with ⟨f, hf, h⟩ | ⟨f, hf, h⟩
  · exact matches_ne a hf (forces_field b h)
  · exact matches_ne b hf (forces_field a h)

theorem conflictRows_disj (r : Row) : ∀ (l : List Row),
    conflictRows r (swapKey (rowKey r)) (l.map rowKey) l = true → ∀ r' ∈ l, Disjoint r r'
  | [], _, r', hr => by simp at hr
  | a :: l, h, r', hr => by
    simp only [List.map_cons, conflictRows] at h
    split at h
    · rw [Bool.and_eq_true] at h
      rcases List.mem_cons.1 hr with rfl | hr
      · exact guardConflict_disj h.1
      · exact conflictRows_disj r l h.2 r' hr
    · rename_i n hn
      rcases List.mem_cons.1 hr with rfl | hr
      · intro w a b
        rw [swap_conflict a b] at hn
        omega
      · exact conflictRows_disj r l h r' hr

theorem conflictGuarded_disj : ∀ (l : List Row), conflictGuarded l = true →
    l.Pairwise Disjoint ∧ ∀ r ∈ l, ∀ r' ∈ plainRows, Disjoint r r'
  | [], _ => ⟨List.Pairwise.nil, by simp⟩
  | a :: l, h => by
    simp only [conflictGuarded, Bool.and_eq_true] at h
    obtain ⟨⟨h1, h2⟩, h3⟩ := h
    obtain ⟨i1, i2⟩ := conflictGuarded_disj l h3
    refine ⟨List.Pairwise.cons (fun b hb => conflictRows_disj a l h2 b hb) i1, ?_⟩
    intro r hr r' hr'
    rcases List.mem_cons.1 hr with rfl | hr
    · rw [← plainKeys_eq] at h1
      exact conflictRows_disj r plainRows h1 r' hr'
    · exact i2 r hr r' hr'

theorem pairwise_mem {l : List Row} (h : l.Pairwise Disjoint) {r r' : Row} (hr : r ∈ l) (hr' : r' ∈ l) :
    r = r' ∨ Disjoint r r' := by
  induction h with
  | nil => simp at hr
  | cons hd _ ih =>
    rcases List.mem_cons.1 hr with rfl | h1 <;> rcases List.mem_cons.1 hr' with rfl | h2
    · exact .inl rfl
    · exact .inr (hd _ h2)
    · exact .inr (hd _ h1).symm
    · exact ih h1 h2

theorem rows_disjoint {r r' : Row} (hr : r ∈ allRows) (hr' : r' ∈ allRows) (hs : isSpecial r = false)
    (hs' : isSpecial r' = false) : r = r' ∨ Disjoint r r' := by
  obtain ⟨g1, g2⟩ := conflictGuarded_disj _ guarded_conflict
  have p : plainRows.Pairwise Disjoint := by
    have := conflictPairs_pairwise rowKey plainRows (plainKeys_eq ▸ plain_conflict)
    exact this.imp fun h w a b => h (swap_conflict a b)
  have cls : ∀ {r}, r ∈ allRows → isSpecial r = false → r ∈ plainRows ∨ r ∈ guardedRows := by
    intro r hr hs
    simp only [plainRows, guardedRows, List.mem_filter, hr, hs, true_and, Bool.not_false, Bool.true_and]
    cases r.ne.isEmpty <;> simp
  rcases cls hr hs with h | h <;> rcases cls hr' hs' with h' | h'
  · exact pairwise_mem p h h'
  · exact .inr (g2 _ h' _ h).symm
  · exact .inr (g2 _ h _ h')
  · exact pairwise_mem g1 h h'

theorem unique_match {r r' : Row} {w : BitVec 32} (hr : r ∈ allRows) (hr' : r' ∈ allRows) (hs : isSpecial r = false)
    (hs' : isSpecial r' = false) (h : r.matches w = true) (h' : r'.matches w = true) : r = r' := by
  rcases rows_disjoint hr hr' hs hs' with e | e
  · exact e
  · exact (e w h h').elim

end Verif.Proofs
