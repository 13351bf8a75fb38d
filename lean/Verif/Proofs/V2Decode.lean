import Verif.Proofs.DecodeAux
import Verif.Gen.V2Rows
import Verif.Gen.V2Keys
import Verif.Spec.V2Isa

/-! # Tables of the second core: overlaps, coverage, reserved words -/

namespace Verif.Proofs.V2Isa
open Verif Verif.Model Verif.Model.V2Isa Verif.Proofs
open Verif.Spec.V2Isa (Bits Line)

/-- A set of words: some fields have, others do not have, given values. -/
abbrev cube (eq ne : List Fld) : Model.Row := ⟨[], [], 0, eq, ne, [], [], .scalar⟩

/-- `field > v` as a list of excluded values. -/
def gtNe (f : Fld) : List Fld := (List.range (f.val + 1)).map fun v => ⟨f.pos, f.width, v⟩

/-- `field < v` as a list of excluded values. -/
def ltNe (f : Fld) : List Fld := (List.range (2 ^ f.width - f.val)).map fun v => ⟨f.pos, f.width, f.val + v⟩

/-- The words of a row. -/
def toCube (r : V2Isa.Row) : Model.Row := cube r.eq (r.ne ++ r.gt.flatMap gtNe ++ r.lt.flatMap ltNe)

def fld (b : Bits) : Fld := ⟨b.1, b.2.1, b.2.2⟩

/-- The words of a line. -/
def lineCube (e : Line) : Model.Row := cube (e.fixed.map fld) (e.other.map fld)

/-- The cube forces the field of `f` to a value other than that of `f`. -/
def excludes (key : Nat) (f : Fld) : Bool := Nat.land (swapKey key) (rowKey (cube [f] [])) != 0

def wfFld (f : Fld) : Bool := decide (f.val < 2 ^ f.width) && decide (f.pos + f.width ≤ 32)

/-- Every word of the cube `c` (with its key) is in the cube `d` (with its key). -/
def inside (ck : Nat) (c : Model.Row) (dk : Nat) (d : Model.Row) : Bool :=
  Nat.land ck dk == dk && d.eq.all wfFld && d.ne.all (fun f => c.ne.contains f || excludes ck f)

/-- The cube is covered by the rows and the holes, after splitting on the fields given. -/
def coverBy (rs : List V2Isa.Row) (holes : List Model.Row) : List Fld → Model.Row → Bool
  | [], c => rs.any (fun r => inside (rowKey c) c (rowKey (toCube r)) (toCube r)) ||
    holes.any (fun h => inside (rowKey c) c (rowKey h) h)
  | f :: ss, c => rs.any (fun r => inside (rowKey c) c (rowKey (toCube r)) (toCube r)) ||
    holes.any (fun h => inside (rowKey c) c (rowKey h) h) ||
    ((excludes (rowKey c) f || coverBy rs holes ss (cube (f :: c.eq) c.ne)) && coverBy rs holes ss (cube c.eq (f :: c.ne)))

/-- Evaluates the number once. -/
def force (n : Nat) (f : Nat → Bool) : Bool := Nat.rec (f 0) (fun m _ => f (m + 1)) n

theorem force_eq (n : Nat) (f : Nat → Bool) : force n f = f n := by cases n <;> rfl

/-- Collects the rows that meet the cube `c`, of which `s` is the swapped key. -/
def collect (c : Model.Row) (s : Nat) (p : List V2Isa.Row → Bool) (acc : List V2Isa.Row) : List Nat → List V2Isa.Row → Bool
  | k :: ks, r :: l => match Nat.beq (Nat.land s k) 0 with
    | false => collect c s p acc ks l
    | true => match guardConflict c (toCube r) with
      | true => collect c s p acc ks l
      | false => collect c s p (r :: acc) ks l
  | _, _ => p acc

/-- `p` holds of the list of the rows that meet the cube. -/
def meeting (c : Model.Row) (p : List V2Isa.Row → Bool) : Bool :=
  force (swapKey (rowKey c)) fun s => collect c s p [] keys rows

theorem field_lt (w : BitVec 32) (p n : Nat) : field w p n < 2 ^ n := by
  rw [field_nat]; exact Nat.mod_lt _ (Nat.two_pow_pos n)

theorem cube_matches (eq ne : List Fld) (w : BitVec 32) : (cube eq ne).matches w = true ↔
    (∀ f ∈ eq, field w f.pos f.width = f.val) ∧ (∀ f ∈ ne, field w f.pos f.width ≠ f.val) := by
  simp [Model.Row.matches, Fld.holds]

theorem gtNe_iff (f : Fld) (w : BitVec 32) :
    (∀ g ∈ gtNe f, field w g.pos g.width ≠ g.val) ↔ field w f.pos f.width > f.val := by
  simp only [gtNe, List.mem_map, List.mem_range]
  constructor
  · intro h
    refine Classical.byContradiction fun hc => ?_
    exact h ⟨f.pos, f.width, field w f.pos f.width⟩ ⟨_, by omega, rfl⟩ rfl
  · rintro h g ⟨v, hv, rfl⟩ e
    dsimp only at e
    omega

theorem ltNe_iff (f : Fld) (w : BitVec 32) :
    (∀ g ∈ ltNe f, field w g.pos g.width ≠ g.val) ↔ field w f.pos f.width < f.val := by
  have hl := field_lt w f.pos f.width
  simp only [ltNe, List.mem_map, List.mem_range]
  constructor
  · intro h
    refine Classical.byContradiction fun hc => ?_
    exact h ⟨f.pos, f.width, f.val + (field w f.pos f.width - f.val)⟩ ⟨_, by omega, rfl⟩ (by dsimp only; omega)
  · rintro h g ⟨v, hv, rfl⟩ e
    dsimp only at e
    omega

theorem toCube_matches (r : V2Isa.Row) (w : BitVec 32) : (toCube r).matches w = true ↔ r.matches w = true := by
  unfold toCube
  rw [cube_matches]
  simp only [V2Isa.Row.matches, Bool.and_eq_true, List.all_eq_true, beq_iff_eq, bne_iff_ne, decide_eq_true_eq, List.mem_append,
    List.mem_flatMap]
  constructor
  · rintro ⟨h1, h2⟩
    exact ⟨⟨⟨h1, fun f hf => h2 f (.inl (.inl hf))⟩, fun f hf => (gtNe_iff f w).1 fun g hg => h2 g (.inl (.inr ⟨f, hf, hg⟩))⟩,
      fun f hf => (ltNe_iff f w).1 fun g hg => h2 g (.inr ⟨f, hf, hg⟩)⟩
  · rintro ⟨⟨⟨h1, h2⟩, h3⟩, h4⟩
    refine ⟨h1, ?_⟩
    rintro g ((hg | ⟨f, hf, hg⟩) | ⟨f, hf, hg⟩)
    · exact h2 g hg
    · exact (gtNe_iff f w).2 (h3 f hf) g hg
    · exact (ltNe_iff f w).2 (h4 f hf) g hg

theorem field_bitsAt (w : BitVec 32) (p n : Nat) : field w p n = Spec.bitsAt w p n := by
  rw [field_nat, Spec.bitsAt, Nat.shiftRight_eq_div_pow]

theorem lineCube_matches (e : Line) (w : BitVec 32) : (lineCube e).matches w = true ↔ e.Is w := by
  unfold lineCube
  rw [cube_matches]
  simp only [Line.Is, fld, field_bitsAt, List.mem_map, forall_exists_index, and_imp, forall_apply_eq_imp_iff₂, ne_eq]

theorem excludes_ne {c : Model.Row} {w : BitVec 32} (h : c.matches w = true) {f : Fld} (hx : excludes (rowKey c) f = true) :
    field w f.pos f.width ≠ f.val := by
  intro e
  simp only [excludes, bne_iff_ne, ne_eq] at hx
  exact hx (swap_conflict h ((cube_matches [f] [] w).2 ⟨by simpa using e, by simp⟩))

theorem onesOf_mem {l : List Fld} {f : Fld} (hf : f ∈ l) (j : Nat) (h : (fOnes f).testBit j = true) :
    (onesOf l).testBit j = true := by
  induction l with
  | nil => simp at hf
  | cons g l ih =>
    rw [onesOf, Nat.testBit_or]
    rcases List.mem_cons.1 hf with rfl | hf
    · simp [h]
    · simp [ih hf]

theorem zerosOf_mem {l : List Fld} {f : Fld} (hf : f ∈ l) (j : Nat) (h : (fZeros f).testBit j = true) :
    (zerosOf l).testBit j = true := by
  induction l with
  | nil => simp at hf
  | cons g l ih =>
    rw [zerosOf, Nat.testBit_or]
    rcases List.mem_cons.1 hf with rfl | hf
    · simp [h]
    · simp [ih hf]

theorem inside_sound {c d : Model.Row} {w : BitVec 32} (hi : inside (rowKey c) c (rowKey d) d = true)
    (h : c.matches w = true) : d.matches w = true := by
  simp only [inside, Bool.and_eq_true, beq_iff_eq, List.all_eq_true, Bool.or_eq_true, List.contains_iff_mem] at hi
  obtain ⟨⟨hk, hw⟩, hn⟩ := hi
  have h1 := onesOf_sub c.eq w fun f hf => matches_eq h hf
  have h0 := zerosOf_disj c.eq w fun f hf => matches_eq h hf
  have hb : ∀ j, (rowKey d).testBit j = true → (rowKey c).testBit j = true := by
    intro j hj
    have := congrArg (fun n => n.testBit j) hk
    rw [show Nat.land (rowKey c) (rowKey d) = rowKey c &&& rowKey d from rfl] at this
    simp only [Nat.testBit_and, hj, Bool.and_true] at this
    exact this
  have e : d.matches w = true ↔ (cube d.eq d.ne).matches w = true := by simp [Model.Row.matches]
  rw [e, cube_matches]
  refine ⟨fun f hf => ?_, fun f hf => ?_⟩
  · have hwf := hw f hf
    simp only [wfFld, Bool.and_eq_true, decide_eq_true_eq] at hwf
    have ho : (onesOf c.eq) < 2 ^ 32 := by
      rw [← h1]; exact Nat.lt_of_le_of_lt Nat.and_le_left w.isLt
    refine field_of_bits f w hwf.1 ?_ ?_
    · apply Nat.eq_of_testBit_eq
      intro j
      rw [Nat.testBit_and]
      cases hj : (fOnes f).testBit j with
      | false => simp
      | true =>
        have hj32 : j < 32 := by
          rw [ones_testBit] at hj
          simp only [Bool.and_eq_true, decide_eq_true_eq] at hj
          omega
        have hd : (rowKey d).testBit j = true := by
          simp [rowKey, onesOf_mem hf j hj]
        have hc := hb j hd
        simp only [rowKey, Nat.testBit_or, Nat.testBit_shiftLeft, Bool.or_eq_true, Bool.and_eq_true, decide_eq_true_eq] at hc
        have hc : (onesOf c.eq).testBit j = true := by
          rcases hc with hc | ⟨hc, -⟩
          · exact hc
          · omega
        have := congrArg (fun n => n.testBit j) h1
        simpa [hc] using this
    · apply Nat.eq_of_testBit_eq
      intro j
      rw [Nat.testBit_and, Nat.zero_testBit]
      cases hj : (fZeros f).testBit j with
      | false => simp
      | true =>
        have hj32 : j < 32 := by
          rw [zeros_testBit] at hj
          simp only [Bool.and_eq_true, decide_eq_true_eq] at hj
          omega
        have hd : (rowKey d).testBit (32 + j) = true := by
          rw [rowKey, Nat.testBit_or, Nat.testBit_shiftLeft, Nat.testBit_mod_two_pow, Nat.add_sub_cancel_left,
            zerosOf_mem hf j hj]
          simp [hj32]
        have hc := hb _ hd
        simp only [rowKey, Nat.testBit_or, Nat.testBit_shiftLeft, Bool.or_eq_true, Bool.and_eq_true, decide_eq_true_eq,
          Nat.testBit_mod_two_pow, Nat.add_sub_cancel_left] at hc
        have hc : (zerosOf c.eq).testBit j = true := by
          rcases hc with hc | ⟨-, -, hc⟩
          · rw [Nat.testBit_lt_two_pow (Nat.lt_of_lt_of_le ho (Nat.pow_le_pow_right (by omega) (by omega)))] at hc
            exact absurd hc (by decide)
          · exact hc
        have := congrArg (fun n => n.testBit j) h0
        simpa [hc] using this
  · rcases hn f hf with hc | hx
    · exact matches_ne h hc
    · exact excludes_ne h hx

set_option maxRecDepth 100000 in
theorem keys_eq : rows.map (fun r => rowKey (toCube r)) = keys := by decide +kernel

theorem coverBy_sound (rs : List V2Isa.Row) (holes : List Model.Row) (w : BitVec 32) : ∀ (ss : List Fld) (c : Model.Row),
    coverBy rs holes ss c = true → c.matches w = true →
    (∃ r ∈ rs, r.matches w = true) ∨ ∃ d ∈ holes, d.matches w = true := by
  intro ss
  induction ss with
  | nil =>
    intro c hc h
    unfold coverBy at hc
    simp only [Bool.or_eq_true, List.any_eq_true] at hc
    rcases hc with ⟨r, hr, hi⟩ | ⟨d, hd, hi⟩
    · exact .inl ⟨r, hr, (toCube_matches r w).1 (inside_sound hi h)⟩
    · exact .inr ⟨d, hd, inside_sound hi h⟩
  | cons f ss ih =>
    intro c hc h
    unfold coverBy at hc
    simp only [Bool.or_eq_true, List.any_eq_true, Bool.and_eq_true] at hc
    rcases hc with (⟨r, hr, hi⟩ | ⟨d, hd, hi⟩) | ⟨h1, h2⟩
    · exact .inl ⟨r, hr, (toCube_matches r w).1 (inside_sound hi h)⟩
    · exact .inr ⟨d, hd, inside_sound hi h⟩
    · have hm : (∀ f ∈ c.eq, field w f.pos f.width = f.val) ∧ (∀ f ∈ c.ne, field w f.pos f.width ≠ f.val) :=
        ⟨fun f hf => matches_eq h hf, fun f hf => matches_ne h hf⟩
      by_cases hf : field w f.pos f.width = f.val
      · rcases h1 with h1 | h1
        · exact absurd hf (excludes_ne h h1)
        · exact ih _ h1 ((cube_matches _ _ w).2 ⟨by simpa using ⟨hf, hm.1⟩, hm.2⟩)
      · exact ih _ h2 ((cube_matches _ _ w).2 ⟨hm.1, by simpa using ⟨hf, hm.2⟩⟩)

theorem collect_sound {c : Model.Row} {p : List V2Isa.Row → Bool} :
    ∀ (l acc : List V2Isa.Row), collect c (swapKey (rowKey c)) p acc (l.map fun r => rowKey (toCube r)) l = true →
    ∃ rs, p rs = true ∧ (∀ r ∈ rs, r ∈ acc ∨ r ∈ l) ∧ (∀ r ∈ acc, r ∈ rs) ∧
      ∀ w, c.matches w = true → ∀ r ∈ l, r.matches w = true → r ∈ rs
  | [], acc, h => ⟨acc, h, fun r hr => .inl hr, fun r hr => hr, fun w _ r hr => by simp at hr⟩
  | a :: l, acc, h => by
    simp only [List.map_cons, collect] at h
    cases hk : Nat.beq (Nat.land (swapKey (rowKey c)) (rowKey (toCube a))) 0 with
    | false =>
      rw [hk] at h
      obtain ⟨rs, h1, h2, h3, h4⟩ := collect_sound l acc h
      refine ⟨rs, h1, fun r hr => (h2 r hr).imp id (by simp +contextual), h3, fun w hw r hr hm => ?_⟩
      rcases List.mem_cons.1 hr with rfl | hr
      · rw [swap_conflict hw ((toCube_matches _ w).2 hm)] at hk
        exact absurd hk (by decide)
      · exact h4 w hw r hr hm
    | true =>
      rw [hk] at h
      cases hg : guardConflict c (toCube a) with
      | true =>
        rw [hg] at h
        obtain ⟨rs, h1, h2, h3, h4⟩ := collect_sound l acc h
        refine ⟨rs, h1, fun r hr => (h2 r hr).imp id (by simp +contextual), h3, fun w hw r hr hm => ?_⟩
        rcases List.mem_cons.1 hr with rfl | hr
        · exact (guardConflict_disj hg w hw ((toCube_matches _ w).2 hm)).elim
        · exact h4 w hw r hr hm
      | false =>
        rw [hg] at h
        obtain ⟨rs, h1, h2, h3, h4⟩ := collect_sound l (a :: acc) h
        refine ⟨rs, h1, fun r hr => ?_, fun r hr => h3 r (by simp [hr]), fun w hw r hr hm => ?_⟩
        · rcases h2 r hr with h | h
          · rcases List.mem_cons.1 h with rfl | h
            · simp
            · exact .inl h
          · simp [h]
        · rcases List.mem_cons.1 hr with rfl | hr
          · exact h3 _ (by simp)
          · exact h4 w hw r hr hm

theorem meeting_sound {c : Model.Row} {p : List V2Isa.Row → Bool} (h : meeting c p = true) :
    ∃ rs, p rs = true ∧ (∀ r ∈ rs, r ∈ rows) ∧ ∀ w, c.matches w = true → ∀ r ∈ rows, r.matches w = true → r ∈ rs := by
  rw [meeting, force_eq, ← keys_eq] at h
  obtain ⟨rs, h1, h2, -, h4⟩ := collect_sound rows [] h
  exact ⟨rs, h1, fun r hr => (h2 r hr).elim (by simp) id, h4⟩

end Verif.Proofs.V2Isa
