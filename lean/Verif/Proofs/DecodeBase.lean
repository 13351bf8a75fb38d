import Verif.Proofs.DecodeSpecial
import Verif.Spec.Rv32

/-! # The base instructions -/

namespace Verif.Proofs
open Verif Verif.Model

/-- Some row named in `names` of the first group only has constraints among the given ones. -/
def covered (names : List (List Tok)) (eqs nes : List Fld) : Bool :=
  Gen.group0.any fun r => r.group == 0 && names.contains r.name && r.eq.all (eqs.contains ·) && r.ne.all (nes.contains ·)

theorem covered_decodes {names : List (List Tok)} {eqs nes : List Fld} (h : covered names eqs nes = true) {w : BitVec 32}
    (he : ∀ f ∈ eqs, field w f.pos f.width = f.val) (hn : ∀ f ∈ nes, field w f.pos f.width ≠ f.val) :
    ∃ r, Decodes w r ∧ r.name ∈ names := by
  simp only [covered, List.any_eq_true, Bool.and_eq_true, beq_iff_eq, List.all_eq_true, List.contains_iff_mem] at h
  obtain ⟨r, hr, ⟨⟨h0, hname⟩, h1⟩, h2⟩ := h
  refine ⟨r, ⟨by simp [allRows, hr], ?_, fun r' _ hg => by omega⟩, hname⟩
  simp only [Row.matches, Bool.and_eq_true, List.all_eq_true, Bool.not_eq_true']
  refine ⟨fun f hf => (holds_iff f w).2 (he f (h1 f hf)), fun f hf => ?_⟩
  have := hn f (h2 f hf)
  simpa [Fld.holds] using this

/-- The fixed fields of a line of the standard. -/
def stdFlds (e : Spec.StdEnc) : List Fld :=
  ⟨0, 7, e.opcode⟩ :: ((e.f3.map fun f => (⟨12, 3, f⟩ : Fld)).toList ++ (e.f7.map fun f => (⟨25, 7, f⟩ : Fld)).toList)

theorem stdFlds_holds {e : Spec.StdEnc} {w : BitVec 32} (h : e.Is w) : ∀ f ∈ stdFlds e, field w f.pos f.width = f.val := by
  obtain ⟨h1, h2, h3⟩ := h
  intro f hf
  simp only [stdFlds, List.mem_cons, List.mem_append, Option.mem_toList, Option.map_eq_some_iff, Option.mem_def] at hf
  rcases hf with rfl | ⟨a, ha, rfl⟩ | ⟨a, ha, rfl⟩
  · rw [field_eq]; exact h1
  · rw [field_eq]; exact h2 a ha
  · rw [field_eq]; exact h3 a ha

/-- The possible shapes of the remaining fields: `rd`, `rs1`, immediate zero or not, and `rs1 = x1`. -/
def splitFlds : List Fld := [⟨7, 5, 0⟩, ⟨15, 5, 0⟩, ⟨15, 5, 1⟩, ⟨20, 12, 0⟩]

/-- All the ways to make the fields of a list hold or not. -/
def splits : List Fld → List (List Fld × List Fld)
  | [] => [([], [])]
  | f :: l => (splits l).map (fun p => (f :: p.1, p.2)) ++ (splits l).map (fun p => (p.1, f :: p.2))

theorem splits_cover (w : BitVec 32) : ∀ l : List Fld, ∃ p ∈ splits l,
    (∀ f ∈ p.1, field w f.pos f.width = f.val) ∧ (∀ f ∈ p.2, field w f.pos f.width ≠ f.val)
  | [] => ⟨([], []), by simp [splits], by simp, by simp⟩
  | f :: l => by
    obtain ⟨p, hp, h1, h2⟩ := splits_cover w l
    by_cases hf : field w f.pos f.width = f.val
    · refine ⟨(f :: p.1, p.2), ?_, ?_, h2⟩
      · simp only [splits, List.mem_append, List.mem_map]; exact .inl ⟨p, hp, rfl⟩
      · simp only [List.mem_cons]; rintro g (rfl | hg)
        · exact hf
        · exact h1 g hg
    · refine ⟨(p.1, f :: p.2), ?_, h1, ?_⟩
      · simp only [splits, List.mem_append, List.mem_map]; exact .inr ⟨p, hp, rfl⟩
      · simp only [List.mem_cons]; rintro g (rfl | hg)
        · exact hf
        · exact h2 g hg

/-- The split is one of the two holes, or contradictory. -/
def holeSplit (e : Spec.StdEnc) (p : List Fld × List Fld) : Bool :=
  (e.name == .jalr && p.1.contains ⟨7, 5, 0⟩ && p.1.contains ⟨15, 5, 1⟩ && p.2.contains ⟨20, 12, 0⟩) ||
  (e.name == .addi && p.1.contains ⟨7, 5, 0⟩ && p.1.contains ⟨15, 5, 0⟩ && p.2.contains ⟨20, 12, 0⟩)

set_option maxRecDepth 100000 in
theorem std_covered : Spec.rv32im.all (fun e => (splits splitFlds).all fun p =>
    holeSplit e p || covered (Spec.aliases e.name) (stdFlds e ++ p.1) p.2) = true := by decide +kernel

set_option maxRecDepth 100000 in
theorem std_names : Spec.rv32im.all (fun e => (e.name != .jalr || e == ⟨.jalr, 0b1100111, some 0, none⟩) &&
    (e.name != .addi || e == ⟨.addi, 0b0010011, some 0, none⟩)) = true := by decide +kernel

/-- A row standing for the words of a hole. -/
def jalrHoleRow : Row := ⟨[], [], 0, [⟨0, 7, 103⟩, ⟨12, 3, 0⟩, ⟨7, 5, 0⟩, ⟨15, 5, 1⟩], [⟨20, 12, 0⟩], [], [], .scalar⟩
def addiHoleRow : Row := ⟨[], [], 0, [⟨0, 7, 19⟩, ⟨12, 3, 0⟩, ⟨7, 5, 0⟩, ⟨15, 5, 0⟩], [⟨20, 12, 0⟩], [], [], .scalar⟩

set_option maxRecDepth 100000 in
theorem holes_free : allRows.all (fun r => (conflict jalrHoleRow r || guardConflict jalrHoleRow r) &&
    (conflict addiHoleRow r || guardConflict addiHoleRow r || r.isAdwinit)) = true := by decide +kernel

end Verif.Proofs
