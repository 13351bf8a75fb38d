import Verif.Proofs.DecodeExec
import Verif.Spec.Isa

/-! # Rows overlapping `acset`, `actr` and `adwinit` -/

namespace Verif.Proofs
open Verif Verif.Model

/-- The `==` constraints of the rows contradict each other. -/
def conflict (r r' : Row) : Bool := Nat.land (swapKey (rowKey r)) (rowKey r') != 0

theorem conflict_disj {r r' : Row} (h : conflict r r' = true) : Disjoint r r' := by
  intro w a b
  simp only [conflict, bne_iff_ne, ne_eq] at h
  exact h (swap_conflict a b)

def specials : List Row := allRows.filter isSpecial

/-- The row names hidden in part by `acset`, `actr` or `adwinit`. -/
def shadowed : List (List Tok) :=
  [[.vdmulh, .b, .vv], [.vdmulh, .b, .vx], [.vdmulh, .h, .vv], [.vdmulh, .h, .vx], [.vdmulh, .w, .vv], [.vdmulh, .w, .vx],
   [.vdmulh, .b, .r, .vv], [.vdmulh, .b, .r, .vx],
   [.vsrans, .b, .vv], [.vsrans, .b, .vx], [.vsrans, .h, .vv], [.vsrans, .h, .vx],
   [.vsrans, .b, .r, .vv], [.vsrans, .b, .r, .vx],
   [.vsransu, .b, .vv], [.vsransu, .b, .vx], [.vsransu, .h, .vv], [.vsransu, .h, .vx],
   [.vsel, .b, .vv], [.vsel, .b, .vx], [.vsel, .h, .vv], [.vsel, .h, .vx], [.vsel, .w, .vv], [.vsel, .w, .vx]]

/-- `vdup` of a single register. -/
def isVdupX (r : Row) : Bool := r.name == [.vdup, .b, .x] || r.name == [.vdup, .h, .x] || r.name == [.vdup, .w, .x]

/-- Rows from group 3 on are apart from the special rows, with the listed exceptions. -/
def specialOk (r : Row) : Bool :=
  decide (r.group < 3) || isSpecial r || shadowed.contains r.name ||
    specials.all fun sp => conflict sp r || (sp.name == [.acset] && isVdupX r)

set_option maxRecDepth 100000 in
theorem allRows_specialOk : allRows.all specialOk = true := by decide +kernel

/-- A witness for each shadowed row. -/
def shadowWord (r sp : Row) : BitVec 32 := BitVec.ofNat 32 (onesOf r.eq ||| onesOf sp.eq)

def shadowOk (r : Row) : Bool :=
  !shadowed.contains r.name ||
    (r.matches (shadowWord r (specials.find? (fun sp => sp.matches (shadowWord r sp) && r.matches (shadowWord r sp)) |>.getD r)) &&
      decide (3 < r.group) && specials.any fun sp => sp.group == 3 && sp.matches (shadowWord r
        (specials.find? (fun sp => sp.matches (shadowWord r sp) && r.matches (shadowWord r sp)) |>.getD r)))

set_option maxRecDepth 100000 in
theorem allRows_shadowOk : allRows.all shadowOk = true := by decide +kernel

/-- A special row restricted to `func1 = 1`, `form = 2`. -/
def accRow (sp : Row) : Row := { sp with eq := ⟨2, 3, 1⟩ :: ⟨0, 2, 2⟩ :: sp.eq }

set_option maxRecDepth 100000 in
theorem accRow_apart : specials.all (fun sp => allRows.all fun r => r == sp || conflict (accRow sp) r) = true := by
  decide +kernel

theorem accRow_matches {sp : Row} {w : BitVec 32} (h : sp.matches w = true) (hf : AccForm w) : (accRow sp).matches w = true := by
  simp only [Row.matches, Bool.and_eq_true, List.all_eq_true] at h ⊢
  refine ⟨?_, h.2⟩
  intro f hfm
  simp only [accRow, List.mem_cons] at hfm
  rcases hfm with rfl | rfl | hfm
  · exact (holds_iff _ _).2 hf.1
  · exact (holds_iff _ _).2 hf.2
  · exact h.1 f hfm

set_option maxRecDepth 100000 in
theorem specials_group : specials.all (fun sp => sp.group == 3) = true := by decide +kernel

set_option maxRecDepth 100000 in
theorem specials_apart : specials.all (fun sp => specials.all fun sp' => sp == sp' || conflict sp sp') = true := by decide +kernel

theorem mem_specials {r : Row} (hr : r ∈ allRows) (h : isSpecial r = true) : r ∈ specials := by
  simp [specials, hr, h]

/-- A word matched by a special row and another row of group 3 or later. -/
theorem special_overlap {sp r : Row} {w : BitVec 32} (hsp : sp ∈ specials) (hr : r ∈ allRows) (hg : 3 ≤ r.group)
    (hw : sp.matches w = true) (hw' : r.matches w = true) :
    r = sp ∨ r.name ∈ shadowed ∨ (sp.name = [.acset] ∧ isVdupX r = true) := by
  have h := List.all_eq_true.1 allRows_specialOk r hr
  simp only [specialOk, Bool.or_eq_true, decide_eq_true_eq, List.all_eq_true] at h
  rcases h with ((h | h) | h) | h
  · omega
  · have := List.all_eq_true.1 specials_apart sp hsp
    have := List.all_eq_true.1 this r (mem_specials hr h)
    simp only [Bool.or_eq_true, beq_iff_eq] at this
    rcases this with e | e
    · exact .inl e.symm
    · exact (conflict_disj e w hw hw').elim
  · exact .inr (.inl (by simpa using h))
  · rcases h sp hsp with e | e
    · exact (conflict_disj e w hw hw').elim
    · simp only [Bool.and_eq_true, beq_iff_eq] at e
      exact .inr (.inr e)

end Verif.Proofs
