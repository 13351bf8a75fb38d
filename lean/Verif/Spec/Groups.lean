import Verif.Base.Outcome

/-! # Vocabulary for what an instruction depends on. Nothing of the model is used here. -/

namespace Verif.Spec

/-- Both runs end in the same way, with related results. -/
def Alike {α β : Type} (R : α → β → Prop) : Outcome α → Outcome β → Prop
  | .ok a, .ok b => R a b
  | .ub, .ub => True
  | .abort, .abort => True
  | _, _ => False

/-- Register `q` belongs to one of the groups `(first, count)`. -/
def InGroups (gs : List (Nat × Nat)) (q : Nat) : Prop := ∃ g ∈ gs, g.1 ≤ q ∧ q < g.1 + g.2

/-- Two register files are the same on the registers in `V`. -/
def SameOn (V : Nat → Prop) (v v' : Nat → BitVec 256) : Prop := ∀ q, V q → v q = v' q

end Verif.Spec
