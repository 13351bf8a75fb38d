import Verif.Spec.Program

/-!
# What the performance counters should show

The instructions executed by the undisturbed program, by kind.
-/

namespace Verif.Spec.Counters
open Verif.Spec.Program

variable {σ κ : Type} [DecidableEq κ]

/-- The words of the first `j` instructions of the program, in order. -/
def words (sem : Sem σ) (m : Machine σ) (j : Nat) : List (BitVec 32) :=
  (List.range j).map fun i => word (run sem i m).mem (run sem i m).pc.toNat

/-- How many of the words have kind `o`. -/
def ofKind (kind : BitVec 32 → κ) (o : κ) (l : List (BitVec 32)) : Nat := (l.filter fun w => kind w = o).length

end Verif.Spec.Counters
