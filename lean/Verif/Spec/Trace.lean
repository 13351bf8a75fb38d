import Verif.Spec.Program

/-!
# What a trace should contain

The addresses and words of the instructions executed by the undisturbed program, in order.
-/

namespace Verif.Spec.Trace
open Verif.Spec.Program

/-- The first `j` instructions of the program. -/
def path {σ : Type} (sem : Sem σ) (m : Machine σ) (j : Nat) : List (BitVec 32 × BitVec 32) :=
  (List.range j).map fun i => ((run sem i m).pc, word (run sem i m).mem (run sem i m).pc.toNat)

end Verif.Spec.Trace
