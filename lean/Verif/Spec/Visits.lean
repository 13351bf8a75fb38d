import Verif.Spec.Program

/-! # How often a program comes by -/

namespace Verif.Spec.Program

/-- The number of those among the first `n` instructions that stand at an address of `bps`. -/
def visits {σ : Type} (sem : Sem σ) (bps : Nat → Bool) (m : Machine σ) (n : Nat) : Nat :=
  ((List.range n).filter fun i => bps (run sem i m).pc.toNat).length

end Verif.Spec.Program
