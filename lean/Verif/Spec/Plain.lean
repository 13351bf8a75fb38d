import Verif.Spec.Program

/-! # Programs that do not change the code they run -/

namespace Verif.Spec.Program

/-- In the first `n` instructions, a word that has been executed stays what it was. -/
def Steady {σ : Type} (sem : Sem σ) (m : Machine σ) (n : Nat) : Prop :=
  ∀ i j, i ≤ j → j < n →
    word (run sem j m).mem (run sem i m).pc.toNat = word (run sem i m).mem (run sem i m).pc.toNat

end Verif.Spec.Program
