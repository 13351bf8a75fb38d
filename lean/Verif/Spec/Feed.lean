import Verif.Spec.Program

/-!
# Executing the instructions that a caller supplies

In cosimulation the caller hands over the word of each instruction. `fed` is the execution that results.
-/

namespace Verif.Spec.Feed

open Verif.Spec.Program

variable {σ : Type}

/-- The machine with the word `w` at its pc. -/
def supply (w : BitVec 32) (m : Machine σ) : Machine σ :=
  { m with mem := fun q => if m.pc.toNat ≤ q ∧ q < m.pc.toNat + 4 then w.extractLsb' (8 * (q - m.pc.toNat)) 8 else m.mem q }

/-- `k` instructions, the words being supplied. -/
def fed (sem : Sem σ) (ws : Nat → BitVec 32) : Nat → Machine σ → Machine σ
  | 0, m => m
  | k + 1, m => (next sem (supply (ws k) (fed sem ws k m))).1

/-- What instruction `k` asks for. -/
def stops (sem : Sem σ) (ws : Nat → BitVec 32) (k : Nat) (m : Machine σ) : List Stop :=
  (next sem (supply (ws k) (fed sem ws k m))).2

/-- Among the first `n` words, those supplied at the same place are the same. -/
def Consistent (sem : Sem σ) (ws : Nat → BitVec 32) (n : Nat) (m : Machine σ) : Prop :=
  ∀ i j, i < j → j < n → (fed sem ws i m).pc = (fed sem ws j m).pc → ws i = ws j

end Verif.Spec.Feed
