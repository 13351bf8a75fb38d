import Verif.Spec.Memory

/-! # Specification vocabulary for arrays in memory. Nothing of the model is used here. -/

namespace Verif.Spec

/-- The `w`-bit little-endian element at address `a`, as an integer. -/
def memElem (s : Bool) (w : Nat) (mem : Nat → BitVec 8) (a : Nat) : Int :=
  value s w (BitVec.ofNat w (loadLE (w / 8) mem a))

/-- `mem'` is `mem` with the first `k` elements of the array at `d` replaced by `f` of the elements of the same index of
the arrays at `a` and `b` of `mem`, and nothing else changed. -/
def Mapped (sd ss : Bool) (w : Nat) (f : Int → Int → Int) (d a b k : Nat) (mem mem' : Nat → BitVec 8) : Prop :=
  (∀ e < k, memElem sd w mem' (d + e * (w / 8)) =
    f (memElem ss w mem (a + e * (w / 8))) (memElem ss w mem (b + e * (w / 8)))) ∧
  ∀ q, (q < d ∨ d + k * (w / 8) ≤ q) → mem' q = mem q

/-- An array of `n` bytes at `d` may be written front to back while one at `a` is read front to back, a piece at a time:
the first does not start inside the second (it may start at the same place, or before it). -/
def Behind (d a n : Nat) : Prop := d ≤ a ∨ a + n ≤ d

instance (d a n : Nat) : Decidable (Behind d a n) := inferInstanceAs (Decidable (_ ∨ _))

end Verif.Spec
