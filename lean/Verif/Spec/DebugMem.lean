/-!
# Debug memory access: what the caller sees

Plain byte arrays; no definition refers to the model.
-/

namespace Verif.Spec.DebugMem

/-- `m'` is `m` with the bytes `d` at address `a`. -/
def IsWrite (m m' : Nat → BitVec 8) (a : Nat) (d : List (BitVec 8)) : Prop :=
  (∀ k, (h : k < d.length) → m' (a + k) = d[k]) ∧ ∀ q, q < a ∨ a + d.length ≤ q → m' q = m q

/-- The bytes at `a, a+1, …` are `d`. -/
def Holds (m : Nat → BitVec 8) (a : Nat) (d : List (BitVec 8)) : Prop :=
  ∀ k, (h : k < d.length) → m (a + k) = d[k]

/-- A file fits when each of its bytes has an address in the 4 MiB space. -/
def Fits (start : Nat) (f : List (BitVec 8)) : Prop := ∀ k < f.length, start + k < 0x400000

end Verif.Spec.DebugMem
