import Verif.Spec.Memory

/-!
# Data in memory and in vector registers

Used by property C119: what a host places in memory, and what vector registers hold after they have been filled from memory.
-/

namespace Verif.Spec

/-- Memory after blocks of bytes have been placed in it, one after the other. -/
def placed : (Nat → BitVec 8) → List (Nat × List (BitVec 8)) → Nat → BitVec 8
  | mem, [] => mem
  | mem, (a, l) :: bs => placed (fun q => if a ≤ q ∧ q < a + l.length then l.getD (q - a) 0 else mem q) bs

/-- Registers `g` to `g + n - 1` hold the `32 * n` bytes of memory at `a`, the others what they held before. -/
def filled (g n a : Nat) (mem : Nat → BitVec 8) (v : Nat → BitVec 256) : Nat → BitVec 256 := fun q =>
  if g ≤ q ∧ q < g + n then BitVec.ofNat 256 (loadLE 32 mem (a + 32 * (q - g))) else v q

end Verif.Spec
