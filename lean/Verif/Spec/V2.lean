/-!
# Access rules of the V2 core

A range is a start and a length, as mathematical integers. An access is allowed when all its bytes lie in one range.
-/

namespace Verif.Spec.V2

/-- The bytes `a, ..., a + n - 1` all lie in the range of `len` bytes from `start`. -/
def Within (start len a n : Nat) : Prop := ∀ i, i < n → start ≤ a + i ∧ a + i < start + len

/-- All of the `n` bytes at `a` lie in one of the ranges. -/
def Allowed (ranges : List (Nat × Nat)) (a n : Nat) : Prop := ∃ r ∈ ranges, Within r.1 r.2 a n

/-- The effects of the first `k` of a list of actions, in order. -/
def effects {S : Type} (hs : List (S → Bool × S)) (k : Nat) (s : S) : S := (hs.take k).foldl (fun s h => (h s).2) s

/-- The value of `n` bytes of memory, least significant first. -/
def bytesValue (mem : Nat → BitVec 8) (a : Nat) : Nat → Nat
  | 0 => 0
  | n + 1 => bytesValue mem a n + 256 ^ n * (mem (a + n)).toNat

/-- The value as two's complement. -/
def signedValue (n x : Nat) : Int := if x < 256 ^ n / 2 then x else (x : Int) - 256 ^ n

end Verif.Spec.V2
