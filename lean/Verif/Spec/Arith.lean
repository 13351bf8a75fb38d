/-!
# Mathematical specification of the lane operations

Only integers, powers of two and bit positions appear here; nothing of the model is used.
`w` is the lane width in bits, `s` says whether the lane is read as signed.
-/

namespace Verif.Spec

/-- Smallest value of a lane. -/
def lo (s : Bool) (w : Nat) : Int := if s then -(2 ^ (w - 1) : Int) else 0
/-- Largest value of a lane. -/
def hi (s : Bool) (w : Nat) : Int := if s then (2 ^ (w - 1) : Int) - 1 else (2 ^ w : Int) - 1

/-- Nearest value of the lane's range. -/
def sat (s : Bool) (w : Nat) (x : Int) : Int := max (lo s w) (min (hi s w) x)

/-- The value congruent to `x` modulo `2^w` in the lane's range. -/
def wrap (s : Bool) (w : Nat) (x : Int) : Int := if s then Int.bmod x (2 ^ w) else x % (2 ^ w)

/-- 0/1 truth value. -/
def truth (p : Prop) [Decidable p] : Int := if p then 1 else 0

/-- Absolute difference. -/
def absd (a b : Int) : Int := (a - b).natAbs

/-- Floor of `x / 2^n`, with one half added first when `round` (nothing is added for `n = 0`). -/
def shiftRight (round : Bool) (n : Nat) (x : Int) : Int :=
  Int.fdiv (x + if round ∧ 0 < n then (2 ^ (n - 1) : Int) else 0) (2 ^ n)

/-- Shift by a signed amount: right for positive, exact left shift for negative. -/
def shiftBoth (round : Bool) (s : Int) (x : Int) : Int :=
  if 0 ≤ s then shiftRight round s.toNat x else x * 2 ^ (-s).toNat

/-- Doubling high multiply with optional rounding: one half is added, or subtracted when
`roundNeg` and the product is negative. -/
def dmulh (round roundNeg : Bool) (w : Nat) (a b : Int) : Int :=
  Int.fdiv (2 * (a * b) +
    (if round then (if roundNeg ∧ a * b < 0 then -(2 ^ (w - 1) : Int) else 2 ^ (w - 1)) else 0)) (2 ^ w)

/-- Bit `i` of the two's complement representation of `x`. -/
def bit (x : Int) (i : Nat) : Bool := (x / 2 ^ i) % 2 = 1

/-- `n` is the length of the longest run of bits equal to `b` starting at the top of a `w`-bit value. -/
def LeadingRun (b : Bool) (w : Nat) (x : Nat) (n : Nat) : Prop :=
  n ≤ w ∧ (∀ i, w - n ≤ i → i < w → x.testBit i = b) ∧ (n < w → x.testBit (w - 1 - n) = !b)

/-- Number of set bits of a `w`-bit value. -/
def ones (w : Nat) (x : Nat) : Nat := ((List.range w).filter (fun i => x.testBit i)).length

end Verif.Spec
