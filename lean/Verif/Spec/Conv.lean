import Verif.Spec.Vector

/-!
# Specification vocabulary for the convolution instructions
-/

namespace Verif.Spec

/-- Bits `lo .. lo+n-1` of a command word. -/
def bitsAt (x : BitVec 32) (lo n : Nat) : Nat := x.toNat / 2 ^ lo % 2 ^ n

/-- The same bits read as two's complement. -/
def sbitsAt (x : BitVec 32) (lo n : Nat) : Int := Int.bmod (bitsAt x lo n) (2 ^ n)

/-- Sum of `f 0 .. f (n-1)`. -/
def sum (n : Nat) (f : Nat → Int) : Int := ((List.range n).map f).sum

/-- The 8-bit lane `i` of a register plus a bias. -/
def biased (s : Bool) (b : Int) (r : BitVec 256) (i : Nat) : Int := lane s 8 r i + b

/-- The dot product accumulated by `aconv` for narrow row `i` and wide column word `w`:
step `k` pairs the four bytes of word `start + k` of narrow register `i` with the four bytes of word
`w` of wide register `k`. -/
def convDot (s1 s2 : Bool) (b1 b2 : Int) (start steps : Nat) (narrow wide : Nat → BitVec 256) (i w : Nat) : Int :=
  sum steps fun k => sum 4 fun b =>
    biased s1 b1 (narrow i) (4 * (start + k) + b) * biased s2 b2 (wide k) (4 * w + b)

/-- Order in which the double-widened results are interleaved. -/
def swap12 (i : Nat) : Nat := if i = 1 then 2 else if i = 2 then 1 else i

/-- Accumulator cell of narrow row `i` and column word `w`. -/
def cellRow (i w : Nat) : Nat := 4 * (i / 4) + swap12 (w % 4)
def cellCol (i w : Nat) : Nat := 2 * (i % 4) + w / 4

/-- Word `i` of the concatenation of registers. -/
def catWord (rs : List (BitVec 256)) (i : Nat) : BitVec 32 := (rs.getD (i / 8) 0).extractLsb' (i % 8 * 32) 32

/-- Activation word `w` of product `r` of a depthwise convolution: with sparsity 0 the three registers
themselves; with sparsity 1 a window of 8 words around the second register moving by one word; with
sparsity 2 a window starting at the first register. -/
def dwWord (sparsity : Nat) (v0 v1 v2 : BitVec 256) (r w : Nat) : BitVec 32 :=
  match sparsity with
  | 0 => catWord [v0, v1, v2] (8 * r + w)
  | 1 => catWord [v0, v1, v2] (7 + r + w)
  | _ => catWord [v0, v1] (r + w)

/-- Byte `b` of a word. -/
def wordByte (s : Bool) (x : BitVec 32) (b : Nat) : Int := value s 8 (x.extractLsb' (b * 8) 8)

/-- The three registers used for a register base. -/
def dwRegs (base : Nat) : List Nat :=
  [[0, 1, 2], [1, 2, 3], [2, 3, 4], [3, 4, 5], [4, 5, 6], [5, 6, 7], [6, 7, 8], [1, 0, 2],
   [1, 2, 0], [3, 4, 0], [5, 6, 0], [7, 8, 0], [2, 0, 1], [4, 0, 1], [6, 0, 1], [8, 0, 1]].getD base []

end Verif.Spec
