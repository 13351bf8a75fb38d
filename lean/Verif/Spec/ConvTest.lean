import Verif.Spec.Conv

/-!
# The repository's convolution test

The data layout and the expected values of `/repo/sim/test/coralnpu_vector_convolution_instructions_test.cc`,
written for arbitrary data instead of the constants and ascending values of the test.
-/

namespace Verif.Spec.ConvTest

/-- Byte of a register in which `SetRegisterAscending` stores element `i` (test.cc 47-67): the elements
come in four groups of eight, one byte of each word per group, the middle two groups exchanged. -/
def place (i : Nat) : Nat :=
  let reg := match i / 8 % 4 with
    | 0 => 0
    | 1 => 2
    | 2 => 1
    | _ => 3
  4 * (i % 8) + reg

/-- Register `v` holds the 32 elements `x` in the layout of the test. -/
def Holds (v : BitVec 256) (x : Nat → BitVec 8) : Prop :=
  ∀ i < 32, v.extractLsb' (place i * 8) 8 = x i

/-- The activation that filter `r` meets at element `i` (test.cc 247-291 for sparsity 0, 460-521 for 1 and
523-586 for 2). `p`, `c`, `n` are the elements of the previous, the current and the next register. With
sparsity 1 every group of eight is a window on `p`, `c`, `n` that moves from one element to the left to
one to the right; with sparsity 2 it starts on `p` and moves into `c`. -/
def tap (sparsity : Nat) (p c n : Nat → BitVec 8) (r i : Nat) : BitVec 8 :=
  match sparsity, r with
  | 0, 0 => p i
  | 0, 1 => c i
  | 0, _ => n i
  | 1, 0 => if i % 8 = 0 then p (i + 7) else c (i - 1)
  | 1, 1 => c i
  | 1, _ => if i % 8 = 7 then n (i - 7) else c (i + 1)
  | _, 0 => p i
  | _, 1 => if i % 8 = 7 then c (i - 7) else p (i + 1)
  | _, _ => if i % 8 ≥ 6 then c (i - 6) else p (i + 2)

end Verif.Spec.ConvTest
