import Verif.Spec.Kernel
import Verif.Spec.Conv

/-! # Specification vocabulary for the product of two matrices in memory. Nothing of the model is used here. -/

namespace Verif.Spec

/-- One cell of a matrix product. The left matrix is stored as `K` tiles of 8 rows of 32 bytes (256 bytes a tile), the
right matrix as `K` tiles of 8 groups of 8 columns of 4 consecutive bytes, so that the byte `n` of column `w` of a tile is
at `32 * (n / 4) + 4 * w + n % 4`. Row `i` of the left matrix (from byte `start` of each row on) is multiplied with column
`w` of the right matrix, `N` products a tile, each byte read as a signed or unsigned number and biased. -/
def matDot (s1 s2 : Bool) (b1 b2 : Int) (start N : Nat) (mem : Nat → BitVec 8) (a b i w K : Nat) : Int :=
  sum K fun t => sum N fun n =>
    (memElem s1 8 mem (a + 256 * t + 32 * i + (start + n)) + b1) *
      (memElem s2 8 mem (b + 256 * t + 32 * (n / 4) + 4 * w + n % 4) + b2)

end Verif.Spec
