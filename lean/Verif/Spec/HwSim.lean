/-!
# Stores, and when a program has ended

For C58 and C59. Uses no definition of the model.
-/

namespace Verif.Spec.HwSim

/-- After a store of the low `n` bytes of `v` at `a`, least significant first, memory `m` has become `m'`. -/
def Stored (a n : Nat) (v : BitVec 32) (m m' : Nat → BitVec 8) : Prop :=
  (∀ i, i < n → (m' (a + i)).toNat = v.toNat / 256 ^ i % 256) ∧ ∀ q, q < a ∨ a + n ≤ q → m' q = m q

/-- The word at `a`, least significant byte first, is `v`. -/
def WordIs (m : Nat → BitVec 8) (a : Nat) (v : BitVec 32) : Prop :=
  ∀ i, i < 4 → (m (a + i)).toNat = v.toNat / 256 ^ i % 256

/-- The program has ended: the pc is outside the 8 KiB of program memory, or the next instruction is the halt of the core
(`mpause`) or `wfi`. -/
def Ended (pc : Nat) (m : Nat → BitVec 8) : Prop := 0x2000 ≤ pc ∨ WordIs m pc 0x08000073#32 ∨ WordIs m pc 0x10500073#32

end Verif.Spec.HwSim
