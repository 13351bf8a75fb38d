import Verif.Spec.BlockMem

/-!
# Vector accesses of a memory of blocks with units of more than one byte (C114)

A unit of `u` bytes takes the place of `v` bytes in a block of `B` units, `v` the largest power of two that is not larger than `u`.
-/

namespace Verif.Spec.BlockUnits

open Verif.Spec.BlockMem (inside)

/-- The address of element `i`: from the list if there are several addresses, otherwise `size` per element after the one. -/
def elemAt (addrs : List Nat) (size i : Nat) : Nat :=
  if 1 < addrs.length then addrs.getD i 0 else (addrs.getD 0 0 + i * size) % 18446744073709551616

/-- An element of `k` units at `a` that is transferred. -/
def Good (B u lo hi k a : Nat) : Prop := inside lo hi a k ∧ (a % B + k) * 2 ^ Nat.log2 u ≤ B * u

/-- What a vector load leaves behind, from element `i` on. -/
def Loaded (B v k size : Nat) (addrs : List Nat) (i : Nat) (mask : List Bool) (buf : Nat → BitVec 8)
    (heap : Nat → Nat → BitVec 8) (r : (Nat → BitVec 8) × (Nat → Nat → BitVec 8)) : Prop :=
  r.2 = heap ∧
  (∀ q, (∀ j < mask.length, mask.getD j false = true → ¬ ((i + j) * size ≤ q ∧ q < (i + j) * size + k * v)) → r.1 q = buf q) ∧
  ∀ j < mask.length, mask.getD j false = true → ∀ t < k * v,
    r.1 ((i + j) * size + t) = heap (elemAt addrs size (i + j) / B) (elemAt addrs size (i + j) % B * v + t)

/-- Byte `o` of block `b` belongs to the element at `a`. -/
def Reaches (B v k a b o : Nat) : Prop := b = a / B ∧ a % B * v ≤ o ∧ o < a % B * v + k * v

/-- What a vector store leaves behind: the last element that reaches a byte decides. -/
def Stored (B v k size : Nat) (addrs : List Nat) (i : Nat) (mask : List Bool) (buf : Nat → BitVec 8)
    (heap : Nat → Nat → BitVec 8) (r : (Nat → BitVec 8) × (Nat → Nat → BitVec 8)) : Prop :=
  r.1 = buf ∧
  (∀ b o, (∀ j < mask.length, mask.getD j false = true → ¬ Reaches B v k (elemAt addrs size (i + j)) b o) → r.2 b o = heap b o) ∧
  ∀ b o, ∀ j < mask.length, mask.getD j false = true → Reaches B v k (elemAt addrs size (i + j)) b o →
    (∀ j' < mask.length, j < j' → mask.getD j' false = true → ¬ Reaches B v k (elemAt addrs size (i + j')) b o) →
    r.2 b o = buf ((i + j) * size + (o - elemAt addrs size (i + j) % B * v))

end Verif.Spec.BlockUnits
