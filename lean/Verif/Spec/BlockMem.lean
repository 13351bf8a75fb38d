/-!
# Flat byte memory with bounds

What a client of the memory interface expects: one array of bytes, valid on `[lo, hi)`; everything else is refused.
No definition here refers to the model.
-/

namespace Verif.Spec.BlockMem

abbrev Flat := Nat → BitVec 8

/-- A non-empty request lies inside `[lo, hi)`. -/
def inside (lo hi address n : Nat) : Prop := lo ≤ address ∧ address + n ≤ hi ∧ 0 < n

instance (lo hi address n : Nat) : Decidable (inside lo hi address n) := by unfold inside; infer_instance

/-- The `n` bytes at `address`. -/
def read (m : Flat) (address n : Nat) : List (BitVec 8) := (List.range n).map fun k => m (address + k)

/-- Write a list of bytes at `address`. -/
def write (m : Flat) (address : Nat) (d : List (BitVec 8)) : Flat :=
  fun q => if h : address ≤ q ∧ q - address < d.length then d[q - address]'h.2 else m q

/-- One memory transaction. A vector transaction has a list of addresses (one: unit stride from it; several: one per
element), a mask and an element size in bytes; `dest` is the previous content of the destination buffer. -/
inductive Op where
  | load (address n : Nat)
  | store (address : Nat) (data : List (BitVec 8))
  | gather (addrs : List Nat) (mask : List Bool) (size : Nat) (dest : List (BitVec 8))
  | scatter (addrs : List Nat) (mask : List Bool) (size : Nat) (data : List (BitVec 8))

/-- The address of element `i`. -/
def elemAddr (addrs : List Nat) (size i : Nat) : Nat :=
  if 1 < addrs.length then addrs.getD i 0 else (addrs.getD 0 0 + i * size) % 2 ^ 64

/-- The bytes left in the destination buffer by a gather: element `i` is loaded when its mask bit is set and keeps
its previous content otherwise. -/
def gathered (m : Flat) (addrs : List Nat) (mask : List Bool) (size : Nat) (dest : List (BitVec 8)) :
    List (BitVec 8) :=
  (List.range dest.length).map fun q =>
    if mask[q / size]? = some true then m (elemAddr addrs size (q / size) + q % size) else dest.getD q 0

/-- The memory after a scatter whose first mask bit belongs to element `i`: elements are stored in increasing
order. -/
def scattered (addrs : List Nat) (size : Nat) (data : List (BitVec 8)) : Nat → List Bool → Flat → Flat
  | _, [], m => m
  | i, b :: mask, m =>
    scattered addrs size data (i + 1) mask
      (if b then write m (elemAddr addrs size i) ((data.drop (i * size)).take size) else m)

/-- Every element whose mask bit is set lies inside. -/
def allInside (lo hi : Nat) (addrs : List Nat) (mask : List Bool) (size : Nat) : Prop :=
  ∀ i < mask.length, mask[i]? = some true → inside lo hi (elemAddr addrs size i) size

instance (lo hi : Nat) (addrs : List Nat) (mask : List Bool) (size : Nat) :
    Decidable (allInside lo hi addrs mask size) := by unfold allInside; infer_instance

/-- Result of one transaction: refused, or the new memory and the returned bytes. -/
def step (lo hi : Nat) (m : Flat) : Op → Option (Flat × List (BitVec 8))
  | .load a n => if inside lo hi a n then some (m, read m a n) else none
  | .store a d => if inside lo hi a d.length then some (write m a d, []) else none
  | .gather as mask size dest =>
      if allInside lo hi as mask size then some (m, gathered m as mask size dest) else none
  | .scatter as mask size d =>
      if allInside lo hi as mask size then some (scattered as size d 0 mask m, []) else none

/-- Requests a client can make: sizes are positive and fit an `int`, the buffer has room for every element, and a list
of several addresses is at least as long as the mask. -/
def legal : Op → Prop
  | .load _ n => n < 2 ^ 31
  | .store _ d => d.length < 2 ^ 31
  | .gather as mask size d | .scatter as mask size d =>
      as ≠ [] ∧ (1 < as.length → mask.length ≤ as.length) ∧ 0 < size ∧ mask.length * size ≤ d.length ∧
        d.length < 2 ^ 31

/-- Addresses are 64-bit values. -/
def addr64 : Op → Prop
  | .load a _ => a < 2 ^ 64
  | .store a _ => a < 2 ^ 64
  | .gather as _ _ _ | .scatter as _ _ _ => ∀ a ∈ as, a < 2 ^ 64

/-- A history of transactions, stopping at the first refused one. -/
def run (lo hi : Nat) (m : Flat) : List Op → Option (Flat × List (List (BitVec 8)))
  | [] => some (m, [])
  | op :: ops =>
    match step lo hi m op with
    | none => none
    | some (m', r) =>
      match run lo hi m' ops with
      | none => none
      | some (m'', rs) => some (m'', r :: rs)

end Verif.Spec.BlockMem
