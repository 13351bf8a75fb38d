import Verif.Spec.Vector

/-!
# Specification vocabulary for vector loads and stores

Memory is a function from byte addresses to bytes.  Nothing of the model is used here.
-/

namespace Verif.Spec

/-- The `n` bytes at `a`, little endian. -/
def loadLE : Nat → (Nat → BitVec 8) → Nat → Nat
  | 0, _, _ => 0
  | n + 1, mem, a => (mem a).toNat + 256 * loadLE n mem (a + 1)

/-- Byte `b` of the little-endian representation of `x`. -/
def byteOf (x : Nat) (b : Nat) : Nat := x / 256 ^ b % 256

/-- Address of element `i` of an access made of rows of `row` elements of `sz` bytes, the rows being
`stride` elements apart.  Row addresses are 32-bit, the offset inside a row is added without wrapping. -/
def elemAddr (base row stride sz i : Nat) : Nat :=
  (base + (i / row) * (stride * sz)) % 2 ^ 32 + (i % row) * sz

/-- The bytes `a .. a+sz-1` contain address `q`. -/
def Covers (a sz q : Nat) : Prop := a ≤ q ∧ q < a + sz

instance (a sz q : Nat) : Decidable (Covers a sz q) := inferInstanceAs (Decidable (_ ∧ _))

/-- `mem'` is `mem` after storing the `n` elements `val i` of `sz` bytes at `addr i`, in increasing
order of `i`: a byte not covered by an element keeps its value; a byte of element `i` that no later
element covers has the value of that element. -/
def Stores (n sz : Nat) (addr val : Nat → Nat) (mem mem' : Nat → BitVec 8) : Prop :=
  (∀ q, (∀ i < n, ¬ Covers (addr i) sz q) → mem' q = mem q) ∧
  (∀ i < n, ∀ b < sz, (∀ j, i < j → j < n → ¬ Covers (addr j) sz (addr i + b)) →
    (mem' (addr i + b)).toNat = byteOf (val i) b)

/-- No two of the `n` elements share a byte. -/
def Separate (n sz : Nat) (addr : Nat → Nat) : Prop :=
  ∀ i j, i < j → j < n → addr i + sz ≤ addr j ∨ addr j + sz ≤ addr i

/-- Element `i` of a group, read as an unsigned number. -/
def groupNat (w : Nat) (rf : Nat → BitVec 256) (base i : Nat) : Nat :=
  ((rf (base + i / lanes w)).extractLsb' (i % lanes w * w) w).toNat

/-- The value an instruction reads from scalar register `r`: register 0 is always 0. -/
def scalar (x : Nat → BitVec 32) (r : Nat) : BitVec 32 := if r = 0 then 0 else x r

/-- Address with the cache-invalidation bit (bit 31) cleared, on machines with at most 4 MiB. -/
def effBase (maxPhys : Nat) (a : BitVec 32) : Nat :=
  if maxPhys ≤ 0x3fffff then a.toNat % 2 ^ 31 else a.toNat

/-- Bytes added to the base register by a post-incrementing access of `n > 0` elements of `sz` bytes
in `regs` registers; `rows` rows per register.  `arg` is the second scalar operand. -/
inductive PostInc where
  /-- `.p.x`: the size of the registers. -/
  | unit
  /-- `.p.xx`: the second operand counts elements. -/
  | reg
  /-- `.lp`: the elements transferred. -/
  | length
  /-- `.sp`: one stride per row. -/
  | stride
  /-- `.tp`: one register. -/
  | tile

def PostInc.bytes (k : PostInc) (n sz regs rows arg : Nat) : Nat :=
  match k with
  | .unit => 32 * regs
  | .reg => arg * sz
  | .length => n * sz
  | .stride => regs * rows * (arg * sz)
  | .tile => 32

/-- A vector memory access: element width, number of registers, optional element count and optional
distance (in elements) between rows, effective base address. -/
structure Access where
  w : Nat
  regs : Nat
  len : Option Nat
  stride : Option Nat
  base : Nat

/-- Elements held by the registers. -/
def Access.cap (a : Access) : Nat := a.regs * lanes a.w

/-- Elements transferred: all, or the requested number if smaller. -/
def Access.count (a : Access) : Nat := match a.len with | some l => min l a.cap | none => a.cap

/-- Address of element `i` when a row has `row` elements; without a stride rows are one register apart. -/
def Access.addr (a : Access) (row i : Nat) : Nat :=
  elemAddr a.base row (a.stride.getD (lanes a.w)) (a.w / 8) i

end Verif.Spec
