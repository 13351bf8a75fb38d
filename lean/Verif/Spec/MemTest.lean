import Verif.Spec.Memory

/-!
# The comparisons of the repository's vector memory test

`/repo/sim/test/coralnpu_vector_memory_instructions_test.cc` executes one load or store and then walks
over the registers, keeping a running address and a running number of remaining elements, to find the
memory element to compare with each register element.  That walk is transcribed here (line numbers refer
to that file); nothing is taken from the model of the implementation.

The test passes addresses to its memory accessors as `int`; here they are numbers, so that the
transcription also makes sense for addresses of 2^31 and above.
-/

namespace Verif.Spec.MemTest

/-- Arguments of `MemoryLoadStoreOpTestHelper<T>` (57-61); `size` is `sizeof(T)`. -/
structure Cfg where
  size : Nat
  hasLength : Bool
  hasStride : Bool
  strip : Bool
  postInc : Bool
  xVariant : Bool
  quad : Bool

/-- `num_ops` (85). -/
def Cfg.numOps (c : Cfg) : Nat := if c.strip then 4 else 1

/-- `vd_size` (130-131): elements of a register. -/
def Cfg.vdSize (c : Cfg) : Nat := 256 / 8 / c.size

/-- `count` (176-179). -/
def Cfg.count (c : Cfg) (rs2 : Nat) : Nat :=
  if c.hasLength then min (c.vdSize * c.numOps) rs2 else c.vdSize * c.numOps

/-- `left` at the start of iteration `op` (180, 203). -/
def Cfg.left (c : Cfg) (rs2 : Nat) : Nat → Nat
  | 0 => c.count rs2
  | op + 1 => c.left rs2 op - min c.vdSize (c.left rs2 op)

/-- `n` of iteration `op` (182). -/
def Cfg.n (c : Cfg) (rs2 op : Nat) : Nat := min c.vdSize (c.left rs2 op)

/-- `addr` at the start of iteration `op`, accesses other than quad stores (174, 204-208); `uint32_t`. -/
def Cfg.addr (c : Cfg) (base rs2 : Nat) : Nat → Nat
  | 0 => base
  | op + 1 => (c.addr base rs2 op + if c.hasStride then rs2 * c.size else c.n rs2 op * c.size) % 2 ^ 32

/-- `addr` before quarter `q` (counted from the first register) of a quad store (183-192). -/
def Cfg.quadAddr (c : Cfg) (base rs2 : Nat) : Nat → Nat
  | 0 => base
  | q + 1 => (c.quadAddr base rs2 q + rs2 * c.size) % 2 ^ 32

/-- Address of the memory element compared with element `e` of register `op` (183-202). -/
def Cfg.elemAddr (c : Cfg) (base rs2 op e : Nat) : Nat :=
  if c.quad then c.quadAddr base rs2 (4 * op + e / (c.vdSize / 4)) + e % (c.vdSize / 4) * c.size
  else c.addr base rs2 op + e * c.size

/-- `expected_rs1_value` (212-226). -/
def Cfg.expectedRs1 (c : Cfg) (base rs2 : Nat) : Nat :=
  (base + if c.postInc && c.count rs2 != 0 then
      if c.hasLength && c.hasStride then c.vdSize * c.size
      else if !c.hasLength && !c.hasStride && c.xVariant then c.vdSize * c.size * c.numOps
      else if c.hasLength then c.count rs2 * c.size
      else if c.hasStride then rs2 * c.size * c.numOps * (if c.quad then 4 else 1)
      else rs2 * c.size
    else 0) % 2 ^ 32

/-- The comparisons after a load (228-242): every element of every destination register is the memory
element at its address, or 0 beyond `n`.  `reg op e` is element `e` of register `op`, as an unsigned number. -/
def Cfg.LoadPasses (c : Cfg) (base rs2 : Nat) (mem : Nat → BitVec 8) (reg : Nat → Nat → Nat) : Prop :=
  ∀ op < c.numOps, ∀ e < c.vdSize,
    (if e < c.n rs2 op then loadLE c.size mem (c.elemAddr base rs2 op e) else 0) = reg op e

/-- The comparisons after a store (243-255): the first `n` elements of every source register. -/
def Cfg.StorePasses (c : Cfg) (base rs2 : Nat) (mem : Nat → BitVec 8) (reg : Nat → Nat → Nat) : Prop :=
  ∀ op < c.numOps, ∀ e < c.vdSize, e < c.n rs2 op →
    loadLE c.size mem (c.elemAddr base rs2 op e) = reg op e

/-- Strides for which stores are compared: at least one row, a row being a register or, for a quad store,
a quarter of one.  The test (139-143) skips the smaller ones, and for quad stores also those below a
register. -/
def Cfg.StrideOk (c : Cfg) (rs2 : Nat) : Prop :=
  c.hasStride = true → (if c.quad then c.vdSize / 4 else c.vdSize) ≤ rs2

instance (c : Cfg) (rs2 : Nat) : Decidable (c.StrideOk rs2) := inferInstanceAs (Decidable (_ → _))

/-- Rows of a store. -/
def Cfg.rows (c : Cfg) : Nat := if c.quad then 4 * c.numOps else c.numOps

/-- Element `e` of register `r`, as an unsigned number of `size` bytes. -/
def regElem (size : Nat) (rf : Nat → BitVec 256) (r e : Nat) : Nat :=
  ((rf r).extractLsb' (e * (8 * size)) (8 * size)).toNat

/-- `expected_vlen` of the `getvl` test (477-485): `rs1` and `rs2` are the operands present. -/
def expectedVlen (size : Nat) (strip : Bool) (rs1 rs2 : Option Nat) : Nat :=
  let v := 256 / 8 / size * (if strip then 4 else 1)
  let v := match rs1 with | some a => min v a | none => v
  match rs2 with | some a => min v a | none => v

end Verif.Spec.MemTest
