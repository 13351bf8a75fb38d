import Verif.Base.Outcome
import Verif.Spec.BlockMem

/-!
# The Renode block-list memory

Transcription of `/repo/sim/renode/coralnpu_renode_memory.{h,cc}`.

`uint64_t` values are `Nat` reduced modulo `2^64`; `int` values are `Int` with explicit range checks (signed
overflow is `ub`); the supplied blocks are separate objects: block `i` has `len i` bytes, its content is `heap i`.
`ABSL_HARDENING_ASSERT` is taken to be enabled and its failure is `abort`.

Simplifications: the instruction executed at the end of `Load` (cc 64-78, 100-114) is not part of the memory and is
left out; data buffers are functions from byte index to byte, together with their length.
-/

namespace Verif.Model.RenodeMem

/-- The contents of the supplied blocks, block index then offset. -/
abbrev Heap := Nat → Nat → BitVec 8

/-- The contents of a data buffer. -/
abbrev Buf := Nat → BitVec 8

/-- Members of the class, `coralnpu_renode_memory.h` (`addressable_unit_size_`, `allocation_byte_size_`,
`memory_block_size_bytes_`, `base_address_`, `max_address_`, `addressable_unit_shift_`) and the size of
`block_map_`. -/
structure Cfg where
  unit : Int
  alloc : Int
  blockSize : Nat
  base : Nat
  max : Nat
  shift : Nat
  nblk : Nat
deriving DecidableEq, Repr

/-- Conversion to `int` (wraps, C++20). -/
def toI32 (x : Int) : Int := (x + 2147483648) % 4294967296 - 2147483648

/-- The result of a signed 32-bit operation: `ub` if it does not fit. -/
def chk32 (x : Int) : Outcome Int :=
  if -2147483648 ≤ x ∧ x < 2147483648 then .ok x else .ub

/-- `x << k` on `int`: the model refuses negative operands and results that do not fit. -/
def shl32 (x : Int) (k : Nat) : Outcome Int :=
  if 0 ≤ x ∧ k < 32 then chk32 (x * 2 ^ k) else .ub

/-- `kCoralnpuMaxMemoryAddress`, `/repo/sim/coralnpu_state.h`. -/
def kMaxMemoryAddress : Nat := 0x3fffff

/-- The constructor, `coralnpu_renode_memory.cc` 27-47. `supplied` is the number of block pointers in
`block_ptr_list`; reading past it is `ub`. The loop counter is an `int`. -/
def construct (blockSize memSize supplied base unit : Nat) : Outcome Cfg :=
  let max := (base + memSize) % 18446744073709551616
  if kMaxMemoryAddress < max then
    if blockSize = 0 then .ub else
    let nblk := ((max + blockSize - 1) % 18446744073709551616) / blockSize
    if nblk ≤ supplied ∧ nblk < 2147483648 then
      .ok { unit := toI32 unit
            alloc := toI32 ((blockSize * unit) % 18446744073709551616 : Nat)
            blockSize, base, max
            shift := Nat.log2 unit
            nblk }
    else .ub
  else .abort

/-- `IsValidAddress`, cc 49-52. -/
def isValid (c : Cfg) (address high : Nat) : Bool := c.base ≤ address && high ≤ c.max

/-- `memcpy` of `n` bytes between two separate objects; the caller checks the bounds. -/
def copy (dst : Nat → BitVec 8) (d : Nat) (src : Nat → BitVec 8) (s n : Nat) : Nat → BitVec 8 :=
  fun q => if d ≤ q ∧ q < d + n then src (s + (q - d)) else dst q

/-- The `do … while` loop of `LoadStoreHelper`, cc 150-178. `pos` is the position of `byte_ptr` in the data buffer of
`buflen` bytes. `fuel` bounds the number of iterations; running out of it is `ub` (a loop without progress). -/
def loop (c : Cfg) (len : Nat → Nat) (buflen : Nat) (isLoad : Bool) :
    Nat → Nat → Nat → Int → Buf → Heap → Outcome (Buf × Heap)
  | 0, _, _, _, _, _ => .ub
  | fuel + 1, address, pos, size, buf, heap => do
    let idx := address / c.blockSize
    if c.nblk ≤ idx then .ub else
    let off := toI32 (address - idx * c.blockSize : Nat)
    let avail ← chk32 (c.alloc - off)
    let chunk := min size avail
    let chunkBytes ← shl32 chunk c.shift
    let offBytes ← shl32 off c.shift
    let nb := chunkBytes.toNat
    let ob := offBytes.toNat
    if ob + nb ≤ len idx ∧ pos + nb ≤ buflen then
      let buf' := if isLoad then copy buf pos (heap idx) ob nb else buf
      let heap' : Heap := if isLoad then heap else
        fun i => if i = idx then copy (heap idx) ob buf pos nb else heap i
      let size' ← chk32 (size - chunk)
      let address' := (address + chunk.toNat) % 18446744073709551616
      if 0 < size' then loop c len buflen isLoad fuel address' (pos + nb) size' buf' heap'
      else .ok (buf', heap')
    else .ub

/-- `LoadStoreHelper`, cc 147-179. -/
def helper (c : Cfg) (len : Nat → Nat) (buflen : Nat) (isLoad : Bool) (address pos : Nat) (size : Int)
    (buf : Buf) (heap : Heap) : Outcome (Buf × Heap) :=
  if address < c.max then loop c len buflen isLoad (size.toNat + 1) address pos size buf heap else .abort

/-- `uint64_t` plus `int`. -/
def addU64 (a : Nat) (k : Int) : Nat := ((a + k) % 18446744073709551616).toNat

/-- Scalar `Load` (cc 54-79) and `Store` (cc 117-124); `n` is the size of the data buffer. -/
def access (c : Cfg) (len : Nat → Nat) (isLoad : Bool) (address n : Nat) (buf : Buf) (heap : Heap) :
    Outcome (Buf × Heap) :=
  if c.unit = 0 then .ub else
  let size := Int.tdiv n c.unit
  let high := addU64 address size
  if isValid c address high ∧ 0 < size then helper c len n isLoad address 0 size buf heap else .abort

/-- The address of element `i`, cc 95 and 139-140. An out-of-range index into `address_span` is `ub`. -/
def elemAddress (addrs : List Nat) (elSize : Int) (i : Nat) : Outcome Nat :=
  if 1 < addrs.length then
    match addrs[i]? with
    | some a => .ok a
    | none => .ub
  else
    match addrs[0]? with
    | some a => .ok ((a + (((i : Int) * elSize) % 4294967296).toNat) % 18446744073709551616)
    | none => .ub

/-- The element loop of the vector `Load` (cc 93-99) and `Store` (cc 137-144). `i` is the `unsigned` loop counter,
the mask is consumed from the front. -/
def elems (c : Cfg) (len : Nat → Nat) (buflen : Nat) (isLoad : Bool) (addrs : List Nat) (elSize : Int)
    (size : Int) : Nat → List Bool → Buf → Heap → Outcome (Buf × Heap)
  | _, [], buf, heap => .ok (buf, heap)
  | i, false :: mask, buf, heap => elems c len buflen isLoad addrs elSize size (i + 1) mask buf heap
  | i, true :: mask, buf, heap => do
    let address ← elemAddress addrs elSize i
    let high := addU64 address size
    if isValid c address high then
      let pos := ((elSize * (i : Int)) % 4294967296).toNat
      let r ← helper c len buflen isLoad address pos size buf heap
      elems c len buflen isLoad addrs elSize size (i + 1) mask r.1 r.2
    else .abort

/-- Vector `Load` (cc 81-115) and `Store` (cc 126-145). `n` is the size of the data buffer in bytes. -/
def vaccess (c : Cfg) (len : Nat → Nat) (isLoad : Bool) (addrs : List Nat) (mask : List Bool) (elSize : Int)
    (n : Nat) (buf : Buf) (heap : Heap) : Outcome (Buf × Heap) :=
  if c.unit = 0 then .ub else
  let size := Int.tdiv elSize c.unit
  if 0 < size then elems c len n isLoad addrs elSize size 0 mask buf heap else .abort

/-- A data buffer holding a list of bytes. -/
def ofList (d : List (BitVec 8)) : Buf := fun q => d.getD q 0

/-- The first `n` bytes of a data buffer. -/
def toList (b : Buf) (n : Nat) : List (BitVec 8) := (List.range n).map b

/-- The four entry points applied to a transaction. `junk` is the content of the freshly allocated buffer of a scalar
load. -/
def exec (c : Cfg) (len : Nat → Nat) (junk : Buf) (heap : Heap) :
    Spec.BlockMem.Op → Outcome (Heap × List (BitVec 8))
  | .load a n => do
    let r ← access c len true a n junk heap
    .ok (r.2, toList r.1 n)
  | .store a d => do
    let r ← access c len false a d.length (ofList d) heap
    .ok (r.2, [])
  | .gather as mask size d => do
    let r ← vaccess c len true as mask size d.length (ofList d) heap
    .ok (r.2, toList r.1 d.length)
  | .scatter as mask size d => do
    let r ← vaccess c len false as mask size d.length (ofList d) heap
    .ok (r.2, [])

/-- The blocks read as one array: byte `a` lives in block `a / blockSize` (the indexing of cc 152-156). -/
def flat (c : Cfg) (heap : Heap) : Nat → BitVec 8 := fun a => heap (a / c.blockSize) (a % c.blockSize)

/-- A history of transactions. -/
def execAll (c : Cfg) (len : Nat → Nat) (junk : Buf) (heap : Heap) :
    List Spec.BlockMem.Op → Outcome (Heap × List (List (BitVec 8)))
  | [] => .ok (heap, [])
  | op :: ops => do
    let r ← exec c len junk heap op
    let rs ← execAll c len junk r.1 ops
    .ok (rs.1, r.2 :: rs.2)

end Verif.Model.RenodeMem
