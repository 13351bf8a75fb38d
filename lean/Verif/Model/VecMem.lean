import Verif.Model.VecFrame
import Verif.Spec.Memory

/-!
# Vector loads, stores, `vdup` and `getvl`

Model of `/repo/sim/coralnpu_vector_memory_instructions.cc` (line numbers refer to it).

Assumptions about code outside `/repo` (mpact-sim, mpact-riscv):
* `state->LoadMemory(inst, addresses, masks, sizeof(T), value_db, child, context)` fills element `i`
  of `value_db` with the `sizeof(T)` bytes at `addresses[i]` (little endian host) when the mask is
  set, and runs the child instruction (the value buffer has latency 0);
* `state->StoreMemory(…)` stores the elements in increasing order.
  Both are proved for the memory of `/repo/sim/renode/coralnpu_renode_memory.cc` in
  `Verif.Props.Memory`.
* scalar source operands read a 32-bit register; x0 reads as zero and writes to it are dropped
  (coralnpu_encoding.cc 197-260, 340-357; the alias encodings of x0 are treated in
  `Verif.Props.Decode`).
-/

namespace Verif.Model
open Verif CVal

/-- Byte-addressed memory behind the memory interface. -/
abbrev Mem := Nat → BitVec 8

/-- The state used by these instructions. -/
structure MState where
  x : Nat → BitVec 32
  v : VRF
  mem : Mem

/-- Scalar register read. -/
def readX (x : Nat → BitVec 32) (r : Nat) : BitVec 32 := if r = 0 then 0 else x r

/-- Scalar register write. -/
def writeX (x : Nat → BitVec 32) (r : Nat) (a : BitVec 32) : Nat → BitVec 32 :=
  fun q => if q = r ∧ r ≠ 0 then a else x q

/-- `span[i] = a` on a fresh buffer of `n` elements; outside the buffer is `ub`. -/
def bufSet {α : Type} (n : Nat) (b : Nat → Option α) (i : Nat) (a : α) : Outcome (Nat → Option α) :=
  if i < n then .ok (fun j => if j = i then some a else b j) else .ub

/-- All elements of a buffer; an element that was never assigned is `ub`. -/
def bufAll {α : Type} (n : Nat) (b : Nat → Option α) : Outcome (List α) :=
  (List.range n).mapM fun i => match b i with | some a => .ok a | none => .ub

/-- The `sz` bytes at `a`. -/
def memBytes (mem : Mem) (a sz : Nat) : List (BitVec 8) := (List.range sz).map fun j => mem (a + j)

/-- A `T` loaded from memory. -/
def memLoad (T : CTy) (mem : Mem) (a : Nat) : CVal :=
  ofBits T (BitVec.ofNat T.bits (packLanes 8 (memBytes mem a T.size)))

/-- A `T` stored to memory. -/
def memStore (T : CTy) (mem : Mem) (a : Nat) (c : CVal) : Mem := fun q =>
  if a ≤ q ∧ q < a + T.size then (BitVec.ofInt T.bits c.v).extractLsb' ((q - a) * 8) 8 else mem q

/-- `state->StoreMemory` (external, see the file header). -/
def scatter (T : CTy) (mem : Mem) (l : List (Nat × CVal)) : Mem :=
  l.foldl (fun m p => memStore T m p.1 p.2) mem

/-- A vector load or store, as bound in coralnpu_memory.isa 109-510.  `rs2` is present in the `.xx`
forms, `postInc` says that the address register is also a destination (`DestinationsSize() == 1`). -/
structure VMemInst where
  T : CTy
  vd : Nat
  rs1 : Nat
  rs2 : Option Nat
  hasLength : Bool
  hasStride : Bool
  strip : Bool
  postInc : Bool

/-- `GetInstructionSource<uint32_t>` of the second scalar operand; `ub` when there is none. -/
def VMemInst.arg (i : VMemInst) (s : MState) : Outcome (BitVec 32) :=
  match i.rs2 with | some r => .ok (readX s.x r) | none => .ub

/-- The address with the invalidate bit cleared (cc 46-54, 170-174). `kMemMask = 0x7fffffff`,
`kCoralnpuMaxMemoryAddress = 0x3fffff` (coralnpu_state.h 43-52). -/
def maskAddr (maxPhys : Nat) (a : BitVec 32) : BitVec 32 :=
  if maxPhys ≤ 0x3fffff then a &&& 0x7fffffff#32 else a

/-- `elts_to_load` (cc 56-60, 179-183). -/
def VMemInst.elts (i : VMemInst) (s : MState) : Outcome Nat :=
  if i.hasLength then do
    let a ← i.arg s
    .ok (min a.toNat (numOpsOf i.strip * lanesOf i.T))
  else .ok (numOpsOf i.strip * lanesOf i.T)

/-- `stride_elts` (cc 62-66, 185-189). -/
def VMemInst.stride (i : VMemInst) (s : MState) : Outcome Nat :=
  if i.hasStride then do
    let a ← i.arg s
    .ok a.toNat
  else .ok (lanesOf i.T)

/-- One iteration of the loop over registers in `CoralNPUVLd` (cc 78-86): `(base, elts_left, addresses)`.
The mask is set to true together with the address, and is not kept. -/
def vldRow (T : CTy) (n stride : Nat) (st : BitVec 32 × Nat × (Nat → Option Nat)) (op : Nat) :
    Outcome (BitVec 32 × Nat × (Nat → Option Nat)) := do
  let count := min st.2.1 (lanesOf T)
  let b ← (List.range count).foldlM
    (fun b i => bufSet n b (op * lanesOf T + i) (st.1.toNat + i * T.size)) st.2.2
  .ok (st.1 + BitVec.ofNat 32 (stride * T.size), st.2.1 - count, b)

/-- The element addresses of a vector load (cc 68-86). -/
def vldAddrs (T : CTy) (numOps n stride : Nat) (addr : BitVec 32) : Outcome (List Nat) := do
  let st ← (List.range numOps).foldlM (vldRow T n stride) (addr, n, fun _ => none)
  bufAll n st.2.2

/-- `CoralNPUVLdRegWrite` (cc 127-153): the loaded values, then zeros. `vdLen` is the size of the
destination group. -/
def vldRegWrite (T : CTy) (numOps vd vdLen : Nat) (vals : List CVal) (rf : VRF) : Outcome VRF :=
  if numOps ≤ vdLen then
    .ok (submitAll rf vd 1 ((List.range numOps).map fun op =>
      packReg T ((List.range (lanesOf T)).map fun e =>
        if h : op * lanesOf T + e < vals.length then vals[op * lanesOf T + e] else ⟨T, 0⟩)))
  else .ub

/-- The post-incremented address (cc 104-117, 234-248): `numOps * rows` rows were accessed
(`rows` is `quad_scale`, 1 for loads). -/
def VMemInst.incr (i : VMemInst) (s : MState) (addr : BitVec 32) (n stride rows : Nat) :
    Outcome (BitVec 32) :=
  if 0 < n then
    if i.hasLength && i.hasStride then .ok (addr + BitVec.ofNat 32 32)
    else if !i.hasLength && !i.hasStride && i.rs2.isNone then
      .ok (addr + BitVec.ofNat 32 (32 * numOpsOf i.strip))
    else if i.hasLength then .ok (addr + BitVec.ofNat 32 (n * i.T.size))
    else if i.hasStride then
      .ok (addr + BitVec.ofNat 32 (stride * i.T.size * numOpsOf i.strip * rows))
    else do
      let a ← i.arg s
      .ok (addr + BitVec.ofNat 32 (a.toNat * i.T.size))
  else .ok addr

/-- Write-back of the address register (cc 97-120, 228-250). -/
def VMemInst.writeBack (i : VMemInst) (s : MState) (addr : BitVec 32) (n stride rows : Nat) :
    Outcome (Nat → BitVec 32) :=
  if i.postInc then do
    let a ← i.incr s addr n stride rows
    .ok (writeX s.x i.rs1 a)
  else .ok s.x

/-- `CoralNPUVLd` followed by its child `CoralNPUVLdRegWrite` (cc 38-153). The destination group has
`numOpsOf strip` registers (coralnpu_encoding.cc 316-337). -/
def VMemInst.vld (i : VMemInst) (maxPhys : Nat) (s : MState) : Outcome MState := do
  let addr := maskAddr maxPhys (readX s.x i.rs1)
  let n ← i.elts s
  let stride ← i.stride s
  let addrs ← vldAddrs i.T (numOpsOf i.strip) n stride addr
  let v ← vldRegWrite i.T (numOpsOf i.strip) i.vd (numOpsOf i.strip)
    (addrs.map (memLoad i.T s.mem)) s.v
  let x ← i.writeBack s addr n stride 1
  .ok { x := x, v := v, mem := s.mem }

/-- State of the address loop of `VectorStoreHelper`. -/
structure StState where
  idx : Nat
  base : BitVec 32
  buf : Nat → Option (Nat × CVal)

/-- The inner loops of `VectorStoreHelper` (cc 205-211 and 214-220): one row of `row` elements taken
from element `off` of a register.  The loop condition `address_index < elts_to_store` stays false
once it is false. -/
def vstRow (T : CTy) (n stride row : Nat) (src : VReg) (off : Nat) (st : StState) : Outcome StState := do
  let st' ← (List.range row).foldlM (fun (st : StState) j =>
    if st.idx < n then do
      let b ← bufSet n st.buf st.idx (st.base.toNat + j * T.size, regElt T src (off + j))
      .ok { st with idx := st.idx + 1, buf := b }
    else .ok st) st
  .ok { st' with base := st'.base + BitVec.ofNat 32 (stride * T.size) }

/-- One iteration of the loop over registers (cc 200-222). -/
def vstOp (T : CTy) (n stride : Nat) (quad : Bool) (vd vdLen : Nat) (rf : VRF) (st : StState) (op : Nat) :
    Outcome StState :=
  if op < vdLen then
    if quad then
      (List.range 4).foldlM (fun st i =>
        vstRow T n stride (lanesOf T / 4) (rf (vd + op)) (i * (lanesOf T / 4)) st) st
    else vstRow T n stride (lanesOf T) (rf (vd + op)) 0 st
  else .ub

/-- `VectorStoreHelper` (cc 162-251). The source group has `numOpsOf strip` registers
(coralnpu_encoding.cc 262-273). -/
def VMemInst.vstHelper (i : VMemInst) (quad : Bool) (maxPhys : Nat) (s : MState) : Outcome MState := do
  let addr := maskAddr maxPhys (readX s.x i.rs1)
  let n ← i.elts s
  let stride ← i.stride s
  let st ← (List.range (numOpsOf i.strip)).foldlM
    (vstOp i.T n stride quad i.vd (numOpsOf i.strip) s.v) ⟨0, addr, fun _ => none⟩
  let l ← bufAll n st.buf
  let x ← i.writeBack s addr n stride (if quad then 4 else 1)
  .ok { x := x, v := s.v, mem := scatter i.T s.mem l }

/-- `CoralNPUVSt` (cc 253-258). -/
def VMemInst.vst (i : VMemInst) (maxPhys : Nat) (s : MState) : Outcome MState :=
  i.vstHelper false maxPhys s

/-- `CoralNPUVStQ` (cc 292-296): always strided, never with a length. -/
def VMemInst.vstq (i : VMemInst) (maxPhys : Nat) (s : MState) : Outcome MState :=
  VMemInst.vstHelper { i with hasLength := false, hasStride := true } true maxPhys s

/-- `CoralNPUVDup` (cc 265-286). -/
def vdup (T : CTy) (strip : Bool) (vd vdLen : Nat) (x : BitVec 32) (rf : VRF) : Outcome VRF := do
  let value ← readElt T rf (.scalar x) 0
  if numOpsOf strip ≤ vdLen then
    .ok (submitAll rf vd 1 ((List.range (numOpsOf strip)).map fun _ =>
      packReg T ((List.range (lanesOf T)).map fun _ => value)))
  else .ub

/-- `CoralNPUGetVl` (cc 304-327). `rs1`/`rs2` are the values of the scalar operands present. -/
def getVl (T : CTy) (strip : Bool) (rs1 rs2 : Option (BitVec 32)) : BitVec 32 :=
  let vlen := BitVec.ofNat 32 (lanesOf T)
  let vlen := if strip then vlen * 4#32 else vlen
  let vlen := match rs1 with | some a => if a < vlen then a else vlen | none => vlen
  match rs2 with | some a => if a < vlen then a else vlen | none => vlen

/-! ## Reading an instruction as a specification-level access -/

/-- The flags of the instruction forms of coralnpu_memory.isa: `.x`/`.p.x`, `.p.xx`, `.l`, `.s`, `.tp`. -/
def Form (i : VMemInst) : Spec.PostInc → Prop
  | .unit => i.hasLength = false ∧ i.hasStride = false ∧ i.rs2.isSome = false
  | .reg => i.hasLength = false ∧ i.hasStride = false ∧ i.rs2.isSome = true
  | .length => i.hasLength = true ∧ i.hasStride = false ∧ i.rs2.isSome = true
  | .stride => i.hasLength = false ∧ i.hasStride = true ∧ i.rs2.isSome = true
  | .tile => i.hasLength = true ∧ i.hasStride = true ∧ i.rs2.isSome = true

/-- Value of the second scalar operand (0 when there is none). -/
def arg2 (i : VMemInst) (s : MState) : Nat :=
  match i.rs2 with | some r => (Spec.scalar s.x r).toNat | none => 0

/-- The access made by an instruction in a state. -/
def access (i : VMemInst) (maxPhys : Nat) (s : MState) : Spec.Access where
  w := i.T.bits
  regs := if i.strip then 4 else 1
  len := if i.hasLength then some (arg2 i s) else none
  stride := if i.hasStride then some (arg2 i s) else none
  base := Spec.effBase maxPhys (Spec.scalar s.x i.rs1)

end Verif.Model
