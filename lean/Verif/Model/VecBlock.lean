import Verif.Model.Decode
import Verif.Model.RenodeMem

/-!
# Vector instructions on Renode's block memory

The vector memory instructions of `/repo/sim/coralnpu_vector_memory_instructions.cc` with the memory of
`/repo/sim/renode/coralnpu_renode_memory.cc` behind `LoadMemory` and `StoreMemory` (`CoralNPUTop::Initialize`,
`/repo/sim/coralnpu_top.cc` 104-117).

`Verif.Model.VecMem` has one array of bytes for memory; here the addresses are handed to the `Load` and `Store` of the block
list. What the state does between the two (`LoadMemory`, `StoreMemory` of the RISC-V simulator, external) is taken to be a
call of the memory, as in `Verif.Model.VecMem`.
-/

namespace Verif.Model

/-- The value buffer of a load read back as elements: `Get<T>(e)`. `junk` is what the allocated buffer held.
Every mask bit is set (vector_memory_instructions.cc 80-84); the buffers have as many elements as there are addresses
(cc 68-76). -/
def blockLoad (c : RenodeMem.Cfg) (len : Nat → Nat) (T : CTy) (addrs : List Nat) (junk : RenodeMem.Buf) (heap : RenodeMem.Heap) :
    Outcome (List CVal) := do
  let r ← RenodeMem.vaccess c len true addrs (List.replicate addrs.length true) T.size (addrs.length * T.size) junk heap
  .ok ((List.range addrs.length).map fun e => memLoad T r.1 (e * T.size))

/-- The bytes of a `T`. -/
def eltBytes (T : CTy) (c : CVal) : List (BitVec 8) :=
  (List.range T.size).map fun j => (BitVec.ofInt T.bits c.v).extractLsb' (j * 8) 8

/-- A store of elements (cc 191-223). -/
def blockStore (c : RenodeMem.Cfg) (len : Nat → Nat) (T : CTy) (l : List (Nat × CVal)) (heap : RenodeMem.Heap) :
    Outcome RenodeMem.Heap := do
  let d := (l.map (·.2)).flatMap (eltBytes T)
  let r ← RenodeMem.vaccess c len false (l.map (·.1)) (List.replicate l.length true) T.size d.length (RenodeMem.ofList d) heap
  .ok r.2

/-- The state of the vector instructions with the contents of the blocks in the place of memory. -/
structure BArch where
  x : Nat → BitVec 32
  v : VRF
  heap : RenodeMem.Heap
  acc : Acc
  dw : DwAcc

/-- The same registers, with the array `mem` as memory. -/
def BArch.withMem (s : BArch) (mem : Mem) : Arch := ⟨s.x, s.v, mem, s.acc, s.dw⟩

/-- The same registers, with the blocks read as one array. -/
def BArch.arch (c : RenodeMem.Cfg) (s : BArch) : Arch := s.withMem (RenodeMem.flat c s.heap)

/-- The registers as the memory instructions see them; they have no use for the array. -/
def BArch.regs (s : BArch) : MState := memState (s.withMem fun _ => 0)

/-- The registers of `a` with the blocks `heap`. -/
def Arch.blocks (a : Arch) (heap : RenodeMem.Heap) : BArch := ⟨a.x, a.v, heap, a.acc, a.dw⟩

/-- `CoralNPUVLd` and `CoralNPUVLdRegWrite` (cc 38-153). -/
def VMemInst.vldB (i : VMemInst) (maxPhys : Nat) (c : RenodeMem.Cfg) (len : Nat → Nat) (junk : RenodeMem.Buf) (s : MState)
    (heap : RenodeMem.Heap) : Outcome MState := do
  let addr := maskAddr maxPhys (readX s.x i.rs1)
  let n ← i.elts s
  let stride ← i.stride s
  let addrs ← vldAddrs i.T (numOpsOf i.strip) n stride addr
  let vals ← blockLoad c len i.T addrs junk heap
  let v ← vldRegWrite i.T (numOpsOf i.strip) i.vd (numOpsOf i.strip) vals s.v
  let x ← i.writeBack s addr n stride 1
  .ok { s with x := x, v := v }

/-- `VectorStoreHelper` (cc 162-251). -/
def VMemInst.vstHelperB (i : VMemInst) (quad : Bool) (maxPhys : Nat) (c : RenodeMem.Cfg) (len : Nat → Nat) (s : MState)
    (heap : RenodeMem.Heap) : Outcome (MState × RenodeMem.Heap) := do
  let addr := maskAddr maxPhys (readX s.x i.rs1)
  let n ← i.elts s
  let stride ← i.stride s
  let st ← (List.range (numOpsOf i.strip)).foldlM
    (vstOp i.T n stride quad i.vd (numOpsOf i.strip) s.v) ⟨0, addr, fun _ => none⟩
  let l ← bufAll n st.buf
  let heap' ← blockStore c len i.T l heap
  let x ← i.writeBack s addr n stride (if quad then 4 else 1)
  .ok ({ s with x := x }, heap')

/-- `execRow` on blocks. Only loads and stores have to do with memory. -/
def execRowB (maxPhys : Nat) (fresh : Nat → VReg) (c : RenodeMem.Cfg) (len : Nat → Nat) (junk : RenodeMem.Buf) (r : Row)
    (w : BitVec 32) (s : BArch) : Option (Outcome (Bool × BArch)) :=
  match r.sem with
  | .vld T ln stride strip xs2 postInc => some do
    if fForm w = 3 ∧ dstVdLen r w = numOpsOf strip then
      let m ← (memInst r w T ln stride strip xs2 postInc).vldB maxPhys c len junk s.regs s.heap
      .ok (false, (memBack (s.withMem fun _ => 0) m).blocks s.heap)
    else .ub
  | .vst T ln stride strip xs2 postInc => some do
    if fForm w = 3 ∧ srcVd w = .vgroup (fVd w) (numOpsOf strip) then
      let m ← (memInst r w T ln stride strip xs2 postInc).vstHelperB false maxPhys c len s.regs s.heap
      .ok (false, (memBack (s.withMem fun _ => 0) m.1).blocks m.2)
    else .ub
  | .vstq T strip postInc => some do
    if fForm w = 3 ∧ srcVd w = .vgroup (fVd w) (numOpsOf strip) then
      let m ← (memInst r w T false true strip true postInc).vstHelperB true maxPhys c len s.regs s.heap
      .ok (false, (memBack (s.withMem fun _ => 0) m.1).blocks m.2)
    else .ub
  | _ => (execRow maxPhys fresh r w (s.withMem fun _ => 0)).map fun o => do
    let p ← o
    .ok (p.1, p.2.blocks s.heap)

end Verif.Model
