import Verif.Base.Outcome

/-!
# Debug memory access and image loading

Transcription of `ReadMemory`, `WriteMemory` and `LoadImage` of `/repo/sim/coralnpu_top.cc` (634-669, 749-779).

The backing memory is an array of bytes. Both memories the core can be built with refuse an empty transaction by a
hardening assertion (`coralnpu_renode_memory.cc` 59 and 121; mpact-sim's `FlatDemandMemory` has the same assertion),
so an empty load or store is `abort`. The constant `max_physical_address` is the one set in `coralnpu_top.cc` 140.
-/

namespace Verif.Model.DebugMem

abbrev Mem := Nat → BitVec 8

/-- `kCoralnpuMaxMemoryAddress`, `coralnpu_state.h`; set as the maximal physical address in `coralnpu_top.cc` 140. -/
def maxAddr : Nat := 0x3fffff

/-- Status codes returned by the three functions. -/
inductive Err where
  | failedPrecondition
  | invalidArgument
  | internal
deriving DecidableEq, Repr

/-- `MemoryInterface::Load` into a buffer of `n` bytes. -/
def load (m : Mem) (a n : Nat) : Outcome (List (BitVec 8)) :=
  if n = 0 then .abort else .ok ((List.range n).map fun k => m (a + k))

/-- `MemoryInterface::Store` of a buffer. -/
def store (m : Mem) (a : Nat) (d : List (BitVec 8)) : Outcome Mem :=
  if d = [] then .abort else .ok fun q => if h : a ≤ q ∧ q - a < d.length then d[q - a]'h.2 else m q

/-- `ReadMemory`, cc 634-650: the bytes copied to the caller's buffer (their number is the returned length). -/
def readMemory (halted : Bool) (m : Mem) (address length : Nat) : Outcome (Except Err (List (BitVec 8))) :=
  if !halted then .ok (.error .failedPrecondition)
  else if maxAddr < address then .ok (.error .invalidArgument)
  else do
    let n := min length ((maxAddr - address + 1) % 2 ^ 64)
    let d ← load m address n
    .ok (.ok d)

/-- `WriteMemory`, cc 652-669: the returned length and the memory afterwards. -/
def writeMemory (halted : Bool) (m : Mem) (address : Nat) (buf : List (BitVec 8)) :
    Outcome (Except Err Nat × Mem) :=
  if !halted then .ok (.error .failedPrecondition, m)
  else if maxAddr < address then .ok (.error .invalidArgument, m)
  else do
    let n := min buf.length ((maxAddr - address + 1) % 2 ^ 64)
    let m' ← store m address (buf.take n)
    .ok (.ok n, m')

/-- `kBufferSize`, cc 752. -/
def bufferSize : Nat := 4096

/-- The `do … while` loop of `LoadImage`, cc 760-776, on the unread rest of the file. `good` after the read is false
exactly when fewer than `bufferSize` bytes were left. -/
def loadLoop (halted : Bool) : Nat → Mem → Nat → List (BitVec 8) → Outcome (Except Err Unit × Mem)
  | 0, _, _, _ => .ub
  | fuel + 1, m, address, rest => do
    let chunk := rest.take bufferSize
    let gcount := chunk.length
    if gcount = 0 then .ok (.ok (), m) else
    let r ← writeMemory halted m address chunk
    match r.1 with
    | .error _ => .ok (.error .internal, r.2)
    | .ok n =>
      if n ≠ gcount then .ok (.error .internal, r.2)
      else if gcount = bufferSize then
        loadLoop halted fuel r.2 ((address + gcount) % 2 ^ 64) (rest.drop bufferSize)
      else .ok (.ok (), r.2)

/-- `LoadImage`, cc 749-779; `file = none` when the file cannot be opened. The loop runs at most once more than there
are bytes; running out of fuel would be `ub`. -/
def loadImage (halted : Bool) (m : Mem) (file : Option (List (BitVec 8))) (start : Nat) :
    Outcome (Except Err Unit × Mem) :=
  match file with
  | none => .ok (.error .internal, m)
  | some f => loadLoop halted (f.length + 1) m start f

end Verif.Model.DebugMem
