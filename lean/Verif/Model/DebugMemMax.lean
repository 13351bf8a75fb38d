import Verif.Model.DebugMem

/-!
# Debug memory access under any address limit

`ReadMemory`, `WriteMemory` and `LoadImage` of `/repo/sim/coralnpu_top.cc` (634-669, 749-779) compare with
`state_->max_physical_address()`, which `coralnpu_top.cc` 139 sets and `set_max_physical_address` (of mpact-riscv's state, reached through
`CoralNPUTop::state()`) can change. Here the limit is the parameter `M`; `Verif.Model.DebugMem` is the case of the value set by the
constructor.

Simplification: `db_factory_.Allocate(length)` gives a buffer of that length, whatever it is.
-/

namespace Verif.Model.DebugMem

/-- `ReadMemory`, cc 634-650. -/
def readMemoryMax (M : Nat) (halted : Bool) (m : Mem) (address length : Nat) : Outcome (Except Err (List (BitVec 8))) :=
  if !halted then .ok (.error .failedPrecondition)
  else if M < address then .ok (.error .invalidArgument)
  else do
    let n := min length ((M - address + 1) % 2 ^ 64)
    let d ← load m address n
    .ok (.ok d)

/-- `WriteMemory`, cc 652-669. -/
def writeMemoryMax (M : Nat) (halted : Bool) (m : Mem) (address : Nat) (buf : List (BitVec 8)) :
    Outcome (Except Err Nat × Mem) :=
  if !halted then .ok (.error .failedPrecondition, m)
  else if M < address then .ok (.error .invalidArgument, m)
  else do
    let n := min buf.length ((M - address + 1) % 2 ^ 64)
    let m' ← store m address (buf.take n)
    .ok (.ok n, m')

/-- The loop of `LoadImage`, cc 760-776, as `loadLoop`. -/
def loadLoopMax (M : Nat) (halted : Bool) : Nat → Mem → Nat → List (BitVec 8) → Outcome (Except Err Unit × Mem)
  | 0, _, _, _ => .ub
  | fuel + 1, m, address, rest => do
    let chunk := rest.take bufferSize
    let gcount := chunk.length
    if gcount = 0 then .ok (.ok (), m) else
    let r ← writeMemoryMax M halted m address chunk
    match r.1 with
    | .error _ => .ok (.error .internal, r.2)
    | .ok n =>
      if n ≠ gcount then .ok (.error .internal, r.2)
      else if gcount = bufferSize then
        loadLoopMax M halted fuel r.2 ((address + gcount) % 2 ^ 64) (rest.drop bufferSize)
      else .ok (.ok (), r.2)

/-- `LoadImage`, cc 749-779. -/
def loadImageMax (M : Nat) (halted : Bool) (m : Mem) (file : Option (List (BitVec 8))) (start : Nat) :
    Outcome (Except Err Unit × Mem) :=
  match file with
  | none => .ok (.error .internal, m)
  | some f => loadLoopMax M halted (f.length + 1) m start f

end Verif.Model.DebugMem
