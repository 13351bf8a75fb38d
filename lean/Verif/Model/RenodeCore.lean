import Verif.Model.Agent
import Verif.Model.DebugMem
import Verif.Model.Session

/-!
# The first core behind the Renode interface

`CoralNPURenode` (`/repo/sim/renode/coralnpu_renode.cc`) forwards each call to its `CoralNPUTop`. Here the run control of
`Verif.Model.Top`, the memory calls of `Verif.Model.DebugMem` and the register calls of `Verif.Model.Agent` are put together
into a `Core` for the agent.

Parameters: the machine a core starts as, how the scalar registers are kept inside the machine, the registers outside the table
(CSRs and others), the ELF loader of mpact-sim and the files. The memory is the flat one of `coralnpu_top.cc` 94-101; for the
Renode block memory see `C42_renode_backing`.
-/

namespace Verif.Model.RenodeCore

open Verif.Model.Agent Verif.Model.Top
open Verif.Spec.Program (Machine)

structure Params (σ : Type) where
  env : Env σ
  nb : Numbering
  /-- The size of the caller's name buffer. -/
  cap : Nat
  start : Machine σ
  getX : σ → Fin 32 → BitVec 32
  setX : σ → Fin 32 → BitVec 32 → σ
  otherGet : Nat → St σ → Option (BitVec 64)
  otherSet : Nat → BitVec 64 → St σ → Option Unit × St σ
  elf : List (BitVec 8) → St σ → Option (BitVec 64) × St σ
  file : List (BitVec 8) → Option (List (BitVec 8))

variable {σ : Type}

/-- `run_status_ == RunStatus::kHalted`. -/
def isHalted (s : St σ) : Bool := decide (s.status = .halted)

/-- The registers of the table in the machine. -/
def regsOf (R : Params σ) (s : St σ) : Regs where
  halted := isHalted s
  reason := s.reason
  val | .pc => s.m.pc
      | .x i => R.getX s.m.regs i

/-- `ReadRegister`, `coralnpu_renode.cc` 143-151. -/
def readReg (R : Params σ) (id : BitVec 32) (s : St σ) : Option (BitVec 64) :=
  Agent.readReg R.nb (fun n _ => R.otherGet n s) id (regsOf R s)

/-- `WriteRegister`, `coralnpu_renode.cc` 153-161, `coralnpu_top.cc` 573-617. The pc goes through the part of
`Verif.Model.Top`. -/
def writeReg (R : Params σ) (id : BitVec 32) (v : BitVec 64) (s : St σ) : Option Unit × St σ :=
  match R.nb.find id with
  | none => (none, s)
  | some (.inr n) => if isHalted s then R.otherSet n v s else (none, s)
  | some (.inl .pc) =>
    let r := Top.writePc v.toNat s
    (r.1.toOption, r.2)
  | some (.inl (.x i)) =>
    if isHalted s then (some (), { s with m := { s.m with regs := R.setX s.m.regs i (v.truncate 32) } }) else (none, s)

/-- `ReadMemory`, `coralnpu_renode.cc` 97-100. -/
def readMem (addr len : BitVec 64) (s : St σ) : Outcome (Option (List (BitVec 8))) :=
  DebugMem.readMemory (isHalted s) s.m.mem addr.toNat len.toNat >>= fun r => .ok r.toOption

/-- `WriteMemory`, `coralnpu_renode.cc` 102-106. -/
def writeMem (addr : BitVec 64) (b : List (BitVec 8)) (s : St σ) : Outcome (Option Nat × St σ) :=
  DebugMem.writeMemory (isHalted s) s.m.mem addr.toNat b >>= fun r =>
    .ok (r.1.toOption, { s with m := { s.m with mem := r.2 } })

/-- `LoadImage`, `coralnpu_renode.cc` 138-141. -/
def loadImage (R : Params σ) (name : List (BitVec 8)) (addr : BitVec 64) (s : St σ) : Outcome (Option Unit × St σ) :=
  DebugMem.loadImage (isHalted s) s.m.mem (R.file name) addr.toNat >>= fun r =>
    .ok (r.1.toOption, { s with m := { s.m with mem := r.2 } })

/-- `Step`, `coralnpu_renode.cc` 76-78. -/
def stepN (R : Params σ) (n : Int) (s : St σ) : Outcome (Option Int × St σ) :=
  Top.step R.env n s >>= fun r => .ok (match r.1 with | .ok k => some (k : Int) | .error _ => none, r.2)

/-- `Halt()`, `coralnpu_top.cc` 264-276. -/
def halt (s : St σ) : Option Unit × St σ :=
  match s.status with
  | .halted => (some (), s)
  | .running => (some (), haltFlagPart (haltReasonPart s))
  | .singleStep => (none, s)

/-- The instance that `CreateCoralNPUSim` makes (`coralnpu_renode.cc` 33-46), as the agent sees it. -/
def core (R : Params σ) : Core (St σ) where
  create _ _ := some (fresh R.start)
  infoSize _ := (table R.nb).length
  regInfo index len _ := getInfo R.nb R.cap index len
  readReg := readReg R
  writeReg := writeReg R
  readMem := readMem
  writeMem := writeMem
  loadElf := R.elf
  writePc e s := let r := Top.writePc e.toNat s; (r.1.toOption, r.2)
  loadImage := loadImage R
  step := stepN R
  reason s := some s.reason
  halt := halt

end Verif.Model.RenodeCore
