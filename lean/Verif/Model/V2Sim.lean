import Verif.Model.V2

/-!
# The simulator of the second core

Transcription of `CoralNPUV2StateFactory` (`/repo/sim/coralnpu_v2_state.h` 111-167), of the options and the constructor of
`CoralNPUV2Simulator` (`coralnpu_v2_simulator.h` 38-45, `coralnpu_v2_simulator.cc` 56-122) and of the flags of
`coralnpu_v2_sim.cc` 43-52.

External behaviour assumed: the misa CSR keeps the value it is given; `RiscVTop::RequestHalt` records its reason;
`RiscVState::EBreak` calls the handlers in order until one returns true, and traps with code 3 if none does, as
`CoralNPUV2State::MPause` does.
-/

namespace Verif.Model.V2Sim
open Verif.Model.V2

/-- `CoralNPUV2SimulatorOptions`, simulator.h 38-45. -/
structure Options where
  itcmStart : BitVec 32 := 0x0
  itcmLength : BitVec 32 := 0x2000
  misa : BitVec 32 := 0x40201120
  dtcmStart : BitVec 32 := 0x10000
  dtcmLength : BitVec 32 := 0x8000
  exitOnEbreak : Bool := false
deriving DecidableEq, Repr

/-- The options that `main` makes from the flags it was given (`coralnpu_v2_sim.cc` 43-52 and 83-88); the defaults are those
of the `ABSL_FLAG` lines. -/
def optionsOf (itcmStart itcmLength misa dtcmStart dtcmLength : Option (BitVec 32)) (exitOnEbreak : Option Bool) : Options :=
  { itcmStart := itcmStart.getD 0x0
    itcmLength := itcmLength.getD 0x2000
    misa := misa.getD 0x40201120
    dtcmStart := dtcmStart.getD 0x10000
    dtcmLength := dtcmLength.getD 0x8000
    exitOnEbreak := exitOnEbreak.getD false }

/-- `CoralNPUV2StateFactory`, state.h 160-167. -/
structure Factory where
  itcmSet : Bool := false
  itcmStart : BitVec 32 := 0
  itcmLength : BitVec 32 := 0
  misaSet : Bool := false
  misa : BitVec 32 := 0
  ranges : List Range := []
deriving DecidableEq, Repr

/-- `SetItcmRange`, state.h 120-126. -/
def Factory.setItcmRange (f : Factory) (start length : BitVec 32) : Factory :=
  { f with itcmStart := start, itcmLength := length, itcmSet := true }

/-- `SetInitialMisaValue`, state.h 128-132. -/
def Factory.setMisa (f : Factory) (value : BitVec 32) : Factory := { f with misa := value, misaSet := true }

/-- `AddLsuAccessRange`, state.h 134-139. -/
def Factory.addRange (f : Factory) (start length : BitVec 32) : Factory :=
  { f with ranges := f.ranges ++ [⟨start, length⟩] }

/-- The configuration part of a `CoralNPUV2State` (state.h 104-109 and the misa CSR of the base class). -/
structure Config where
  itcmStart : BitVec 32 := 0
  itcmLength : BitVec 32 := 0
  misa : BitVec 64
  ranges : List Range := []
deriving DecidableEq, Repr

/-- `Create`, state.h 141-158; `misa0` is what the base class puts into misa. -/
def Factory.create (misa0 : BitVec 64) (f : Factory) : Config :=
  let s : Config := { misa := misa0 }
  let s := if f.itcmSet then { s with itcmStart := f.itcmStart, itcmLength := f.itcmLength } else s
  let s := if f.misaSet then { s with misa := stretchMisa32 f.misa } else s
  f.ranges.foldl (fun s r => { s with ranges := s.ranges ++ [r] }) s

/-- The state made by the constructor of the simulator, simulator.cc 60-67. -/
def configOf (misa0 : BitVec 64) (o : Options) : Config :=
  ((({} : Factory).setItcmRange o.itcmStart o.itcmLength).setMisa o.misa |>.addRange o.dtcmStart o.dtcmLength).create misa0

/-- The reasons for which the handlers request a halt. -/
inductive Reason where
  | userRequest
deriving DecidableEq, Repr

/-- What the handlers touch: the halt requests made so far. -/
abbrev Requests := List Reason

/-- The mpause handler, simulator.cc 102-106. -/
def onMpause : Handler Requests := fun s => (true, s ++ [.userRequest])

/-- The ebreak handler, simulator.cc 110-118. -/
def onEbreak (o : Options) : Handler Requests := fun s =>
  if o.exitOnEbreak then (true, s ++ [.userRequest]) else (false, s)

/-- The `mpause` instruction, with the handlers the constructor registers (`coralnpu_v2_instructions.cc` 68-73). -/
def mpause (pc : BitVec 64) (s : Requests) : Option Trap × Requests := mpauseV2 (some pc) [onMpause] s

/-- The `ebreak` instruction, with the handlers the constructor registers. -/
def ebreak (o : Options) (pc : BitVec 64) (s : Requests) : Option Trap × Requests := mpauseV2 (some pc) [onEbreak o] s

/-- One load or store, with its register values. -/
structure Access where
  op : Op
  base : BitVec 32
  offset : BitVec 32
  src : BitVec 32
  pc : BitVec 64
deriving DecidableEq, Repr

/-- Loads and stores in order, on a simulator with this configuration. -/
def accesses (c : Config) (l : List Access) (s : St) : St :=
  l.foldl (fun s a => exec c.ranges a.op a.base a.offset a.src a.pc s) s

/-- The function that the `.isa` file names for each access (`coralnpu_v2_instructions.cc` 75-152). -/
def handler : Op → String
  | .lw => "&::coralnpu::sim::CoralNPUV2Lw"
  | .lh => "&::coralnpu::sim::CoralNPUV2Lh"
  | .lhu => "&::coralnpu::sim::CoralNPUV2Lhu"
  | .lb => "&::coralnpu::sim::CoralNPUV2Lb"
  | .lbu => "&::coralnpu::sim::CoralNPUV2Lbu"
  | .sw => "&::coralnpu::sim::CoralNPUV2Sw"
  | .sh => "&::coralnpu::sim::CoralNPUV2Sh"
  | .sb => "&::coralnpu::sim::CoralNPUV2Sb"
  | .fsw => "&::coralnpu::sim::CoralNPUV2Fsw"

/-- `kCoralnpuMisaVal`, the value the first core puts into misa, `coralnpu_state.cc` 36 and 68-73. -/
def misaV1 : BitVec 64 := 0x4000000000801100

end Verif.Model.V2Sim
