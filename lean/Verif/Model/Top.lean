import Verif.Base.Outcome
import Verif.Spec.Program

/-!
# Run control and breakpoints of `CoralNPUTop`

Transcription of `/repo/sim/coralnpu_top.cc` (`Halt`, `StepPastBreakpoint`, `Step`, `Run`, `Wait`, breakpoint calls,
`WriteRegister` of the pc, `RequestHalt`, the `ebreak` handler) and of
`/repo/sim/coralnpu_action_point_memory_interface.cc`.

Parameters (external to `/repo`): the semantics of instructions other than `ebreak`, and which other entries of the
decode cache survive when one is filled. `uint64_t` addresses are `Nat`.

External behaviour assumed: `BreakpointManager::SetBreakpoint` refuses a breakpoint that exists and otherwise writes
the breakpoint instruction; `ClearBreakpoint` refuses one that does not exist and otherwise writes the original
instruction; an action point is active at exactly the addresses with a breakpoint (`CoralNPUTop` creates no other
action points) and performing its actions calls the halt function given in cc 163-165. A decoded instruction is
determined by its address and word and has size 4. `RiscVArmSemihost::IsSemihostingCall` reads the words before and after the
`ebreak` from memory; `OnEBreak` is a parameter, the field `host` of the semantics, which is `none` when the flag `use_semihost` is off
(its default). The encoding gives no resource operands (`coralnpu_encoding.h` 61-71), so that the loop around `ExecuteInstruction`
executes at the first attempt.
-/

namespace Verif.Model.Top

open Verif.Spec.Program (Machine Sem Ev word)

/-- `CoreDebugInterface::HaltReason` and `kHaltAbort` (`coralnpu_top.h` 61). -/
inductive HaltReason where
  | none | softwareBreakpoint | userRequest | semihostHaltRequest | hardwareBreakpoint | actionPoint
  | simulatorError | haltAbort
deriving DecidableEq, Repr

inductive RunStatus where
  | halted | running | singleStep
deriving DecidableEq, Repr

inductive Err where
  | failedPrecondition | invalidArgument | alreadyExists | notFound
deriving DecidableEq, Repr

/-- `kEBreak32`, `coralnpu_action_point_memory_interface.cc`. -/
def kEBreak32 : BitVec 32 := 0x00100073

/-- The parameters: instruction semantics, and whether filling the decode cache at one address keeps the entry of
another. -/
structure Env (σ : Type) where
  sem : Sem σ
  keep : Nat → Nat → Bool

/-- The members of `CoralNPUTop` (`coralnpu_top.h`): architectural state, decode cache (the word decoded at an
address), `instruction_map_` of the action point memory interface, the breakpoints of the manager, `halted_`,
`halt_reason_`, `need_to_step_over_`, `run_status_`, and the instruction counter. -/
structure St (σ : Type) where
  m : Machine σ
  cache : Nat → Option (BitVec 32)
  orig : Nat → Option (BitVec 32)
  bps : Nat → Bool
  halted : Bool
  reason : HaltReason
  stepOver : Bool
  status : RunStatus
  instret : Nat

variable {σ : Type}

/-- A 4-byte little-endian store. -/
def putWord (mem : Nat → BitVec 8) (a : Nat) (w : BitVec 32) : Nat → BitVec 8 :=
  fun q => if a ≤ q ∧ q < a + 4 then w.extractLsb' (8 * (q - a)) 8 else mem q

def setAt {α : Type} (f : Nat → α) (a : Nat) (x : α) : Nat → α := fun b => if b = a then x else f b

/-- `SetPc`, cc 800-806 (the pc register is 4 bytes wide). -/
def setPc (v : Nat) (s : St σ) : St σ := { s with m := { s.m with pc := BitVec.ofNat 32 v } }

/-- `RequestHalt`, cc 781-792. -/
def requestHalt (r : HaltReason) (s : St σ) : St σ :=
  { s with reason := r, halted := true,
           stepOver := s.stepOver || decide (r = .softwareBreakpoint ∨ r = .actionPoint) }

/-- `DecodeCache::GetDecodedInstruction` (external): the cached word, or the word in memory, which is then cached. -/
def getInst (env : Env σ) (a : Nat) (s : St σ) : BitVec 32 × St σ :=
  match s.cache a with
  | some w => (w, s)
  | none =>
    let w := word s.m.mem a
    (w, { s with cache := fun b => if b = a then some w else if env.keep a b then s.cache b else none })

/-- The halt reason requested for an event of an ordinary instruction: cc 197-205 (`mpause`), 208-235 (traps), 261
(semihosting exit). -/
def evReason : Ev → HaltReason
  | .userRequest => .userRequest
  | .semihostExit => .semihostHaltRequest

/-- `kSlliX0`, `kSraiX0` and `IsSemihostingCall` of `RiscVArmSemihost` (external). -/
def isCall (mem : Nat → BitVec 8) (a : Nat) : Bool :=
  decide (4 ≤ a) && (word mem (a - 4) == 0x01f01013#32) && (word mem (a + 4) == 0x40705013#32)

/-- Execution of a decoded instruction; `ebreak` goes to the handler of cc 178-195. -/
def execInst (env : Env σ) (w : BitVec 32) (a : Nat) (s : St σ) : St σ :=
  if w = kEBreak32 then
    match if isCall s.m.mem a then env.sem.host else none with
    | some f => (f s.m).2.foldl (fun s e => requestHalt (evReason e) s) { s with m := (f s.m).1 }
    | none =>
      if s.bps a then requestHalt .softwareBreakpoint (requestHalt .actionPoint s)
      else requestHalt .haltAbort s
  else
    let r := env.sem w a s.m
    r.2.foldl (fun s e => requestHalt (evReason e) s) { s with m := r.1 }

/-- Decode, set the pc to the next sequential instruction, execute, count: cc 294-307, 343-357, 439-468. -/
def fetchExec (env : Env σ) (pc : Nat) (s : St σ) : St σ :=
  let r := getInst env pc s
  let s' := execInst env r.1 pc (setPc (pc + 4) r.2)
  { s' with instret := s'.instret + 1 }

/-- `WriteOriginalInstruction`, action point memory interface 41-54; its status is ignored by every caller that could
see `NotFound`. -/
def writeOriginal (a : Nat) (s : St σ) : St σ :=
  match s.orig a with
  | none => s
  | some w => { s with m := { s.m with mem := putWord s.m.mem a w }, cache := setAt s.cache a none }

/-- `WriteBreakpointInstruction`, action point memory interface 56-84. -/
def writeBreakpoint (a : Nat) (s : St σ) : St σ :=
  let orig := match s.orig a with
    | none => setAt s.orig a (some (word s.m.mem a))
    | some _ => s.orig
  { s with orig, m := { s.m with mem := putWord s.m.mem a kEBreak32 }, cache := setAt s.cache a none }

/-- `StepPastBreakpoint`, cc 289-311. -/
def stepPast (env : Env σ) (s : St σ) : St σ :=
  let pc := s.m.pc.toNat
  writeBreakpoint pc (fetchExec env pc (writeOriginal pc s))

/-- The execution loop of `Step` (cc 340-377) and of the run thread (cc 437-484). Locals: `count`, `pc` (`none` while
uninitialised), `next_pc`. `Step` also clears `need_to_step_over_` after an action point (`reset`). Each iteration
increments `count`, so `n` iterations suffice; for the run thread `n` is the number of iterations considered. -/
def execLoop (env : Env σ) (reset : Bool) (n : Nat) :
    Nat → Nat → Option Nat → Nat → St σ → Nat × Option Nat × Nat × St σ
  | 0, count, last, next, s => (count, last, next, s)
  | fuel + 1, count, last, next, s =>
    if s.halted ∨ n ≤ count then (count, last, next, s)
    else
      let s1 := fetchExec env next s
      let next' := s1.m.pc.toNat
      if !s1.halted then execLoop env reset n fuel (count + 1) (some next) next' s1
      else if s1.reason = .actionPoint then
        let s2 := stepPast env s1
        execLoop env reset n fuel (count + 1) (some next) next'
          { s2 with halted := false, reason := .none, stepOver := if reset then false else s2.stepOver }
      else (count + 1, some next, next', s1)

/-- Setting the pc after the loop, cc 378-385 and 485-493. An uninitialised `pc` is `ub`. -/
def finishPc (last : Option Nat) (next : Nat) (s : St σ) : Outcome (St σ) :=
  if s.reason = .softwareBreakpoint then
    match last with
    | some p => .ok (setPc p s)
    | none => .ub
  else .ok (setPc next s)

/-- The end of `Step`, cc 378-391, on the locals and state the loop left. -/
def stepEnd (r : Nat × Option Nat × Nat × St σ) : Outcome (Except Err Nat × St σ) := do
  let s ← finishPc r.2.1 r.2.2.1 r.2.2.2
  .ok (.ok r.1, { s with reason := if s.halted then s.reason else .none, status := .halted })

/-- `Step`, cc 313-391. -/
def step (env : Env σ) (num : Int) (s : St σ) : Outcome (Except Err Nat × St σ) :=
  if num ≤ 0 then .ok (.error .invalidArgument, s)
  else if s.status ≠ .halted then .ok (.error .failedPrecondition, s)
  else
    let s1 := { s with status := .singleStep, halted := false }
    let r := if s1.stepOver then (1, stepPast env { s1 with stepOver := false }) else (0, s1)
    stepEnd (execLoop env true num.toNat num.toNat r.1 none r.2.m.pc.toNat r.2)

/-- The synchronous part of `Run`, cc 393-412: everything before the thread starts. -/
def runStart (env : Env σ) (s : St σ) : Except Err Unit × St σ :=
  if s.status = .running then (.error .failedPrecondition, s)
  else
    let s1 := if s.stepOver then stepPast env { s with stepOver := false } else s
    (.ok (), { s1 with status := .running, halted := false })

/-- Program points of the run thread, cc 414-508. -/
inductive Lbl where
  | start   -- before `next_pc = pc_operand->AsUint64(0)`
  | top     -- loop condition
  | body    -- about to execute the instruction at `next_pc`
  | after   -- `if (!halted_) continue`
  | chk     -- action point check
  | fin     -- update of the pc
  | stat    -- `run_status_ = kHalted`
  | notify  -- `run_halted_->Notify()`
  | done
deriving DecidableEq, Repr

/-- Locals of the run thread. -/
structure Thr where
  lbl : Lbl
  last : Option Nat
  next : Nat
deriving DecidableEq, Repr

/-- One step of the run thread on the core (the notification itself is handled by the world, see `Verif.Model.Threads`).
-/
def thrStep (env : Env σ) (t : Thr) (s : St σ) : Outcome (Thr × St σ) :=
  match t.lbl with
  | .start => .ok ({ t with lbl := .top, next := s.m.pc.toNat }, s)
  | .top => .ok (if s.halted then ({ t with lbl := .fin }, s) else ({ t with lbl := .body }, s))
  | .body =>
    let s1 := fetchExec env t.next s
    .ok ({ lbl := .after, last := some t.next, next := s1.m.pc.toNat }, s1)
  | .after => .ok (if s.halted then ({ t with lbl := .chk }, s) else ({ t with lbl := .top }, s))
  | .chk =>
    if s.reason = .actionPoint then
      .ok ({ t with lbl := .top }, { stepPast env s with halted := false, reason := .none })
    else .ok ({ t with lbl := .fin }, s)
  | .fin => do
    let s1 ← finishPc t.last t.next s
    .ok ({ t with lbl := .stat }, s1)
  | .stat => .ok ({ t with lbl := .notify }, { s with status := .halted })
  | .notify => .ok ({ t with lbl := .done }, s)
  | .done => .ok (t, s)

/-- A fresh run thread. -/
def newThr : Thr := ⟨.start, none, 0⟩

/-- `Halt()`, first half, cc 264-276: the reason; the second half sets the flag. -/
def haltReasonPart (s : St σ) : St σ := { s with reason := .userRequest }
def haltFlagPart (s : St σ) : St σ := { s with halted := true }

/-- The end of the run thread, cc 485-494, after `Halt` if nothing stopped the loop. -/
def runEnd (r : Nat × Option Nat × Nat × St σ) : Outcome (Except Err Unit × St σ) := do
  let s ← finishPc r.2.1 r.2.2.1 (if r.2.2.2.halted then r.2.2.2 else haltFlagPart (haltReasonPart r.2.2.2))
  .ok (.ok (), { s with status := .halted })

/-- `Run` followed by `Halt` delivered at the loop condition after `k` iterations, unless the program stops by itself
before; the thread then finishes (cc 485-494). This is one schedule of `thrStep` and the two halves of `Halt`, see
`Verif.Proofs.Threads.runHalt_schedule`. -/
def runHalt (env : Env σ) (k : Nat) (s : St σ) : Outcome (Except Err Unit × St σ) :=
  let r := runStart env s
  match r.1 with
  | .error e => .ok (.error e, r.2)
  | .ok () => runEnd (execLoop env false k k 0 none r.2.m.pc.toNat r.2)

/-- `SetSwBreakpoint`, cc 675-687. -/
def setBp (a : Nat) (s : St σ) : Except Err Unit × St σ :=
  if s.status ≠ .halted then (.error .failedPrecondition, s)
  else if s.bps a then (.error .alreadyExists, s)
  else (.ok (), { writeBreakpoint a s with bps := setAt s.bps a true })

/-- `ClearSwBreakpoint`, cc 689-699. -/
def clearBp (a : Nat) (s : St σ) : Except Err Unit × St σ :=
  if s.status ≠ .halted then (.error .failedPrecondition, s)
  else if s.bps a then (.ok (), { writeOriginal a s with bps := setAt s.bps a false })
  else (.error .notFound, s)

/-- `WriteRegister("pc", value)`, cc 573-617: the halt reason is adjusted, `need_to_step_over_` is not. -/
def writePc (v : Nat) (s : St σ) : Except Err Unit × St σ :=
  if s.status ≠ .halted then (.error .failedPrecondition, s)
  else
    let s1 := if s.reason = .softwareBreakpoint then { s with reason := .none } else s
    (.ok (), setPc v s1)

/-- `WriteMemory`, cc 652-669, on a non-empty in-range request: memory changes, the decode cache does not. -/
def pokeMem (a : Nat) (d : List (BitVec 8)) (s : St σ) : St σ :=
  { s with m := { s.m with mem := fun q => if h : a ≤ q ∧ q - a < d.length then d[q - a]'h.2 else s.m.mem q } }

/-- `GetDisassembly`, cc 720-747: its effect on the state, and the word that is disassembled. -/
def disasm (env : Env σ) (a : Nat) (s : St σ) : Except Err (BitVec 32) × St σ :=
  if s.status ≠ .halted then (.error .failedPrecondition, s)
  else if s.bps a then
    let r := getInst env a (writeOriginal a s)
    (.ok r.1, writeBreakpoint a r.2)
  else
    let r := getInst env a s
    (.ok r.1, r.2)

end Verif.Model.Top
