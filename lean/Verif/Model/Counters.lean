import Verif.Model.Session

/-!
# The performance counters of `CoralNPUTop`

Transcription of the counting in `/repo/sim/coralnpu_top.cc`: `StepPastBreakpoint` (299-307), the loop of `Step` (348-358),
the loop of the run thread (447-468), and of `/repo/sim/coralnpu_top.h` (the counters). The counters are followed beside the
state of `Verif.Model.Top`: each function here takes the state its namesake there starts from and the counters before, and
returns the counters afterwards.

`Instruction::opcode()` is a parameter: the opcode of a word. The counters are `uint64_t`; here they do not wrap. The loop
around `ExecuteInstruction` ends at the first attempt: it waits for resources only, and `CoralNPUEncoding` hands out none
(`sim/coralnpu_encoding.h` 61-70).
-/

namespace Verif.Model.Counters
open Verif.Model.Top

variable {σ κ : Type} [DecidableEq κ]

/-- `counter_num_cycles_`, `counter_num_instructions_`, `counter_opcode_[]`. -/
structure Counters (κ : Type) where
  cycles : Nat
  insts : Nat
  ops : κ → Nat

/-- The counters of a new simulator, cc 95-96, 145. -/
def zero : Counters κ := ⟨0, 0, fun _ => 0⟩

/-- `IncrementCycleCount(1)`, cc 807-809. -/
def incCycles (c : Counters κ) : Counters κ := { c with cycles := c.cycles + 1 }

/-- `counter_opcode_[o].Increment(1)`. -/
def incOpcode (o : κ) (c : Counters κ) : Counters κ := { c with ops := fun p => if p = o then c.ops p + 1 else c.ops p }

/-- `IncrementInstructionCount(1)`, cc 811-813. -/
def incInsts (c : Counters κ) : Counters κ := { c with insts := c.insts + 1 }

/-- The counting of `StepPastBreakpoint`, cc 289-311: the instruction is decoded with the breakpoint lifted. -/
def pastC (env : Env σ) (opc : BitVec 32 → κ) (s : St σ) (c : Counters κ) : Counters κ :=
  let pc := s.m.pc.toNat
  let w := (getInst env pc (writeOriginal pc s)).1
  incInsts (incOpcode (opc w) (incCycles c))

/-- The counting of `execLoop`, cc 340-377 and 445-484. -/
def loopC (env : Env σ) (opc : BitVec 32 → κ) (reset : Bool) (n : Nat) : Nat → Nat → Nat → St σ → Counters κ → Counters κ
  | 0, _, _, _, c => c
  | fuel + 1, count, next, s, c =>
    if s.halted ∨ n ≤ count then c
    else
      let w := (getInst env next s).1
      let s1 := fetchExec env next s
      let next' := s1.m.pc.toNat
      let c1 := incInsts (incOpcode (opc w) (incCycles c))
      if !s1.halted then loopC env opc reset n fuel (count + 1) next' s1 c1
      else if s1.reason = .actionPoint then
        let s2 := stepPast env s1
        loopC env opc reset n fuel (count + 1) next'
          { s2 with halted := false, reason := .none, stepOver := if reset then false else s2.stepOver }
          (pastC env opc s1 c1)
      else c1

/-- The counting of `Step`, cc 313-391. -/
def stepC (env : Env σ) (opc : BitVec 32 → κ) (num : Int) (s : St σ) (c : Counters κ) : Counters κ :=
  if num ≤ 0 then c
  else if s.status ≠ .halted then c
  else
    let s1 := { s with status := .singleStep, halted := false }
    if s1.stepOver then
      let s2 := stepPast env { s1 with stepOver := false }
      loopC env opc true num.toNat num.toNat 1 s2.m.pc.toNat s2 (pastC env opc { s1 with stepOver := false } c)
    else loopC env opc true num.toNat num.toNat 0 s1.m.pc.toNat s1 c

/-- The counting of `Run`, cc 393-508, up to the `Halt` of `runHalt`. -/
def runC (env : Env σ) (opc : BitVec 32 → κ) (k : Nat) (s : St σ) (c : Counters κ) : Counters κ :=
  if s.status = .running then c
  else
    let s1 := if s.stepOver then stepPast env { s with stepOver := false } else s
    let c1 := if s.stepOver then pastC env opc { s with stepOver := false } c else c
    loopC env opc false k k 0 s1.m.pc.toNat { s1 with status := .running, halted := false } c1

/-- One call of a session; setting and clearing breakpoints and disassembling count nothing. -/
def execC (env : Env σ) (opc : BitVec 32 → κ) : Op → St σ → Counters κ → Counters κ
  | .setBp _, _, c => c
  | .clearBp _, _, c => c
  | .step n, s, c => stepC env opc n s c
  | .run k, s, c => runC env opc k s c
  | .disasm _, _, c => c

/-- The counters of a session. -/
def execAllC (env : Env σ) (opc : BitVec 32 → κ) : List Op → St σ → Counters κ → Outcome (Counters κ)
  | [], _, c => .ok c
  | op :: l, s, c => do
    let s1 ← exec env op s
    execAllC env opc l s1 (execC env opc op s c)

/-- What `minstret` and `minstreth` (`mcycle` and `mcycleh`) show of a counter, cc 237-258: its low and its high half. -/
def csrLow (v : Nat) : BitVec 32 := BitVec.ofNat 32 v
def csrHigh (v : Nat) : BitVec 32 := BitVec.ofNat 32 (v / 2 ^ 32)

end Verif.Model.Counters
