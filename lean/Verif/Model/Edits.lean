import Verif.Model.DebugMem
import Verif.Model.Session

/-!
# Debugger sessions that also change the machine

The calls of `Verif.Model.Session` together with `WriteMemory`, `WriteRegister` and `ClearAllSwBreakpoints`.
-/

namespace Verif.Model.Top

open Verif.Spec.Program (Machine)

variable {σ : Type}

/-- `ClearAllSwBreakpoints`, `coralnpu_top.cc` 701-712. `BreakpointManager::ClearAllBreakpoints` (external) is taken to go through
its map of breakpoints and to write each original instruction back; `l` is the map in the order in which it is walked. -/
def clearAll (l : List Nat) (s : St σ) : Except Err Unit × St σ :=
  if s.status ≠ .halted then (.error .failedPrecondition, s)
  else (.ok (), l.foldl (fun s a => { writeOriginal a s with bps := setAt s.bps a false }) s)

/-- `WriteRegister` of a register other than the pc, `coralnpu_top.cc` 573-617; `g` is what the write does to the registers. -/
def writeRegs (g : σ → σ) (s : St σ) : Except Err Unit × St σ :=
  if s.status ≠ .halted then (.error .failedPrecondition, s)
  else (.ok (), { s with m := { s.m with regs := g s.m.regs } })

/-- Debugger calls. -/
inductive Call (σ : Type) where
  | dbg (op : Op)
  | poke (a : Nat) (d : List (BitVec 8))
  | regs (g : σ → σ)
  | pc (v : Nat)
  | clearAll (l : List Nat)

/-- One call; replies are dropped. `WriteMemory` is the one of `Verif.Model.DebugMem`. -/
def execCall (env : Env σ) : Call σ → St σ → Outcome (St σ)
  | .dbg op, s => exec env op s
  | .poke a d, s => do
    let r ← DebugMem.writeMemory (decide (s.status = .halted)) s.m.mem a d
    .ok { s with m := { s.m with mem := r.2 } }
  | .regs g, s => .ok (writeRegs g s).2
  | .pc v, s => .ok (writePc v s).2
  | .clearAll l, s => .ok (clearAll l s).2

/-- Whether the call executes instructions. -/
def Call.executes : Call σ → Bool
  | .dbg op => op.executes
  | _ => false

/-- A session; also counts the executing calls that ended at a breakpoint. -/
def execCalls (env : Env σ) : List (Call σ) → St σ → Outcome (St σ × Nat)
  | [], s => .ok (s, 0)
  | c :: l, s => do
    let s1 ← execCall env c s
    let r ← execCalls env l s1
    .ok (r.1, r.2 + if c.executes ∧ s1.reason = .softwareBreakpoint then 1 else 0)

/-- Calls for which the core keeps the program undisturbed apart from the change asked for. `C` is the code area. The list of a
`clearAll` is the list of the breakpoints. The exceptions are real, see `Verif.Props.Edits`. -/
def LegalCall (env : Env σ) (C : Nat → Bool) (s : St σ) : Call σ → Prop
  | .dbg op => Legal env C s op
  | .poke a d => d ≠ [] ∧ a + d.length ≤ DebugMem.maxAddr + 1 ∧ ∀ q, a ≤ q → q < a + d.length → C (q / 4 * 4) = false
  | .regs _ => True
  | .pc v => v < 2 ^ 32 ∧ s.reason ≠ .softwareBreakpoint
  | .clearAll l => l.Nodup ∧ (∀ a, a ∈ l ↔ s.bps a = true) ∧ s.reason ≠ .softwareBreakpoint

/-- Every call of the session is legal when it is made. -/
def LegalCalls (env : Env σ) (C : Nat → Bool) : List (Call σ) → St σ → Prop
  | [], _ => True
  | c :: l, s => LegalCall env C s c ∧ ∀ s', execCall env c s = .ok s' → LegalCalls env C l s'

end Verif.Model.Top
