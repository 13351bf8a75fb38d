import Verif.Model.Top

/-!
# Debugger sessions

A list of debugger calls made one after the other on the model of `CoralNPUTop`. `Run` is paired with the `Halt` that
ends it (`runHalt`), so that the core is halted between calls.
-/

namespace Verif.Model.Top

open Verif.Spec.Program (Machine word Clear)

inductive Op where
  | setBp (a : Nat)
  | clearBp (a : Nat)
  | step (n : Int)
  | run (k : Nat)
  | disasm (a : Nat)
deriving Repr, DecidableEq

variable {σ : Type}

/-- One call; replies are dropped. -/
def exec (env : Env σ) : Op → St σ → Outcome (St σ)
  | .setBp a, s => .ok (setBp a s).2
  | .clearBp a, s => .ok (clearBp a s).2
  | .step n, s => do let r ← step env n s; .ok r.2
  | .run k, s => do let r ← runHalt env k s; .ok r.2
  | .disasm a, s => .ok (disasm env a s).2

/-- Whether the call executes instructions. -/
def Op.executes : Op → Bool
  | .step _ => true
  | .run _ => true
  | _ => false

/-- A session; also counts the executing calls that ended at a breakpoint. A step of zero or fewer instructions does
not execute. -/
def execAll (env : Env σ) : List Op → St σ → Outcome (St σ × Nat)
  | [], s => .ok (s, 0)
  | op :: l, s => do
    let s1 ← exec env op s
    let r ← execAll env l s1
    .ok (r.1, r.2 + if op.executes ∧ s1.reason = .softwareBreakpoint then 1 else 0)

/-- The word of the program at `a`: the original one where a breakpoint is armed. -/
def progWord (s : St σ) (a : Nat) : BitVec 32 :=
  if s.bps a then (s.orig a).getD 0 else word s.m.mem a

/-- Calls for which the core keeps the program undisturbed. `C` is the code area. The exceptions are real, see
`Verif.Props.RunControl`. -/
def Legal (env : Env σ) (C : Nat → Bool) (s : St σ) : Op → Prop
  | .setBp a => a % 4 = 0 ∧ C a = true ∧ progWord s a ≠ kEBreak32 ∧ (env.sem.host ≠ none → Clear C (progWord s) a)
  | .clearBp a => ¬ (s.reason = .softwareBreakpoint ∧ s.m.pc.toNat = a)
  | .step n => 0 < n ∧ s.reason ≠ .softwareBreakpoint
  | .run _ => s.reason = .softwareBreakpoint →
      (env.sem (progWord s s.m.pc.toNat) s.m.pc.toNat { s.m with pc := s.m.pc + 4 }).2 = []
  | .disasm _ => True

/-- Every call of the session is legal when it is made. -/
def LegalAll (env : Env σ) (C : Nat → Bool) : List Op → St σ → Prop
  | [], _ => True
  | op :: l, s => Legal env C s op ∧ ∀ s', exec env op s = .ok s' → LegalAll env C l s'

/-- A core that has been reset: halted, no breakpoints, nothing cached. -/
def fresh (m : Machine σ) : St σ :=
  { m, cache := fun _ => none, orig := fun _ => none, bps := fun _ => false, halted := false, reason := .none,
    stepOver := false, status := .halted, instret := 0 }

/-- Breakpoint requests one after the other; `(true, a)` sets, `(false, a)` clears. -/
def bpOps (l : List (Bool × Nat)) (s : St σ) : St σ :=
  l.foldl (fun s r => if r.1 then (setBp r.2 s).2 else (clearBp r.2 s).2) s

end Verif.Model.Top
