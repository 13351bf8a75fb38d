import Verif.Model.Session

/-!
# The core, its run threads and one API caller

`/repo/sim/coralnpu_top.cc` 264-276 (`Halt`), 393-509 (`Run` and its thread) and 512-522 (`Wait`), as interleaved atomic
steps: each action below is one read or write of a member shared between the caller and the run threads, except that an
instruction executes in one step (the caller's only interference with it is through `halt_reason_` and `halted_`). An
action that is not enabled leaves the world unchanged, so every list of actions is a schedule.

`absl::Notification` is a flag that is set once (a second `Notify` aborts in checked builds); using a null or deleted
one is `ub`. The members `halted_` and `run_status_` are plain variables; the model gives their concurrent accesses the
interleaving meaning, although C++ calls them data races.
-/

namespace Verif.Model.Threads

open Verif.Model.Top

/-- Where the API caller is. -/
inductive User where
  | idle
  | halting1          -- in `Halt`, about to write `halt_reason_`
  | halting2          -- in `Halt`, about to write `halted_`
  | waiting           -- in `Wait`, past the test of `run_status_`
deriving DecidableEq, Repr

/-- `thr i` is the `i`-th run thread, `n` the number started; `ptr` is `run_halted_` (`none`: no object);
notification objects are numbered in the order of creation. -/
structure World (σ : Type) where
  core : St σ
  n : Nat
  thr : Nat → Thr
  ptr : Option Nat
  nobj : Nat
  notified : Nat → Bool
  deleted : Nat → Bool
  user : User

inductive Act where
  | thr (i : Nat)     -- one step of a run thread
  | run | halt | wait -- the caller enters `Run`, `Halt`, `Wait`
  | cont              -- the caller continues a call it is in
  | step (k : Int)
  | setBp (a : Nat)
  | clearBp (a : Nat)
  | writePc (v : Nat)
deriving DecidableEq, Repr

variable {σ : Type}

/-- A step of run thread `i`. -/
def thrAct (env : Env σ) (i : Nat) (w : World σ) : Outcome (World σ) :=
  if w.n ≤ i then .ok w
  else if (w.thr i).lbl = .notify then
    match w.ptr with
    | none => .ub
    | some p =>
      if w.deleted p then .ub
      else if w.notified p then .abort
      else .ok { w with notified := setAt w.notified p true, thr := setAt w.thr i { w.thr i with lbl := .done } }
  else do
    let r ← thrStep env (w.thr i) w.core
    .ok { w with core := r.2, thr := setAt w.thr i r.1 }

/-- `Run`, cc 393-419. -/
def runAct (env : Env σ) (w : World σ) : Except Err Unit × World σ :=
  let r := runStart env w.core
  match r.1 with
  | .error e => (.error e, w)
  | .ok () =>
    (.ok (), { w with core := r.2, thr := setAt w.thr w.n newThr, n := w.n + 1, ptr := some w.nobj, nobj := w.nobj + 1 })

/-- `Wait` after its test, cc 516-521. -/
def waitAct (w : World σ) : Outcome (World σ) :=
  match w.ptr with
  | none => .ub
  | some p =>
    if w.deleted p then .ub
    else if w.notified p then .ok { w with deleted := setAt w.deleted p true, ptr := none, user := .idle }
    else .ok w

/-- One action. -/
def act (env : Env σ) (a : Act) (w : World σ) : Outcome (World σ) :=
  match a, w.user with
  | .thr i, _ => thrAct env i w
  | .cont, .halting1 => .ok { w with core := haltReasonPart w.core, user := .halting2 }
  | .cont, .halting2 => .ok { w with core := haltFlagPart w.core, user := .idle }
  | .cont, .waiting => waitAct w
  | .cont, .idle => .ok w
  | .run, .idle => .ok (runAct env w).2
  | .halt, .idle => .ok (if w.core.status = .running then { w with user := .halting1 } else w)
  | .wait, .idle => .ok (if w.core.status = .running then { w with user := .waiting } else w)
  | .step k, .idle => do let r ← step env k w.core; .ok { w with core := r.2 }
  | .setBp a, .idle => .ok { w with core := (setBp a w.core).2 }
  | .clearBp a, .idle => .ok { w with core := (clearBp a w.core).2 }
  | .writePc v, .idle => .ok { w with core := (writePc v w.core).2 }
  | _, _ => .ok w

/-- A schedule. -/
def acts (env : Env σ) : List Act → World σ → Outcome (World σ)
  | [], w => .ok w
  | a :: l, w => do let w1 ← act env a w; acts env l w1

/-- The world around a core no thread has been started on. -/
def initial (s : St σ) : World σ :=
  { core := s, n := 0, thr := fun _ => ⟨.done, none, 0⟩, ptr := none, nobj := 0, notified := fun _ => false,
    deleted := fun _ => false, user := .idle }

/-- A thread that still works on the core. -/
def active (t : Thr) : Prop := t.lbl ≠ .notify ∧ t.lbl ≠ .done

instance (t : Thr) : Decidable (active t) := inferInstanceAs (Decidable (_ ∧ _))

/-- `ReadRegister`, cc 538-572, for the pc: refused unless halted. -/
def readPc (s : St σ) : Except Err (BitVec 32) :=
  if s.status ≠ .halted then .error .failedPrecondition else .ok s.m.pc

/-- The caller never starts a run before the thread of the previous run has ended (a `Run` that is refused is fine),
and does not step from a breakpoint stop. -/
def Disciplined (w : World σ) : Act → Prop
  | .run => w.core.status = .running ∨ ∀ i < w.n, (w.thr i).lbl = .done
  | .step _ => w.core.stepOver = false
  | _ => True

def DisciplinedAll (env : Env σ) : List Act → World σ → Prop
  | [], _ => True
  | a :: l, w => (w.user = .idle → Disciplined w a) ∧ ∀ w', act env a w = .ok w' → DisciplinedAll env l w'

end Verif.Model.Threads
