import Verif.Model.Threads

/-!
# Destruction of the core

`~CoralNPUTop`, `/repo/sim/coralnpu_top.cc` 115-133, interleaved with the run threads of `Verif.Model.Threads`. The
batch part of `main` in `/repo/sim/coralnpu_sim.cc` (230-243) is `Run`, `Wait`, and the destructor when `main` returns.

The deletions of cc 123-132 are one step, after which a run thread that has anything left to do uses a destroyed
object: `Notify` and the lines before it read members (cc 501-508). Calls of the caller itself after the destruction
are not considered (they are ignored).
-/

namespace Verif.Model.Threads

open Verif.Model.Top

inductive Phase where
  | alive
  | ending  -- in the destructor, waiting for the notification (cc 119)
  | gone
deriving DecidableEq, Repr

structure Life (σ : Type) where
  w : World σ
  phase : Phase

inductive LAct where
  | api (a : Act)
  | destroy
deriving DecidableEq, Repr

variable {σ : Type}

/-- One action. -/
def lact (env : Env σ) (a : LAct) (x : Life σ) : Outcome (Life σ) :=
  match x.phase, a with
  | .alive, .api a => do let w ← act env a x.w; .ok { x with w }
  | .alive, .destroy =>
    if x.w.user = .idle then
      -- cc 118
      if x.w.core.status = .running then .ok { w := { x.w with user := .waiting }, phase := .ending }
      else .ok { x with phase := .gone }
    else .ok x
  | .ending, .api (.thr i) => do let w ← thrAct env i x.w; .ok { x with w }
  | .ending, .api .cont => do
    -- cc 119-120
    let w ← waitAct x.w
    .ok { w, phase := if w.user = .idle then .gone else .ending }
  | .gone, .api (.thr i) => if i < x.w.n ∧ (x.w.thr i).lbl ≠ .done then .ub else .ok x
  | _, _ => .ok x

def lacts (env : Env σ) : List LAct → Life σ → Outcome (Life σ)
  | [], x => .ok x
  | a :: l, x => do let y ← lact env a x; lacts env l y

def newLife (s : St σ) : Life σ := ⟨initial s, .alive⟩

/-- The caller destroys the core while it is running or after every run thread has ended; besides, `Disciplined`. -/
def LDisciplined (x : Life σ) : LAct → Prop
  | .api a => Disciplined x.w a
  | .destroy => x.w.core.status = .running ∨ ∀ i < x.w.n, (x.w.thr i).lbl = .done

def LDisciplinedAll (env : Env σ) : List LAct → Life σ → Prop
  | [], _ => True
  | a :: l, x => (x.phase = .alive → x.w.user = .idle → LDisciplined x a) ∧ ∀ y, lact env a x = .ok y → LDisciplinedAll env l y

end Verif.Model.Threads
