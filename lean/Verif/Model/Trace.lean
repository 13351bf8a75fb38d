import Verif.Model.Session

/-!
# The instruction trace of `CoralNPUTop::Run`

Transcription of the trace parts of the run thread, `/repo/sim/coralnpu_top.cc` 425-442, 450-464 and 499-505. `Step` and
`StepPastBreakpoint` write no trace.

External behaviour assumed: `mkdir` makes a directory if nothing has that path and its parent is a directory, and reports
`EEXIST` if something has that path; a stream opened for output truncates the file, and opening fails if the path is a
directory or its parent is not; serializing to a stream writes all entries. As in `Verif.Model.Top`, an instruction is
executed at the first attempt.
-/

namespace Verif.Model.Trace
open Verif.Model.Top
open Verif.Spec.Program (Machine word)

variable {σ : Type}

/-- `TraceEntry`, `proto/coralnpu_trace.proto`, without the disassembly. -/
structure Entry where
  address : BitVec 32
  opcode : BitVec 32
deriving DecidableEq, Repr

/-- The entry added after the instruction at `pc` was executed, cc 451-458: the word is loaded from memory. -/
def entryAt (pc : Nat) (s : St σ) : Entry := ⟨BitVec.ofNat 32 pc, word s.m.mem pc⟩

/-- The entries of the loop `execLoop` of the run thread. -/
def traceLoop (env : Env σ) (n : Nat) : Nat → Nat → Nat → St σ → List Entry
  | 0, _, _, _ => []
  | fuel + 1, count, next, s =>
    if s.halted ∨ n ≤ count then []
    else
      let s1 := fetchExec env next s
      let e := entryAt next s1
      let next' := s1.m.pc.toNat
      if !s1.halted then e :: traceLoop env n fuel (count + 1) next' s1
      else if s1.reason = .actionPoint then
        let s2 := stepPast env s1
        e :: traceLoop env n fuel (count + 1) next' { s2 with halted := false, reason := .none }
      else [e]

/-- The trace of `runHalt`. -/
def traceRun (env : Env σ) (k : Nat) (s : St σ) : List Entry :=
  let r := runStart env s
  match r.1 with
  | .error _ => []
  | .ok () => traceLoop env k k 0 r.2.m.pc.toNat r.2

/-! ## The file -/

abbrev Path := List Char

inductive Node where
  | dir
  | file (l : List Entry)
deriving DecidableEq, Repr

abbrev Fs := Path → Option Node

/-- `find_last_of('/')`; `none` is `npos`. -/
def lastSlash : Path → Option Nat
  | [] => none
  | c :: p => match lastSlash p with
    | some i => some (i + 1)
    | none => if c = '/' then some 0 else none

/-- `substr(0, find_last_of('/'))`, cc 430-431: `npos` as a length means all of it. -/
def traceDir (p : Path) : Path :=
  match lastSlash p with
  | none => p
  | some i => p.take i

/-- The parent of the path is a directory: the working directory and the root are. -/
def parentIsDir (fs : Fs) (p : Path) : Bool :=
  match lastSlash p with
  | none => true
  | some 0 => true
  | some i => fs (p.take i) == some .dir

def setNode (fs : Fs) (p : Path) (n : Node) : Fs := fun q => if q = p then some n else fs q

/-- `mkdir(p)`: whether it returned 0 or `EEXIST`, and the file system. -/
def mkdir (fs : Fs) (p : Path) : Bool × Fs :=
  if p = [] then (false, fs)
  else if (fs p).isSome then (true, fs)
  else if parentIsDir fs p then (true, setNode fs p .dir)
  else (false, fs)

/-- Opening for output. -/
def openOut (fs : Fs) (p : Path) : Bool × Fs :=
  if p = [] ∨ fs p = some .dir ∨ parentIsDir fs p = false then (false, fs)
  else (true, setNode fs p (.file []))

inductive Message where
  | dump | failed
deriving DecidableEq, Repr

/-- cc 428-442: what is printed, whether the file is open, and the file system. -/
def openTrace (fs : Fs) (p : Path) : Message × Bool × Fs :=
  let r := mkdir fs (traceDir p)
  if r.1 then
    let o := openOut r.2 p
    (.dump, o.1, o.2)
  else (.failed, false, r.2)

/-- The file system after a run with `--trace` whose entries were `l`: cc 428-442, 502-505. -/
def writeTrace (fs : Fs) (p : Path) (l : List Entry) : Message × Fs :=
  let o := openTrace fs p
  (o.1, if o.2.1 then setNode o.2.2 p (.file l) else o.2.2)

end Verif.Model.Trace
