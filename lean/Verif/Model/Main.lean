import Verif.Base.Outcome

/-!
# The command-line simulators

Transcription of `IsElfFile`, `main` and the signal handler of `/repo/sim/coralnpu_sim.cc` (first core), and of `main`, the
signal handler and `CoralNPUV2Simulator::LoadProgram` of `/repo/sim/coralnpu_v2_sim.cc` and
`/repo/sim/coralnpu_v2_simulator.cc` (second core).

Flags and positional arguments are inputs (their parsing is external). So is what the calls on the core return: each of
them is made at most once. A file is its bytes, or `none` when it cannot be opened. Output is left out, except for the
message on a differing entry point.
-/

namespace Verif.Model.Main

/-- Flags, `coralnpu_sim.cc` 44-50 and `coralnpu_v2_sim.cc` 37-41. -/
structure Flags where
  i : Bool := false
  interactive : Bool := false
  binMemoryOffset : BitVec 32 := 0
  entryPoint : Option (BitVec 32) := none
deriving Repr

/-- What the calls return: `LoadProgram` of the ELF loader (the entry point), `LoadImage`, `WriteRegister("pc")`, `Run` and
`Wait` (`true`: no error). -/
structure Answers where
  loadElf : Option (BitVec 64)
  loadImage : Bool := true
  writePc : Bool := true
  run : Bool := true
  wait : Bool := true
deriving Repr

/-- Calls on the core. -/
inductive Call where
  | loadElf
  | loadImage (offset : BitVec 32)
  | writePc (v : BitVec 32)
  | run
  | wait
  | shell
deriving DecidableEq, Repr

/-- What a signal can meet: whether the handler is installed, whether the static pointer is set, and the simulator. -/
inductive Obj where
  | none | alive | destroyed
deriving DecidableEq, Repr

structure Proc where
  handler : Bool
  ptr : Bool
  obj : Obj
deriving DecidableEq, Repr

/-- Result of `main`: exit code, calls in order, whether the message on the entry point was written, and the successive
situations of the process until it ends. -/
structure Result where
  code : Int
  calls : List Call
  warned : Bool
  procs : List Proc
deriving Repr

/-- `IsElfFile`, `coralnpu_sim.cc` 127-137. `read` leaves the rest of `magic_word` uninitialised when the file is shorter, and
comparing it is undefined. The host is little-endian. -/
def isElfFile (file : Option (List (BitVec 8))) : Outcome Bool :=
  match file with
  | none => .ok false
  | some (b0 :: b1 :: b2 :: b3 :: _) =>
    let magic_word := b0.toNat + 256 * b1.toNat + 65536 * b2.toNat + 16777216 * b3.toNat
    .ok (magic_word == 0x464c457f)
  | some _ => .ub

/-- Situations up to line 160 (second core: 99) and at the end, when `main` returns without resetting the pointer. -/
def procsKept : List Proc :=
  [⟨false, false, .none⟩, ⟨false, false, .alive⟩, ⟨false, true, .alive⟩, ⟨true, true, .alive⟩, ⟨true, true, .destroyed⟩]

/-- The same when the pointer is reset before the return, `coralnpu_v2_sim.cc` 129. -/
def procsReset : List Proc :=
  [⟨false, false, .none⟩, ⟨false, false, .alive⟩, ⟨false, true, .alive⟩, ⟨true, true, .alive⟩, ⟨true, false, .alive⟩,
    ⟨true, false, .destroyed⟩]

/-- `main` of the first core from line 207 on. -/
def startV1 (fl : Flags) (an : Answers) (loads : List Call) (entry : BitVec 32) (warned : Bool) : Result :=
  let calls := loads ++ [.writePc entry]
  if !an.writePc then ⟨-1, calls, warned, procsKept⟩
  else if fl.i || fl.interactive then ⟨0, calls ++ [.shell], warned, procsKept⟩
  else ⟨0, calls ++ [.run, .wait], warned, procsKept⟩

/-- `main`, `coralnpu_sim.cc` 139-243; `args` are the positional arguments after the program name. -/
def mainV1 (args : List (Option (List (BitVec 8)))) (fl : Flags) (an : Answers) : Outcome Result :=
  match args with
  | [file] => do
    let interactive := fl.i || fl.interactive
    let is_elf_file ← isElfFile file
    if !is_elf_file && interactive then .ok ⟨-1, [], false, procsKept⟩
    else if is_elf_file then
      match an.loadElf with
      | none => .ok ⟨-1, [.loadElf], false, procsKept⟩
      | some elf_entry_point =>
        -- the conditional has type `uint64_t`; the result is assigned to a `uint32_t`
        let entry_point : BitVec 32 :=
          (match fl.entryPoint with
            | some e => (e.zeroExtend 64 : BitVec 64)
            | none => elf_entry_point).truncate 32
        .ok (startV1 fl an [.loadElf] entry_point (elf_entry_point != entry_point.zeroExtend 64))
    else
      match fl.entryPoint with
      | none => .ok ⟨-1, [], false, procsKept⟩
      | some entry_point =>
        if !an.loadImage then .ok ⟨-1, [.loadImage fl.binMemoryOffset], false, procsKept⟩
        else .ok (startV1 fl an [.loadImage fl.binMemoryOffset] entry_point false)
  | _ => .ok ⟨-1, [], false, [⟨false, false, .none⟩]⟩

/-- `CoralNPUV2Simulator::LoadProgram`, `coralnpu_v2_simulator.cc` 124-143: whether it succeeds, its calls, the message. -/
def loadProgramV2 (entry : Option (BitVec 32)) (an : Answers) : Bool × List Call × Bool :=
  match an.loadElf with
  | none => (false, [.loadElf], false)
  | some elf_entry_point =>
    let final_entry_point : BitVec 32 :=
      (match entry with
        | some e => (e.zeroExtend 64 : BitVec 64)
        | none => elf_entry_point).truncate 32
    (an.writePc, [.loadElf, .writePc final_entry_point], elf_entry_point != final_entry_point.zeroExtend 64)

/-- `main`, `coralnpu_v2_sim.cc` 70-131. -/
def mainV2 (args : List (Option (List (BitVec 8)))) (fl : Flags) (an : Answers) : Result :=
  match args with
  | [_] =>
    let l := loadProgramV2 fl.entryPoint an
    if !l.1 then ⟨-1, l.2.1, l.2.2, procsKept⟩
    else if fl.i || fl.interactive then ⟨0, l.2.1 ++ [.shell], l.2.2, procsReset⟩
    else ⟨0, l.2.1 ++ [.run, .wait], l.2.2, procsReset⟩
  | _ => ⟨-1, [], false, [⟨false, false, .none⟩]⟩

/-- What a control-C does: the default action, `exit(-1)`, or `Halt` on the simulator. -/
inductive OnSigint where
  | killed | exits | halts
deriving DecidableEq, Repr

/-- `sim_sigint_handler`, `coralnpu_sim.cc` 56-63 and `coralnpu_v2_sim.cc` 58-68. -/
def sigint (p : Proc) : Outcome OnSigint :=
  if !p.handler then .ok .killed
  else if !p.ptr then .ok .exits
  else match p.obj with
    | .alive => .ok .halts
    | _ => .ub

end Verif.Model.Main
