import Verif.Conform.Renode
import Verif.Model.Decode
import Verif.Model.DebugMemMax
import Verif.Model.Edits
import Verif.Model.RegNames
import Verif.Model.RenodeMem

/-!
# The expectations of `/repo/sim/test/coralnpu_top_test.cc`

The instructions and `coralnpu_ebreak.elf` are those of `Verif.Conform.Renode`. Left out: the tests that run another program
(`RunIllegalRV32FProgram` excepted, which ends at its fourth instruction), and the two
control and status registers of `RegisterNames`, whose values are parameters of the model. The texts that `RunEbreakProgram` and
`StepProgram` expect on the standard output are left out as well: the model of the top has no output. `SetAndClearBreakpoint` and
`RunWithBreakpoint` use another program in the test.
-/

namespace Verif.Conform.Top
open Verif Verif.Model Verif.Model.Top

/-! ## The limit -/

open DebugMem in
def zeros : DebugMem.Mem := fun _ => 0

/-- The number of bytes, or `none` for an error. -/
def count (r : Outcome (Except DebugMem.Err (List (BitVec 8)))) : Option (Option Nat) :=
  match r with
  | .ok (.ok d) => some (some d.length)
  | .ok (.error _) => some none
  | _ => none

def written (r : Outcome (Except DebugMem.Err Nat × DebugMem.Mem)) : Option (Option Nat) :=
  match r with
  | .ok (.ok n, _) => some (some n)
  | .ok (.error _, _) => some none
  | _ => none

/-- `CheckDefaultMaxMemorySize`. -/
theorem conform_limit : DebugMem.maxAddr = 0x3fffff := rfl

/-- `ReadWriteOutOfBoundMemory`. -/
theorem conform_outOfBound :
    count (DebugMem.readMemoryMax 0xf true zeros 0 20) = some (some 16) ∧
    count (DebugMem.readMemoryMax 0xf true zeros 0xf 20) = some (some 1) ∧
    count (DebugMem.readMemoryMax 0xf true zeros 20 20) = some none ∧
    written (DebugMem.writeMemoryMax 0xf true zeros 0 (List.replicate 20 0)) = some (some 16) ∧
    written (DebugMem.writeMemoryMax 0xf true zeros 0xf (List.replicate 20 0)) = some (some 1) ∧
    written (DebugMem.writeMemoryMax 0xf true zeros 20 (List.replicate 20 0)) = some none := by decide +kernel

def loaded (r : Outcome (Except DebugMem.Err Unit × DebugMem.Mem)) : Option Bool :=
  match r with
  | .ok (.ok (), _) => some true
  | .ok (.error _, _) => some false
  | _ => none

/-- `LoadImageFailed`, with a file of the size of `hello_world_mpause.bin`. -/
theorem conform_loadImageFailed :
    loaded (DebugMem.loadImageMax 0x3fffff true zeros none 0) = some false ∧
    loaded (DebugMem.loadImageMax 0 true zeros (some (List.replicate 3328 1)) 0) = some false ∧
    loaded (DebugMem.loadImageMax 0xf true zeros (some (List.replicate 3328 1)) 0) = some false ∧
    loaded (DebugMem.loadImageMax 0x3fffff true zeros (some (List.replicate 3328 1)) 0) = some true := by decide +kernel

/-! ## Memory -/

def write (a : Nat) (d : List (BitVec 8)) (m : Option DebugMem.Mem) : Option DebugMem.Mem :=
  m.bind fun m => match DebugMem.writeMemory true m a d with
    | .ok (.ok _, m') => some m'
    | _ => none

def read (a n : Nat) (m : Option DebugMem.Mem) : Option Nat :=
  m.bind fun m => match DebugMem.readMemory true m a n with
    | .ok (.ok d) => some (RegNames.leNum d)
    | _ => none

def le (n v : Nat) : List (BitVec 8) := (List.range n).map fun i => BitVec.ofNat 8 (v >>> (8 * i))

def filled : Option DebugMem.Mem :=
  write 0x1010 (le 8 0x5ca1ab1e0ddba) (write 0x1008 (le 4 0xba5eba11) (write 0x1004 (le 2 0xabcd) (write 0x1000 [0xab] (some zeros))))

/-- `Memory`. The literal `0x5ca1ab1e'0ddball` of the test ends in the suffix `ll`. -/
theorem conform_memory :
    read 0x1000 1 filled = some 0xab ∧ read 0x1004 2 filled = some 0xabcd ∧ read 0x1008 4 filled = some 0xba5eba11 ∧
    read 0x1010 8 filled = some 0x5ca1ab1e0ddba ∧ read 0x1000 2 filled = some 0xab ∧ read 0x1000 4 filled = some 0xab ∧
    read 0x1000 8 filled = some 0x0000abcd000000ab := by decide +kernel

/-- `AccessMemory`: the external memory of 16 blocks of 256 KiB. For each address, the number of bytes transferred as the top computes it,
and the bytes read back from the blocks. -/
def access (a : Nat) : Option (List (BitVec 8)) :=
  let n := min 8 (0x400000 - a)
  match RenodeMem.construct 0x40000 0x400000 16 0 1 with
  | .ok c =>
    match RenodeMem.execAll c (fun _ => 0x40000) (fun _ => 0xee) (fun _ _ => 0) [.store a ((le 8 0x0807060504030201).take n), .load a n] with
    | .ok (_, [_, d]) => some d
    | _ => none
  | _ => none

theorem conform_accessMemory :
    access 0x1000 = some [1, 2, 3, 4, 5, 6, 7, 8] ∧ access (0x40000 - 4) = some [1, 2, 3, 4, 5, 6, 7, 8] ∧
    access (0x40000 + 4) = some [1, 2, 3, 4, 5, 6, 7, 8] ∧ access (0x3fffff - 4) = some [1, 2, 3, 4, 5] ∧
    written (DebugMem.writeMemory true zeros (0x3fffff - 4) (le 8 0x0807060504030201)) = some (some 5) := by decide +kernel

/-! ## Running a program -/

def env : Env Renode.Regs32 := ⟨Renode.rv32, fun _ _ => true⟩

def start : St Renode.Regs32 where
  m := ⟨BitVec.ofNat 32 Renode.entry, fun q => BitVec.ofNat 8 (Renode.image >>> (8 * q)), List.replicate 32 0⟩
  cache _ := none
  orig _ := none
  bps _ := false
  halted := false
  reason := .none
  stepOver := false
  status := .halted
  instret := 0

/-- `StepProgram`: the call succeeds and the reason is the fault. -/
theorem conform_stepProgram :
    (match step env 10000 start with
    | .ok (.ok _, s) => some s.reason
    | _ => none) = some .haltAbort := by decide +kernel

/-- `RunEbreakProgram`; the run thread is given 200 instructions and stops before. -/
theorem conform_runEbreak :
    (match runHalt env 200 start with
    | .ok (.ok (), s) => some (s.reason, s.status)
    | _ => none) = some (.haltAbort, .halted) := by decide +kernel

def code (r : Except Err Unit) : Option Err := match r with | .ok () => none | .error e => some e

/-- `SetAndClearBreakpoint`, at an address of this program. -/
theorem conform_breakpoints :
    let s1 := clearBp 0x40 start
    let s2 := setBp 0x40 s1.2
    let s3 := setBp 0x40 s2.2
    let s4 := clearBp 0x40 s3.2
    let s5 := clearBp 0x40 s4.2
    let s6 := setBp 0x40 s5.2
    let s7 := clearAll [0x40] s6.2
    let s8 := clearBp 0x40 s7.2
    [s1.1, s2.1, s3.1, s4.1, s5.1, s6.1, s7.1, s8.1].map code =
      [some .notFound, none, some .alreadyExists, none, some .notFound, none, none, some .notFound] := by decide +kernel

/-- The shape of `RunWithBreakpoint` on this program instead of the test's: it stops at the breakpoint, and running on it comes to its end. -/
theorem conform_runWithBreakpoint :
    (match runHalt env 200 (setBp 0x40 start).2 with
    | .ok (.ok (), s) => match runHalt env 200 s with
      | .ok (.ok (), s') => some (s.reason, s.m.pc, s'.reason)
      | _ => none
    | _ => none) = some (.softwareBreakpoint, 0x40, .haltAbort) := by decide +kernel

/-- The instructions of `Verif.Conform.Renode`, as far as the decoder's tables (`allRows`) have the word; any other word raises the
illegal-instruction trap, whose handler (`/repo/sim/coralnpu_top.cc` 208-218) asks for a halt. -/
def checked : Spec.Program.Sem Renode.Regs32 where
  inst w a m := if allRows.any (·.matches w) then Renode.rv32.inst w a m else (m, [.userRequest])

/-- The first four words of the only segment of `rv32uf_fadd.elf`: `addi`, `auipc`, `addi`, `flw`; loaded, and entered, at 0. -/
def fadd : List (BitVec 32) := [0x00200193, 0x00001517, 0x84c50513, 0x00052007]

def faddStart : St Renode.Regs32 :=
  { start with m := ⟨0, fun q => BitVec.ofNat 8 ((fadd.getD (q / 4) 0).toNat >>> (8 * (q % 4))), List.replicate 32 0⟩ }

/-- `RunIllegalRV32FProgram`: the tables have no floating-point load, and the run ends with the reason the test expects. That the `flw` at 12
is the instruction at fault is not in the test, which looks for the beginning of the message only. -/
theorem conform_runIllegal :
    fadd.map (fun w => allRows.any (·.matches w)) = [true, true, true, false] ∧
    (match runHalt ⟨checked, fun _ _ => true⟩ 10 faddStart with
    | .ok (.ok (), s) => some (s.reason, s.status, s.instret)
    | _ => none) = some (.userRequest, .halted, 4) := by decide +kernel

/-! ## Names of registers -/

def alias (i : Nat) : String := if i = 1 then "ra" else if i = 4 then "tp" else if i = 8 then "s0" else "alias" ++ toString i

def names : RegNames.St Unit :=
  RegNames.addNames alias ⟨.halted, .none, fun n => if n = "pc" then some 0 else none, 1, fun _ => [0, 0, 0, 0], ()⟩

def csrs : RegNames.Csrs Unit := ⟨fun _ => none, fun _ _ => 0, fun _ _ s => s⟩

/-- `RegisterNames`, without the control and status registers. -/
theorem conform_registerNames :
    (List.range 32).all (fun i => match RegNames.readRegister csrs (RegNames.xName i) names with
      | .ok v => match (RegNames.writeRegister csrs (RegNames.xName i) v names).1 with
        | .ok () => true
        | .error _ => false
      | .error _ => false) = true ∧
    (match RegNames.readRegister csrs "x32" names with | .error e => some e | .ok _ => none) = some .notFound ∧
    (match (RegNames.writeRegister csrs "x32" 0 names).1 with | .error e => some e | .ok _ => none) = some .notFound ∧
    [("x1", "ra"), ("x4", "tp"), ("x8", "s0")].all (fun p =>
      match RegNames.readRegister csrs p.2 (RegNames.writeRegister csrs p.1 0xba5eba11 names).2 with
      | .ok v => v == 0xba5eba11
      | .error _ => false) = true := by decide +kernel

end Verif.Conform.Top
