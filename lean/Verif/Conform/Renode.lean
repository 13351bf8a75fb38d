import Verif.Model.RenodeCore
import Verif.Conform.EbreakImage

/-!
# The expectations of `/repo/sim/renode/test/renode_mpact_test.cc`

The calls of the test and the replies it expects. The instructions are those of RV32I that `coralnpu_ebreak.elf` executes, with the meaning
of the manual; any other word does nothing. The ELF loader puts the segment of that file into memory. External numbers of registers: x0
is 0x1000 and the pc 0x7b1; there are no others, the test needs that 0xfff is none.

Left out: the tests that run `hello_world_mpause` (11373 instructions, too many to evaluate here).
-/

namespace Verif.Conform.Renode
open Verif Verif.Model.Agent Verif.Model.RenodeCore
open Verif.Spec.Program (Machine Sem word)

abbrev Regs32 := List (BitVec 32)

def getX (r : Regs32) (i : Nat) : BitVec 32 := r.getD i 0
def putX (r : Regs32) (i : Nat) (v : BitVec 32) : Regs32 := if i = 0 then r else r.set i v

def fld (w : BitVec 32) (lo n : Nat) : Nat := (w.extractLsb' lo n).toNat
def immI (w : BitVec 32) : BitVec 32 := (w.extractLsb' 20 12).signExtend 32
def immS (w : BitVec 32) : BitVec 32 := (w.extractLsb' 25 7 ++ w.extractLsb' 7 5).signExtend 32
def immB (w : BitVec 32) : BitVec 32 :=
  (w.extractLsb' 31 1 ++ w.extractLsb' 7 1 ++ w.extractLsb' 25 6 ++ w.extractLsb' 8 4 ++ 0#1).signExtend 32
def immJ (w : BitVec 32) : BitVec 32 :=
  (w.extractLsb' 31 1 ++ w.extractLsb' 12 8 ++ w.extractLsb' 20 1 ++ w.extractLsb' 21 10 ++ 0#1).signExtend 32

/-- `lui`, `auipc`, `jal`, `jalr`, the branches, `lw`, `sw`, `addi`, `andi` and `or`. -/
def rv32 : Sem Regs32 where
  inst w a m :=
    let pc := BitVec.ofNat 32 a
    let x := getX m.regs (fld w 15 5)
    let y := getX m.regs (fld w 20 5)
    let set (v : BitVec 32) : Machine Regs32 := { m with regs := putX m.regs (fld w 7 5) v }
    let br (b : Bool) : Machine Regs32 := if b then { m with pc := pc + immB w } else m
    (match fld w 0 7, fld w 12 3 with
    | 0x37, _ => set (w &&& 0xfffff000#32)
    | 0x17, _ => set (pc + (w &&& 0xfffff000#32))
    | 0x6f, _ => { set m.pc with pc := pc + immJ w }
    | 0x67, 0 => { set m.pc with pc := (x + immI w) &&& 0xfffffffe#32 }
    | 0x63, 0 => br (x == y)
    | 0x63, 1 => br (x != y)
    | 0x63, 4 => br (x.slt y)
    | 0x63, 5 => br (!x.slt y)
    | 0x63, 6 => br (x.ult y)
    | 0x63, 7 => br (!x.ult y)
    | 0x03, 2 => set (word m.mem (x + immI w).toNat)
    | 0x23, 2 => { m with mem := Model.Top.putWord m.mem (x + immS w).toNat y }
    | 0x13, 0 => set (x + immI w)
    | 0x13, 7 => set (x &&& immI w)
    | 0x33, 6 => if fld w 25 7 = 0 then set (x ||| y) else m
    | _, _ => m, [])

def name (s : String) : List (BitVec 8) := s.toList.map fun c => BitVec.ofNat 8 c.toNat

def nb : Numbering where
  num | .pc => 0x7b1#32
      | .x i => BitVec.ofNat 32 (0x1000 + i.val)
  name | .pc => name "pc"
       | .x _ => name "x"
  find id := if id = 0x7b1#32 then some (.inl .pc)
    else if h : 0x1000 ≤ id.toNat ∧ id.toNat < 0x1020 then some (.inl (.x ⟨id.toNat - 0x1000, by omega⟩)) else none
  find_num r := by
    cases r with
    | pc => rfl
    | x i => revert i; decide +kernel
  name_ne r := by
    cases r with
    | pc => decide +kernel
    | x i => show (0 : BitVec 8) ∉ name "x"; decide +kernel

def params : Params Regs32 where
  env := ⟨rv32, fun _ _ => true⟩
  nb := nb
  cap := 1
  start := ⟨0, fun _ => 0, List.replicate 32 0⟩
  getX r i := getX r i.val
  setX r i v := r.set i.val v
  otherGet _ _ := none
  otherSet _ _ s := (none, s)
  elf f s := if f = name "ebreak"
    then (some (BitVec.ofNat 64 entry), { s with m := { s.m with mem := fun q => BitVec.ofNat 8 (image >>> (8 * q)) } }) else (none, s)
  file f := if f = name "bin" then some [1, 2, 3, 4, 5] else none

/-- The replies after `construct(1)`, and that `construct` returned 0. -/
def replies (cs : List Call) : Option (List Reply) :=
  match calls (core params) (.construct 1 none :: cs) empty with
  | .ok (tr, _) => if (tr.map (·.2.ret)).head? = some 0 then some ((tr.map (·.2)).tail) else none
  | _ => none

def x0 : BitVec 32 := 0x1000#32
def val (v : BitVec 64) : Reply := { ret := 0, value := some v }
def code (n : BitVec 64) (st : BitVec 32) : Reply := { ret := n, status := some st }

theorem conform_reset : replies [.reset 0, .reset 10, .destruct 0] = some [zero, err, zero] := by decide +kernel

theorem conform_registerId :
    replies (((List.range 8).map fun i => .writeRegister 0 (x0 + BitVec.ofNat 32 i) (BitVec.ofNat 64 i)) ++
      ((List.range 8).map fun i => .readRegister 0 (x0 + BitVec.ofNat 32 i) false) ++
      [.readRegister 10 x0 false, .writeRegister 10 x0 7, .readRegister 0 (x0 - 1) false, .writeRegister 0 (x0 - 1) 7,
       .readRegister 0 x0 true]) =
    some (List.replicate 8 zero ++ ((List.range 8).map fun i => val (BitVec.ofNat 64 i)) ++ List.replicate 5 err) := by
  decide +kernel

theorem conform_loadExecutable :
    replies [.loadExecutable 100 (name "ebreak") false, .loadExecutable 0 (name "wrong_file_name") false,
      .loadExecutable 0 (name "ebreak") false, .readRegister 0 0x7b1#32 false] =
    some [code 0 kAborted, code 0 kAborted, code (BitVec.ofNat 64 entry) 0, val (BitVec.ofNat 64 entry)] := by decide +kernel

def bytes : List (BitVec 8) := [0x01, 0x02, 0x03, 0x04, 0xff, 0xfe, 0xfd, 0xfc]

theorem conform_readWriteMem :
    replies [.writeMemory 0 0x100 bytes, .readMemory 0 0x104 1, .readMemory 0 0x100 8, .readMemory 0 0x3ffffffff 1,
      .writeMemory 0 0x3ffffffff [1]] =
    some [{ ret := 8 }, { ret := 1, bytes := some [0xff] }, { ret := 8, bytes := some bytes }, zero, zero] := by decide +kernel

theorem conform_loadImage :
    replies [.loadImage 0 (name "binxyz") 0, .loadImage 0 (name "bin") 0, .readMemory 0 0 5] =
    some [err, zero, { ret := 5, bytes := some [1, 2, 3, 4, 5] }] := by decide +kernel

/-- The calls of `StepExecutableProgram` before the program ends, on the other program. -/
theorem conform_stepCalls :
    replies [.loadExecutable 0 (name "ebreak") false, .step 10 1 false, .step 0 0 false, .step 10 1 true, .step 10 0 true,
      .step 0 1 true, .step 0 3 false] =
    some [code 0 0, code 0 kAborted, code 0 kOk, zero, zero, { ret := 1 }, code 3 kOk] := by decide +kernel

/-- `StepEbreakExecutableProgram`. The test expects the status and that fewer than 500 steps were taken; it does not say that they are 72. -/
theorem conform_stepEbreak :
    replies [.loadExecutable 0 (name "ebreak") false, .step 0 500 false] = some [code 0 0, code 72 kAborted] := by decide +kernel

end Verif.Conform.Renode
