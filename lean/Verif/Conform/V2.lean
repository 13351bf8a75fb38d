import Verif.Conform.ListingCases
import Verif.Gen.V2Rows
import Verif.Model.V2
import Verif.Model.V2Getters

/-!
# Agreement with the V2 tests of the repository

The expectations of `/repo/sim/test/coralnpu_v2_user_decoder_test.cc` and `coralnpu_v2_instructions_test.cc`, evaluated in
the model, and the listing of the program that `coralnpu_v2_simulator_test.cc` runs. Left out: that the number of opcodes is
not zero, and `TestNullState`, which runs an instruction that has no state.
-/

namespace Verif.Conform.V2
open Verif Verif.Model Verif.Model.V2

/-! ## coralnpu_v2_user_decoder_test.cc -/

/-- The names of the rows that a word matches. -/
def names (w : BitVec 32) : List String := (V2Isa.rows.filter (·.matches w)).map (·.name)

/-- `DecodeInstruction`, `DecodeVectorInstruction`, `DecodeMpauseInstruction`. -/
theorem conform_decode : names 0x00008093 = ["addi"] ∧ names 0b11000010000000100111000001010111 = ["vsetivli"] ∧
    names 0b00001000000000000000000001110011 = ["mpause"] := by decide +kernel

/-- The opcode and the second source operand of a shift. -/
def shift (base : BitVec 32) (n : Nat) : List (String × Option V2Isa.Src) :=
  let w := base ||| (BitVec.ofNat 32 n <<< 20)
  (V2Isa.rows.filter (·.matches w)).map fun r =>
    (r.name, ((r.parts.head?.map (·.1)).getD [])[1]?.bind (V2Isa.getSource · w))

/-- `VerifySRLIInstructionSourceOps`, `VerifySLLIInstructionSourceOps`, `VerifySRAIInstructionSourceOps`: every shift
amount is the second source operand. -/
theorem conform_shifts : (List.range 32).all (fun n =>
    shift 0b00000000000011111101111110010011 n == [("srli", some (.imm (BitVec.ofNat 32 n)))] &&
    shift 0b00000000000011111001111110010011 n == [("slli", some (.imm (BitVec.ofNat 32 n)))] &&
    shift 0b01000000000011111101111110010011 n == [("srai", some (.imm (BitVec.ofNat 32 n)))]) = true := by
  decide +kernel

/-- `InstructionItcmRangeDefault`, `InstructionItcmRangeHighMemory`. -/
theorem conform_itcm : [(0x2000 : BitVec 64), 0x100000].all (fun length =>
    decodeInstruction 0 (length.truncate 32) 0 = .fromMemory 0 ∧
    decodeInstruction 0 (length.truncate 32) (length - 4) = .fromMemory (length - 4) ∧
    decodeInstruction 0 (length.truncate 32) length = .invalid length ∧ (invalidTrap length).code = 1) = true := by
  decide +kernel

/-- `AllSourceOpsHaveGetters`, `AllDestOpsHaveGetters`: every operand name of the `.isa` file has a getter. -/
theorem conform_getters : V2Isa.rows.all (fun r => r.parts.all fun p =>
    p.1.all (fun o => (V2Isa.getSource o 0).isSome) && p.2.all (fun o => (V2Isa.getDest o 0).isSome)) = true := by
  decide +kernel

/-! ## coralnpu_v2_instructions_test.cc -/

def ranges : List Range := [⟨0x10000, 0x8000⟩]

/-- Memory with the little-endian word at the address, zero elsewhere. -/
def wordAt (a : Nat) (w : BitVec 32) : Nat → BitVec 8 := storeN (fun _ => 0) a 4 w

/-- A load: whether it traps, and the destination register, which held zero. -/
def load (op : Op) (a : BitVec 32) (w : BitVec 32) : Bool × BitVec 32 :=
  let s := exec ranges op a 0 0 0 ⟨wordAt a.toNat w, 0, none⟩
  (s.trap.isSome, s.rd)

/-- A store: whether it traps, and the word then at the address, which was zero. -/
def store (op : Op) (a : BitVec 32) (v : BitVec 32) : Bool × Nat :=
  let s := exec ranges op a 0 v 0 ⟨fun _ => 0, 0, none⟩
  (s.trap.isSome, loadN s.mem a.toNat 4)

/-- `Test…GoodAccess` of the loads; `flw` is `CoralNPUV2Lw` with another child. -/
theorem conform_loadGood : load .lw 0x14000 0xf0f0a5a5 = (false, 0xf0f0a5a5) ∧ load .lh 0x14000 0xa5a5 = (false, 0xffffa5a5) ∧
    load .lhu 0x14000 0xa5a5 = (false, 0xa5a5) ∧ load .lb 0x14000 0xa5 = (false, 0xffffffa5) ∧
    load .lbu 0x14000 0xa5 = (false, 0xa5) := by decide +kernel

/-- `Test…BadAccess` of the loads. -/
theorem conform_loadBad : load .lw 0x100 0xf0f0a5a5 = (true, 0) ∧ load .lh 0x100 0xa5a5 = (true, 0) ∧
    load .lhu 0x100 0xa5a5 = (true, 0) ∧ load .lb 0x100 0xa5 = (true, 0) ∧ load .lbu 0x100 0xa5 = (true, 0) := by
  decide +kernel

/-- `Test…GoodAccess` of the stores. -/
theorem conform_storeGood : store .sw 0x14000 0xf0f0a5a5 = (false, 0xf0f0a5a5) ∧ store .sh 0x14000 0xa5a5 = (false, 0xa5a5) ∧
    store .sb 0x14000 0xa5 = (false, 0xa5) ∧ store .fsw 0x14000 0xf0f0a5a5 = (false, 0xf0f0a5a5) := by decide +kernel

/-- `Test…BadAccess` of the stores. -/
theorem conform_storeBad : store .sw 0x100 0xf0f0a5a5 = (true, 0) ∧ store .sh 0x100 0xa5a5 = (true, 0) ∧
    store .sb 0x100 0xa5 = (true, 0) ∧ store .fsw 0x100 0xf0f0a5a5 = (true, 0) := by decide +kernel

/-- The tests of the boundary conditions. -/
theorem conform_loadEdge : load .lw (0x10000 - 1) 0xf0f0a5a5 = (true, 0) ∧
    load .lw (0x10000 + 0x8000 - 3) 0xf0f0a5a5 = (true, 0) ∧
    load .lw (0x10000 + 0x8000 - 4) 0xf0f0a5a5 = (false, 0xf0f0a5a5) := by decide +kernel

/-- `TestMPause`: the handler runs and there is no trap. -/
theorem conform_mpause : mpauseV2 (some 0) [fun (_ : Bool) => (true, true)] false = (none, true) := by decide +kernel

/-! ## coralnpu_v2_rvv_add_intrinsic.disassm -/

/-- The row for a mnemonic of the listing: the listing uses the pseudo-instructions of the assembler. -/
def rowOf : String → String
  | "mv" | "li" => "addi"
  | "ret" => "jr"
  | "beqz" => "beq"
  | "bnez" => "bne"
  | "csrw" => "csrrw_nr"
  | ".insn" => "mpause"
  | "vsetvli" => "vsetvli_xn"
  | "vle8.v" => "vle8_vm1"
  | "vwadd.vv" => "vwadd_vv"
  | "vse16.v" => "vse16"
  | m => m

/-- Every word of the listing matches one row, that of its mnemonic. -/
theorem conform_listing : listing.all (fun p => names p.1 == [rowOf p.2]) = true := by decide +kernel

end Verif.Conform.V2
