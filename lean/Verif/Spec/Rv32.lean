import Verif.Model.Isa
import Verif.Spec.Conv

/-!
# The RV32IM encodings

From the RISC-V Unprivileged ISA manual, "RV32/64G Instruction Set Listings".
-/

namespace Verif.Spec
open Verif.Model

/-- One line of the listing: major opcode, and the values of `funct3` and `funct7` where they are fixed. -/
structure StdEnc where
  name : Tok
  opcode : Nat
  f3 : Option Nat
  f7 : Option Nat
deriving DecidableEq

/-- The word has the fixed fields of the line. -/
def StdEnc.Is (e : StdEnc) (w : BitVec 32) : Prop :=
  bitsAt w 0 7 = e.opcode ∧ (∀ f, e.f3 = some f → bitsAt w 12 3 = f) ∧ (∀ f, e.f7 = some f → bitsAt w 25 7 = f)

/-- RV32I and RV32M, without `ecall` and `ebreak`. -/
def rv32im : List StdEnc :=
  [⟨.lui, 0b0110111, none, none⟩, ⟨.auipc, 0b0010111, none, none⟩, ⟨.jal, 0b1101111, none, none⟩,
   ⟨.jalr, 0b1100111, some 0, none⟩,
   ⟨.beq, 0b1100011, some 0, none⟩, ⟨.bne, 0b1100011, some 1, none⟩, ⟨.blt, 0b1100011, some 4, none⟩,
   ⟨.bge, 0b1100011, some 5, none⟩, ⟨.bltu, 0b1100011, some 6, none⟩, ⟨.bgeu, 0b1100011, some 7, none⟩,
   ⟨.lb, 0b0000011, some 0, none⟩, ⟨.lh, 0b0000011, some 1, none⟩, ⟨.lw, 0b0000011, some 2, none⟩,
   ⟨.lbu, 0b0000011, some 4, none⟩, ⟨.lhu, 0b0000011, some 5, none⟩,
   ⟨.sb, 0b0100011, some 0, none⟩, ⟨.sh, 0b0100011, some 1, none⟩, ⟨.sw, 0b0100011, some 2, none⟩,
   ⟨.addi, 0b0010011, some 0, none⟩, ⟨.slti, 0b0010011, some 2, none⟩, ⟨.sltiu, 0b0010011, some 3, none⟩,
   ⟨.xori, 0b0010011, some 4, none⟩, ⟨.ori, 0b0010011, some 6, none⟩, ⟨.andi, 0b0010011, some 7, none⟩,
   ⟨.slli, 0b0010011, some 1, some 0⟩, ⟨.srli, 0b0010011, some 5, some 0⟩, ⟨.srai, 0b0010011, some 5, some 0b0100000⟩,
   ⟨.add, 0b0110011, some 0, some 0⟩, ⟨.sub, 0b0110011, some 0, some 0b0100000⟩, ⟨.sll, 0b0110011, some 1, some 0⟩,
   ⟨.slt, 0b0110011, some 2, some 0⟩, ⟨.sltu, 0b0110011, some 3, some 0⟩, ⟨.xor, 0b0110011, some 4, some 0⟩,
   ⟨.srl, 0b0110011, some 5, some 0⟩, ⟨.sra, 0b0110011, some 5, some 0b0100000⟩, ⟨.or, 0b0110011, some 6, some 0⟩,
   ⟨.and, 0b0110011, some 7, some 0⟩, ⟨.fence, 0b0001111, some 0, none⟩,
   ⟨.mul, 0b0110011, some 0, some 1⟩, ⟨.mulh, 0b0110011, some 1, some 1⟩, ⟨.mulhsu, 0b0110011, some 2, some 1⟩,
   ⟨.mulhu, 0b0110011, some 3, some 1⟩, ⟨.div, 0b0110011, some 4, some 1⟩, ⟨.divu, 0b0110011, some 5, some 1⟩,
   ⟨.rem, 0b0110011, some 6, some 1⟩, ⟨.remu, 0b0110011, some 7, some 1⟩]

/-- The assembler's names for special cases of an instruction. -/
def aliases : Tok → List (List Tok)
  | .addi => [[.addi], [.li], [.mv], [.nop]]
  | .jal => [[.jal], [.j]]
  | .jalr => [[.jalr], [.jr], [.ret]]
  | t => [[t]]

/-- `jalr x0, imm(x1)` with a non-zero `imm`. -/
def JalrHole (w : BitVec 32) : Prop :=
  bitsAt w 0 7 = 0b1100111 ∧ bitsAt w 12 3 = 0 ∧ bitsAt w 7 5 = 0 ∧ bitsAt w 15 5 = 1 ∧ bitsAt w 20 12 ≠ 0

/-- `addi x0, x0, imm` with a non-zero `imm`. -/
def AddiHole (w : BitVec 32) : Prop :=
  bitsAt w 0 7 = 0b0010011 ∧ bitsAt w 12 3 = 0 ∧ bitsAt w 7 5 = 0 ∧ bitsAt w 15 5 = 0 ∧ bitsAt w 20 12 ≠ 0

end Verif.Spec
