import Verif.Model.V2Isa

/-! Generated by tools/gen_v1_scalar.py from the instruction group `CoralNPUInst` of
/repo/sim/coralnpu_base.bin_fmt and the opcodes of coralnpu_base.isa and coralnpu_memory.isa. `keys` are the
bits fixed by each row, checked in `Verif.Proofs.V1Scalar`. -/

namespace Verif.Model.V1Scalar
open Verif.Model

def rows0 : List V2Isa.Row := [
  ⟨"lui", [⟨0, 7, 55⟩], [], [], [], "lui", ["%rd, 0x%(U_imm20:08x)"], [(["U_imm20"], ["rd"])], ["&mpact::sim::riscv::RV32::RiscVILui"]⟩,
  ⟨"auipc", [⟨0, 7, 23⟩], [], [], [], "auipc", ["%rd, 0x%(U_imm20:08x)"], [(["U_imm20"], ["rd"])], ["&mpact::sim::riscv::RV32::RiscVIAuipc"]⟩,
  ⟨"jal", [⟨0, 7, 111⟩], [⟨7, 5, 0⟩], [], [], "jal", ["%rd, %(@+J_imm20:08x)"], [(["J_imm20"], ["next_pc", "rd"])], ["&mpact::sim::riscv::RV32::RiscVIJal"]⟩,
  ⟨"j", [⟨7, 5, 0⟩, ⟨0, 7, 111⟩], [], [], [], "j", ["%(@+J_imm20:08x)"], [(["J_imm20"], ["next_pc", "rd"])], ["&mpact::sim::riscv::RV32::RiscVIJal"]⟩,
  ⟨"jalr", [⟨12, 3, 0⟩, ⟨0, 7, 103⟩], [⟨7, 5, 0⟩], [], [], "jalr", ["%rd, %rs1, %J_imm12"], [(["rs1", "J_imm12"], ["next_pc", "rd"])], ["&mpact::sim::riscv::RV32::RiscVIJalr"]⟩,
  ⟨"jr", [⟨7, 5, 0⟩, ⟨12, 3, 0⟩, ⟨0, 7, 103⟩], [⟨15, 5, 1⟩], [], [], "jr", ["%rs1, %J_imm12"], [(["rs1", "J_imm12"], ["next_pc", "rd"])], ["&mpact::sim::riscv::RV32::RiscVIJalr"]⟩,
  ⟨"ret", [⟨7, 5, 0⟩, ⟨15, 5, 1⟩, ⟨20, 12, 0⟩, ⟨12, 3, 0⟩, ⟨0, 7, 103⟩], [], [], [], "ret", [], [(["rs1", "J_imm12"], ["next_pc", "rd"])], ["&mpact::sim::riscv::RV32::RiscVIJalr"]⟩,
  ⟨"beq", [⟨12, 3, 0⟩, ⟨0, 7, 99⟩], [], [], [], "beq", ["%rs1, %rs2, %(@+B_imm12:08x)"], [(["rs1", "rs2", "B_imm12"], ["next_pc"])], ["&mpact::sim::riscv::RV32::RiscVIBeq"]⟩,
  ⟨"bne", [⟨12, 3, 1⟩, ⟨0, 7, 99⟩], [], [], [], "bne", ["%rs1, %rs2, %(@+B_imm12:08x)"], [(["rs1", "rs2", "B_imm12"], ["next_pc"])], ["&mpact::sim::riscv::RV32::RiscVIBne"]⟩,
  ⟨"blt", [⟨12, 3, 4⟩, ⟨0, 7, 99⟩], [], [], [], "blt", ["%rs1, %rs2, %(@+B_imm12:08x)"], [(["rs1", "rs2", "B_imm12"], ["next_pc"])], ["&mpact::sim::riscv::RV32::RiscVIBlt"]⟩,
  ⟨"bge", [⟨12, 3, 5⟩, ⟨0, 7, 99⟩], [], [], [], "bge", ["%rs1, %rs2, %(@+B_imm12:08x)"], [(["rs1", "rs2", "B_imm12"], ["next_pc"])], ["&mpact::sim::riscv::RV32::RiscVIBge"]⟩,
  ⟨"bltu", [⟨12, 3, 6⟩, ⟨0, 7, 99⟩], [], [], [], "bltu", ["%rs1, %rs2, %(@+B_imm12:08x)"], [(["rs1", "rs2", "B_imm12"], ["next_pc"])], ["&mpact::sim::riscv::RV32::RiscVIBltu"]⟩,
  ⟨"bgeu", [⟨12, 3, 7⟩, ⟨0, 7, 99⟩], [], [], [], "bgeu", ["%rs1, %rs2, %(@+B_imm12:08x)"], [(["rs1", "rs2", "B_imm12"], ["next_pc"])], ["&mpact::sim::riscv::RV32::RiscVIBgeu"]⟩,
  ⟨"lb", [⟨12, 3, 0⟩, ⟨0, 7, 3⟩], [], [], [], "lb", ["%rd, %I_imm12(%rs1)"], [(["rs1", "I_imm12"], []), ([], ["rd"])], ["&mpact::sim::riscv::RV32::RiscVILb", "&mpact::sim::riscv::RV32::RiscVILbChild"]⟩,
  ⟨"lh", [⟨12, 3, 1⟩, ⟨0, 7, 3⟩], [], [], [], "lh", ["%rd, %I_imm12(%rs1)"], [(["rs1", "I_imm12"], []), ([], ["rd"])], ["&mpact::sim::riscv::RV32::RiscVILh", "&mpact::sim::riscv::RV32::RiscVILhChild"]⟩,
  ⟨"li", [⟨15, 5, 0⟩, ⟨12, 3, 0⟩, ⟨0, 7, 19⟩], [⟨7, 5, 0⟩], [], [], "li", ["%rd, %I_imm12"], [(["rs1", "I_imm12"], ["rd"])], ["&mpact::sim::riscv::RV32::RiscVIAdd"]⟩,
  ⟨"lw", [⟨12, 3, 2⟩, ⟨0, 7, 3⟩], [], [], [], "lw", ["%rd, %I_imm12(%rs1)"], [(["rs1", "I_imm12"], []), ([], ["rd"])], ["&mpact::sim::riscv::RV32::RiscVILw", "&mpact::sim::riscv::RV32::RiscVILwChild"]⟩,
  ⟨"lbu", [⟨12, 3, 4⟩, ⟨0, 7, 3⟩], [], [], [], "lbu", ["%rd, %I_imm12(%rs1)"], [(["rs1", "I_imm12"], []), ([], ["rd"])], ["&mpact::sim::riscv::RV32::RiscVILbu", "&mpact::sim::riscv::RV32::RiscVILbuChild"]⟩,
  ⟨"lhu", [⟨12, 3, 5⟩, ⟨0, 7, 3⟩], [], [], [], "lhu", ["%rd, %I_imm12(%rs1)"], [(["rs1", "I_imm12"], []), ([], ["rd"])], ["&mpact::sim::riscv::RV32::RiscVILhu", "&mpact::sim::riscv::RV32::RiscVILhuChild"]⟩,
  ⟨"mv", [⟨20, 12, 0⟩, ⟨12, 3, 0⟩, ⟨0, 7, 19⟩], [⟨15, 5, 0⟩], [], [], "mv", ["%rd, %rs1"], [(["rs1", "I_imm12"], ["rd"])], ["&mpact::sim::riscv::RV32::RiscVIAdd"]⟩,
  ⟨"nop", [⟨7, 5, 0⟩, ⟨15, 5, 0⟩, ⟨20, 12, 0⟩, ⟨12, 3, 0⟩, ⟨0, 7, 19⟩], [], [], [], "nop", [], [([], [])], ["&mpact::sim::riscv::RiscVINop"]⟩,
  ⟨"sb", [⟨12, 3, 0⟩, ⟨0, 7, 35⟩], [], [], [], "sb", ["%rs2, %S_imm12(%rs1)"], [(["rs1", "S_imm12", "rs2"], [])], ["&coralnpu::sim::CoralNPUIStore<uint8_t>"]⟩,
  ⟨"sh", [⟨12, 3, 1⟩, ⟨0, 7, 35⟩], [], [], [], "sh", ["%rs2, %S_imm12(%rs1)"], [(["rs1", "S_imm12", "rs2"], [])], ["&coralnpu::sim::CoralNPUIStore<uint16_t>"]⟩,
  ⟨"sw", [⟨12, 3, 2⟩, ⟨0, 7, 35⟩], [], [], [], "sw", ["%rs2, %S_imm12(%rs1)"], [(["rs1", "S_imm12", "rs2"], [])], ["&coralnpu::sim::CoralNPUIStore<uint32_t>"]⟩,
  ⟨"addi", [⟨12, 3, 0⟩, ⟨0, 7, 19⟩], [⟨15, 5, 0⟩, ⟨20, 12, 0⟩], [], [], "addi", ["%rd, %rs1, %I_imm12"], [(["rs1", "I_imm12"], ["rd"])], ["&mpact::sim::riscv::RV32::RiscVIAdd"]⟩,
  ⟨"slti", [⟨12, 3, 2⟩, ⟨0, 7, 19⟩], [], [], [], "slti", ["%rd, %rs1, %I_imm12"], [(["rs1", "I_imm12"], ["rd"])], ["&mpact::sim::riscv::RV32::RiscVISlt"]⟩,
  ⟨"sltiu", [⟨12, 3, 3⟩, ⟨0, 7, 19⟩], [], [], [], "sltiu", ["%rd, %rs1, %I_imm12"], [(["rs1", "I_imm12"], ["rd"])], ["&mpact::sim::riscv::RV32::RiscVISltu"]⟩,
  ⟨"xori", [⟨12, 3, 4⟩, ⟨0, 7, 19⟩], [], [], [], "xori", ["%rd, %rs1, %I_imm12"], [(["rs1", "I_imm12"], ["rd"])], ["&mpact::sim::riscv::RV32::RiscVIXor"]⟩,
  ⟨"ori", [⟨12, 3, 6⟩, ⟨0, 7, 19⟩], [], [], [], "ori", ["%rd, %rs1, %I_imm12"], [(["rs1", "I_imm12"], ["rd"])], ["&mpact::sim::riscv::RV32::RiscVIOr"]⟩,
  ⟨"andi", [⟨12, 3, 7⟩, ⟨0, 7, 19⟩], [], [], [], "andi", ["%rd, %rs1, %I_imm12"], [(["rs1", "I_imm12"], ["rd"])], ["&mpact::sim::riscv::RV32::RiscVIAnd"]⟩,
  ⟨"slli", [⟨25, 7, 0⟩, ⟨12, 3, 1⟩, ⟨0, 7, 19⟩], [], [], [], "slli", ["%rd, %rs1, 0x%(I_uimm5:x)"], [(["rs1", "I_uimm5"], ["rd"])], ["&mpact::sim::riscv::RV32::RiscVISll"]⟩,
  ⟨"srli", [⟨25, 7, 0⟩, ⟨12, 3, 5⟩, ⟨0, 7, 19⟩], [], [], [], "srli", ["%rd  %rs1, 0x%(I_uimm5:x)"], [(["rs1", "I_uimm5"], ["rd"])], ["&mpact::sim::riscv::RV32::RiscVISrl"]⟩,
  ⟨"srai", [⟨25, 7, 32⟩, ⟨12, 3, 5⟩, ⟨0, 7, 19⟩], [], [], [], "srai", ["%rd, %rs1, 0x%(I_uimm5:x)"], [(["rs1", "I_uimm5"], ["rd"])], ["&mpact::sim::riscv::RV32::RiscVISra"]⟩,
  ⟨"add", [⟨25, 7, 0⟩, ⟨12, 3, 0⟩, ⟨0, 7, 51⟩], [], [], [], "add", ["%rd, %rs1, %rs2"], [(["rs1", "rs2"], ["rd"])], ["&mpact::sim::riscv::RV32::RiscVIAdd"]⟩,
  ⟨"sub", [⟨25, 7, 32⟩, ⟨12, 3, 0⟩, ⟨0, 7, 51⟩], [], [], [], "sub", ["%rd, %rs1, %rs2"], [(["rs1", "rs2"], ["rd"])], ["&mpact::sim::riscv::RV32::RiscVISub"]⟩,
  ⟨"sll", [⟨25, 7, 0⟩, ⟨12, 3, 1⟩, ⟨0, 7, 51⟩], [], [], [], "sll", ["%rd, %rs1, %rs2"], [(["rs1", "rs2"], ["rd"])], ["&mpact::sim::riscv::RV32::RiscVISll"]⟩,
  ⟨"slt", [⟨25, 7, 0⟩, ⟨12, 3, 2⟩, ⟨0, 7, 51⟩], [], [], [], "slt", ["%rd, %rs1, %rs2"], [(["rs1", "rs2"], ["rd"])], ["&mpact::sim::riscv::RV32::RiscVISlt"]⟩,
  ⟨"sltu", [⟨25, 7, 0⟩, ⟨12, 3, 3⟩, ⟨0, 7, 51⟩], [], [], [], "sltu", ["%rd, %rs1, %rs2"], [(["rs1", "rs2"], ["rd"])], ["&mpact::sim::riscv::RV32::RiscVISltu"]⟩,
  ⟨"xor", [⟨25, 7, 0⟩, ⟨12, 3, 4⟩, ⟨0, 7, 51⟩], [], [], [], "xor", ["%rd, %rs1, %rs2"], [(["rs1", "rs2"], ["rd"])], ["&mpact::sim::riscv::RV32::RiscVIXor"]⟩,
  ⟨"srl", [⟨25, 7, 0⟩, ⟨12, 3, 5⟩, ⟨0, 7, 51⟩], [], [], [], "srl", ["%rd, %rs1, %rs2"], [(["rs1", "rs2"], ["rd"])], ["&mpact::sim::riscv::RV32::RiscVISrl"]⟩]

def rows1 : List V2Isa.Row := [
  ⟨"sra", [⟨25, 7, 32⟩, ⟨12, 3, 5⟩, ⟨0, 7, 51⟩], [], [], [], "sra", ["%rd, %rs1, %rs2"], [(["rs1", "rs2"], ["rd"])], ["&mpact::sim::riscv::RV32::RiscVISra"]⟩,
  ⟨"or", [⟨25, 7, 0⟩, ⟨12, 3, 6⟩, ⟨0, 7, 51⟩], [], [], [], "or", ["%rd, %rs1, %rs2"], [(["rs1", "rs2"], ["rd"])], ["&mpact::sim::riscv::RV32::RiscVIOr"]⟩,
  ⟨"and", [⟨25, 7, 0⟩, ⟨12, 3, 7⟩, ⟨0, 7, 51⟩], [], [], [], "and", ["%rd, %rs1, %rs2"], [(["rs1", "rs2"], ["rd"])], ["&mpact::sim::riscv::RV32::RiscVIAnd"]⟩,
  ⟨"fence", [⟨12, 3, 0⟩, ⟨0, 7, 15⟩], [], [], [], "fence", [], [(["I_imm12"], [])], ["&mpact::sim::riscv::RiscVIFence"]⟩,
  ⟨"ecall", [⟨7, 25, 0⟩, ⟨0, 7, 115⟩], [], [], [], "ecall", [], [([], [])], ["&mpact::sim::riscv::RiscVIEcall"]⟩,
  ⟨"ebreak", [⟨7, 25, 8192⟩, ⟨0, 7, 115⟩], [], [], [], "ebreak", [], [([], [])], ["&mpact::sim::riscv::RiscVIEbreak"]⟩,
  ⟨"fencei", [⟨12, 3, 1⟩, ⟨0, 7, 15⟩], [], [], [], "fence.i", [], [(["I_imm12"], [])], ["&mpact::sim::riscv::RiscVZFencei"]⟩,
  ⟨"mul", [⟨25, 7, 1⟩, ⟨12, 3, 0⟩, ⟨0, 7, 51⟩], [], [], [], "mul", ["%rd, %rs1, %rs2"], [(["rs1", "rs2"], ["rd"])], ["&mpact::sim::riscv::RV32::MMul"]⟩,
  ⟨"mulh", [⟨25, 7, 1⟩, ⟨12, 3, 1⟩, ⟨0, 7, 51⟩], [], [], [], "mulh", ["%rd, %rs1, %rs2"], [(["rs1", "rs2"], ["rd"])], ["&mpact::sim::riscv::RV32::MMulh"]⟩,
  ⟨"mulhsu", [⟨25, 7, 1⟩, ⟨12, 3, 2⟩, ⟨0, 7, 51⟩], [], [], [], "mulhsu", ["%rd, %rs1, %rs2"], [(["rs1", "rs2"], ["rd"])], ["&mpact::sim::riscv::RV32::MMulhsu"]⟩,
  ⟨"mulhu", [⟨25, 7, 1⟩, ⟨12, 3, 3⟩, ⟨0, 7, 51⟩], [], [], [], "mulhu", ["%rd, %rs1, %rs2"], [(["rs1", "rs2"], ["rd"])], ["&mpact::sim::riscv::RV32::MMulhu"]⟩,
  ⟨"div", [⟨25, 7, 1⟩, ⟨12, 3, 4⟩, ⟨0, 7, 51⟩], [], [], [], "div", ["%rd, %rs1, %rs2"], [(["rs1", "rs2"], ["rd"])], ["&mpact::sim::riscv::RV32::MDiv"]⟩,
  ⟨"divu", [⟨25, 7, 1⟩, ⟨12, 3, 5⟩, ⟨0, 7, 51⟩], [], [], [], "divu", ["%rd, %rs1, %rs2"], [(["rs1", "rs2"], ["rd"])], ["&mpact::sim::riscv::RV32::MDivu"]⟩,
  ⟨"rem", [⟨25, 7, 1⟩, ⟨12, 3, 6⟩, ⟨0, 7, 51⟩], [], [], [], "rem", ["%rd, %rs1, %rs2"], [(["rs1", "rs2"], ["rd"])], ["&mpact::sim::riscv::RV32::MRem"]⟩,
  ⟨"remu", [⟨25, 7, 1⟩, ⟨12, 3, 7⟩, ⟨0, 7, 51⟩], [], [], [], "remu", ["%rd, %rs1, %rs2"], [(["rs1", "rs2"], ["rd"])], ["&mpact::sim::riscv::RV32::MRemu"]⟩,
  ⟨"csrrw", [⟨12, 3, 1⟩, ⟨0, 7, 115⟩], [⟨7, 5, 0⟩], [], [], "csrw", ["%rd, %csr, %rs1"], [(["rs1", "csr"], ["rd", "csr"])], ["&mpact::sim::riscv::RV32::RiscVZiCsrrw"]⟩,
  ⟨"csrrs", [⟨12, 3, 2⟩, ⟨0, 7, 115⟩], [⟨15, 5, 0⟩, ⟨7, 5, 0⟩], [], [], "csrs", ["%rd, %csr, %rs1"], [(["rs1", "csr"], ["rd", "csr"])], ["&mpact::sim::riscv::RV32::RiscVZiCsrrs"]⟩,
  ⟨"csrrc", [⟨12, 3, 3⟩, ⟨0, 7, 115⟩], [⟨15, 5, 0⟩, ⟨7, 5, 0⟩], [], [], "csrc", ["%rd, %csr, %rs1"], [(["rs1", "csr"], ["rd", "csr"])], ["&mpact::sim::riscv::RV32::RiscVZiCsrrc"]⟩,
  ⟨"csrrs_nr", [⟨12, 3, 2⟩, ⟨7, 5, 0⟩, ⟨0, 7, 115⟩], [⟨15, 5, 0⟩], [], [], "csrs", ["%csr, %rs1"], [(["rs1", "csr"], ["rd", "csr"])], ["&mpact::sim::riscv::RV32::RiscVZiCsrrs"]⟩,
  ⟨"csrrc_nr", [⟨12, 3, 3⟩, ⟨7, 5, 0⟩, ⟨0, 7, 115⟩], [⟨15, 5, 0⟩], [], [], "csrc", ["%csr, %rs1"], [(["rs1", "csr"], ["rd", "csr"])], ["&mpact::sim::riscv::RV32::RiscVZiCsrrc"]⟩,
  ⟨"csrrw_nr", [⟨12, 3, 1⟩, ⟨7, 5, 0⟩, ⟨0, 7, 115⟩], [], [], [], "csrw", ["%csr, %rs1"], [(["rs1", "csr"], ["csr"])], ["&mpact::sim::riscv::RV32::RiscVZiCsrrwNr"]⟩,
  ⟨"csrrs_nw", [⟨12, 3, 2⟩, ⟨15, 5, 0⟩, ⟨0, 7, 115⟩], [], [], [], "csrs", ["%rd, %csr"], [(["csr"], ["rd"])], ["&mpact::sim::riscv::RV32::RiscVZiCsrrNw"]⟩,
  ⟨"csrrc_nw", [⟨12, 3, 3⟩, ⟨15, 5, 0⟩, ⟨0, 7, 115⟩], [], [], [], "csrc", ["%rd, %csr"], [(["csr"], ["rd"])], ["&mpact::sim::riscv::RV32::RiscVZiCsrrNw"]⟩,
  ⟨"csrrwi", [⟨12, 3, 5⟩, ⟨0, 7, 115⟩], [⟨7, 5, 0⟩], [], [], "csrwi", ["%rd, %csr, %CSR_uimm5"], [(["CSR_uimm5", "csr"], ["rd", "csr"])], ["&mpact::sim::riscv::RV32::RiscVZiCsrrw"]⟩,
  ⟨"csrrsi", [⟨12, 3, 6⟩, ⟨0, 7, 115⟩], [⟨15, 5, 0⟩, ⟨7, 5, 0⟩], [], [], "csrsi", ["%rd, %csr, %CSR_uimm5"], [(["CSR_uimm5", "csr"], ["rd", "csr"])], ["&mpact::sim::riscv::RV32::RiscVZiCsrrs"]⟩,
  ⟨"csrrci", [⟨12, 3, 7⟩, ⟨0, 7, 115⟩], [⟨15, 5, 0⟩, ⟨7, 5, 0⟩], [], [], "csrci", ["%rd, %csr, %CSR_uimm5"], [(["CSR_uimm5", "csr"], ["rd", "csr"])], ["&mpact::sim::riscv::RV32::RiscVZiCsrrc"]⟩,
  ⟨"csrrsi_nr", [⟨12, 3, 6⟩, ⟨7, 5, 0⟩, ⟨0, 7, 115⟩], [⟨15, 5, 0⟩], [], [], "csrsi", ["%csr, %CSR_uimm5"], [(["CSR_uimm5", "csr"], ["rd", "csr"])], ["&mpact::sim::riscv::RV32::RiscVZiCsrrs"]⟩,
  ⟨"csrrci_nr", [⟨12, 3, 7⟩, ⟨7, 5, 0⟩, ⟨0, 7, 115⟩], [⟨15, 5, 0⟩], [], [], "csrci", ["%csr, %CSR_uimm5"], [(["CSR_uimm5", "csr"], ["rd", "csr"])], ["&mpact::sim::riscv::RV32::RiscVZiCsrrc"]⟩,
  ⟨"csrrwi_nr", [⟨12, 3, 5⟩, ⟨7, 5, 0⟩, ⟨0, 7, 115⟩], [], [], [], "csrrwi", ["%csr, %CSR_uimm5"], [(["CSR_uimm5", "csr"], ["csr"])], ["&mpact::sim::riscv::RV32::RiscVZiCsrrwNr"]⟩,
  ⟨"csrrsi_nw", [⟨12, 3, 6⟩, ⟨15, 5, 0⟩, ⟨0, 7, 115⟩], [], [], [], "csrsi", ["%rd, %csr, 0"], [(["csr"], ["rd"])], ["&mpact::sim::riscv::RV32::RiscVZiCsrrNw"]⟩,
  ⟨"csrrci_nw", [⟨12, 3, 7⟩, ⟨15, 5, 0⟩, ⟨0, 7, 115⟩], [], [], [], "csrwi", ["%rd, %csr, 0"], [(["csr"], ["rd"])], ["&mpact::sim::riscv::RV32::RiscVZiCsrrNw"]⟩,
  ⟨"uret", [⟨7, 25, 16384⟩, ⟨0, 7, 115⟩], [], [], [], "uret", [], [([], ["next_pc"])], ["&mpact::sim::riscv::RV32::RiscVPrivURet"]⟩,
  ⟨"sret", [⟨7, 25, 2113536⟩, ⟨0, 7, 115⟩], [], [], [], "sret", [], [([], ["next_pc"])], ["&mpact::sim::riscv::RV32::RiscVPrivSRet"]⟩,
  ⟨"mret", [⟨7, 25, 6307840⟩, ⟨0, 7, 115⟩], [], [], [], "mret", [], [([], ["next_pc"])], ["&mpact::sim::riscv::RV32::RiscVPrivMRet"]⟩,
  ⟨"wfi", [⟨7, 25, 2138112⟩, ⟨0, 7, 115⟩], [], [], [], "wfi", [], [([], [])], ["&mpact::sim::riscv::RiscVPrivWfi"]⟩,
  ⟨"mpause", [⟨7, 25, 1048576⟩, ⟨0, 7, 115⟩], [], [], [], "mpause", [], [([], [])], ["&coralnpu::sim::CoralNPUIMpause"]⟩,
  ⟨"sfence_vma_zz", [⟨25, 7, 9⟩, ⟨20, 5, 0⟩, ⟨15, 5, 0⟩, ⟨12, 3, 0⟩, ⟨7, 5, 0⟩, ⟨0, 7, 115⟩], [], [], [], "sfence.vma", ["%rs1, %rs2"], [(["rs1", "rs2"], [])], ["&mpact::sim::riscv::RiscVPrivSFenceVmaZZ"]⟩,
  ⟨"sfence_vma_zn", [⟨25, 7, 9⟩, ⟨15, 5, 0⟩, ⟨12, 3, 0⟩, ⟨7, 5, 0⟩, ⟨0, 7, 115⟩], [⟨20, 5, 0⟩], [], [], "sfence.vma", ["%rs1, %rs2"], [(["rs1", "rs2"], [])], ["&mpact::sim::riscv::RiscVPrivSFenceVmaZN"]⟩,
  ⟨"sfence_vma_nz", [⟨25, 7, 9⟩, ⟨20, 5, 0⟩, ⟨12, 3, 0⟩, ⟨7, 5, 0⟩, ⟨0, 7, 115⟩], [⟨15, 5, 0⟩], [], [], "sfence.vma", ["%rs1, %rs2"], [(["rs1", "rs2"], [])], ["&mpact::sim::riscv::RiscVPrivSFenceVmaNZ"]⟩,
  ⟨"sfence_vma_nn", [⟨25, 7, 9⟩, ⟨12, 3, 0⟩, ⟨7, 5, 0⟩, ⟨0, 7, 115⟩], [⟨20, 5, 0⟩, ⟨15, 5, 0⟩], [], [], "sfence.vma", ["%rs1, %rs2"], [(["rs1", "rs2"], [])], ["&mpact::sim::riscv::RiscVPrivSFenceVmaNN"]⟩]

def rows2 : List V2Isa.Row := [
  ⟨"flushall", [⟨7, 25, 4980736⟩, ⟨0, 7, 119⟩], [], [], [], "flushall", [], [([], [])], ["&coralnpu::sim::CoralNPUNopInstruction"]⟩,
  ⟨"flushat", [⟨25, 7, 19⟩, ⟨20, 5, 0⟩, ⟨12, 3, 0⟩, ⟨7, 5, 0⟩, ⟨0, 7, 119⟩], [⟨15, 5, 0⟩], [], [], "flushat", ["%rs1"], [(["rs1"], [])], ["&coralnpu::sim::CoralNPUNopInstruction"]⟩,
  ⟨"getmaxvl_b", [⟨28, 4, 1⟩, ⟨27, 1, 0⟩, ⟨25, 2, 0⟩, ⟨20, 5, 0⟩, ⟨15, 5, 0⟩, ⟨12, 3, 0⟩, ⟨0, 7, 119⟩], [⟨7, 5, 0⟩], [], [], "getmaxvl.b", ["%rd"], [([], ["rd"])], ["absl::bind_front(&coralnpu::sim::CoralNPUGetVl<int8_t>,false,false,false)"]⟩,
  ⟨"getmaxvl_h", [⟨28, 4, 1⟩, ⟨27, 1, 0⟩, ⟨25, 2, 1⟩, ⟨20, 5, 0⟩, ⟨15, 5, 0⟩, ⟨12, 3, 0⟩, ⟨0, 7, 119⟩], [⟨7, 5, 0⟩], [], [], "getmaxvl.h", ["%rd"], [([], ["rd"])], ["absl::bind_front(&coralnpu::sim::CoralNPUGetVl<int16_t>,false,false,false)"]⟩,
  ⟨"getmaxvl_w", [⟨28, 4, 1⟩, ⟨27, 1, 0⟩, ⟨25, 2, 2⟩, ⟨20, 5, 0⟩, ⟨15, 5, 0⟩, ⟨12, 3, 0⟩, ⟨0, 7, 119⟩], [⟨7, 5, 0⟩], [], [], "getmaxvl.w", ["%rd"], [([], ["rd"])], ["absl::bind_front(&coralnpu::sim::CoralNPUGetVl<int32_t>,false,false,false)"]⟩,
  ⟨"getvl_b_x", [⟨28, 4, 1⟩, ⟨27, 1, 0⟩, ⟨25, 2, 0⟩, ⟨20, 5, 0⟩, ⟨12, 3, 0⟩, ⟨0, 7, 119⟩], [⟨15, 5, 0⟩, ⟨7, 5, 0⟩], [], [], "getvl.b.x", ["%rd, %rs1"], [(["rs1"], ["rd"])], ["absl::bind_front(&coralnpu::sim::CoralNPUGetVl<int8_t>,false,true,false)"]⟩,
  ⟨"getvl_h_x", [⟨28, 4, 1⟩, ⟨27, 1, 0⟩, ⟨25, 2, 1⟩, ⟨20, 5, 0⟩, ⟨12, 3, 0⟩, ⟨0, 7, 119⟩], [⟨15, 5, 0⟩, ⟨7, 5, 0⟩], [], [], "getvl.h.x", ["%rd, %rs1"], [(["rs1"], ["rd"])], ["absl::bind_front(&coralnpu::sim::CoralNPUGetVl<int16_t>,false,true,false)"]⟩,
  ⟨"getvl_w_x", [⟨28, 4, 1⟩, ⟨27, 1, 0⟩, ⟨25, 2, 2⟩, ⟨20, 5, 0⟩, ⟨12, 3, 0⟩, ⟨0, 7, 119⟩], [⟨15, 5, 0⟩, ⟨7, 5, 0⟩], [], [], "getvl.w.x", ["%rd, %rs1"], [(["rs1"], ["rd"])], ["absl::bind_front(&coralnpu::sim::CoralNPUGetVl<int32_t>,false,true,false)"]⟩,
  ⟨"getvl_b_xx", [⟨28, 4, 1⟩, ⟨27, 1, 0⟩, ⟨25, 2, 0⟩, ⟨12, 3, 0⟩, ⟨0, 7, 119⟩], [⟨20, 5, 0⟩, ⟨15, 5, 0⟩, ⟨7, 5, 0⟩], [], [], "getvl.b.xx", ["%rd, %rs1, %rs2"], [(["rs1", "rs2"], ["rd"])], ["absl::bind_front(&coralnpu::sim::CoralNPUGetVl<int8_t>,false,true,true)"]⟩,
  ⟨"getvl_h_xx", [⟨28, 4, 1⟩, ⟨27, 1, 0⟩, ⟨25, 2, 1⟩, ⟨12, 3, 0⟩, ⟨0, 7, 119⟩], [⟨20, 5, 0⟩, ⟨15, 5, 0⟩, ⟨7, 5, 0⟩], [], [], "getvl.h.xx", ["%rd, %rs1, %rs2"], [(["rs1", "rs2"], ["rd"])], ["absl::bind_front(&coralnpu::sim::CoralNPUGetVl<int16_t>,false,true,true)"]⟩,
  ⟨"getvl_w_xx", [⟨28, 4, 1⟩, ⟨27, 1, 0⟩, ⟨25, 2, 2⟩, ⟨12, 3, 0⟩, ⟨0, 7, 119⟩], [⟨20, 5, 0⟩, ⟨15, 5, 0⟩, ⟨7, 5, 0⟩], [], [], "getvl.w.xx", ["%rd, %rs1, %rs2"], [(["rs1", "rs2"], ["rd"])], ["absl::bind_front(&coralnpu::sim::CoralNPUGetVl<int32_t>,false,true,true)"]⟩,
  ⟨"getmaxvl_b_m", [⟨28, 4, 1⟩, ⟨27, 1, 1⟩, ⟨25, 2, 0⟩, ⟨20, 5, 0⟩, ⟨15, 5, 0⟩, ⟨12, 3, 0⟩, ⟨0, 7, 119⟩], [⟨7, 5, 0⟩], [], [], "getmaxvl.b.m", ["%rd"], [([], ["rd"])], ["absl::bind_front(&coralnpu::sim::CoralNPUGetVl<int8_t>,true,false,false)"]⟩,
  ⟨"getmaxvl_h_m", [⟨28, 4, 1⟩, ⟨27, 1, 1⟩, ⟨25, 2, 1⟩, ⟨20, 5, 0⟩, ⟨15, 5, 0⟩, ⟨12, 3, 0⟩, ⟨0, 7, 119⟩], [⟨7, 5, 0⟩], [], [], "getmaxvl.h.m", ["%rd"], [([], ["rd"])], ["absl::bind_front(&coralnpu::sim::CoralNPUGetVl<int16_t>,true,false,false)"]⟩,
  ⟨"getmaxvl_w_m", [⟨28, 4, 1⟩, ⟨27, 1, 1⟩, ⟨25, 2, 2⟩, ⟨20, 5, 0⟩, ⟨15, 5, 0⟩, ⟨12, 3, 0⟩, ⟨0, 7, 119⟩], [⟨7, 5, 0⟩], [], [], "getmaxvl.w.m", ["%rd"], [([], ["rd"])], ["absl::bind_front(&coralnpu::sim::CoralNPUGetVl<int32_t>,true,false,false)"]⟩,
  ⟨"getvl_b_x_m", [⟨28, 4, 1⟩, ⟨27, 1, 1⟩, ⟨25, 2, 0⟩, ⟨20, 5, 0⟩, ⟨12, 3, 0⟩, ⟨0, 7, 119⟩], [⟨15, 5, 0⟩, ⟨7, 5, 0⟩], [], [], "getvl.b.x.m", ["%rd, %rs1"], [(["rs1"], ["rd"])], ["absl::bind_front(&coralnpu::sim::CoralNPUGetVl<int8_t>,true,true,false)"]⟩,
  ⟨"getvl_h_x_m", [⟨28, 4, 1⟩, ⟨27, 1, 1⟩, ⟨25, 2, 1⟩, ⟨20, 5, 0⟩, ⟨12, 3, 0⟩, ⟨0, 7, 119⟩], [⟨15, 5, 0⟩, ⟨7, 5, 0⟩], [], [], "getvl.h.x.m", ["%rd, %rs1"], [(["rs1"], ["rd"])], ["absl::bind_front(&coralnpu::sim::CoralNPUGetVl<int16_t>,true,true,false)"]⟩,
  ⟨"getvl_w_x_m", [⟨28, 4, 1⟩, ⟨27, 1, 1⟩, ⟨25, 2, 2⟩, ⟨20, 5, 0⟩, ⟨12, 3, 0⟩, ⟨0, 7, 119⟩], [⟨15, 5, 0⟩, ⟨7, 5, 0⟩], [], [], "getvl.w.x.m", ["%rd, %rs1"], [(["rs1"], ["rd"])], ["absl::bind_front(&coralnpu::sim::CoralNPUGetVl<int32_t>,true,true,false)"]⟩,
  ⟨"getvl_b_xx_m", [⟨28, 4, 1⟩, ⟨27, 1, 1⟩, ⟨25, 2, 0⟩, ⟨12, 3, 0⟩, ⟨0, 7, 119⟩], [⟨20, 5, 0⟩, ⟨15, 5, 0⟩, ⟨7, 5, 0⟩], [], [], "getvl.b.xx.m", ["%rd, %rs1, %rs2"], [(["rs1", "rs2"], ["rd"])], ["absl::bind_front(&coralnpu::sim::CoralNPUGetVl<int8_t>,true,true,true)"]⟩,
  ⟨"getvl_h_xx_m", [⟨28, 4, 1⟩, ⟨27, 1, 1⟩, ⟨25, 2, 1⟩, ⟨12, 3, 0⟩, ⟨0, 7, 119⟩], [⟨20, 5, 0⟩, ⟨15, 5, 0⟩, ⟨7, 5, 0⟩], [], [], "getvl.h.xx.m", ["%rd, %rs1, %rs2"], [(["rs1", "rs2"], ["rd"])], ["absl::bind_front(&coralnpu::sim::CoralNPUGetVl<int16_t>,true,true,true)"]⟩,
  ⟨"getvl_w_xx_m", [⟨28, 4, 1⟩, ⟨27, 1, 1⟩, ⟨25, 2, 2⟩, ⟨12, 3, 0⟩, ⟨0, 7, 119⟩], [⟨20, 5, 0⟩, ⟨15, 5, 0⟩, ⟨7, 5, 0⟩], [], [], "getvl.w.xx.m", ["%rd, %rs1, %rs2"], [(["rs1", "rs2"], ["rd"])], ["absl::bind_front(&coralnpu::sim::CoralNPUGetVl<int32_t>,true,true,true)"]⟩,
  ⟨"flog", [⟨28, 4, 7⟩, ⟨27, 1, 1⟩, ⟨25, 2, 0⟩, ⟨20, 5, 0⟩, ⟨12, 3, 0⟩, ⟨7, 5, 0⟩, ⟨0, 7, 119⟩], [⟨15, 5, 0⟩], [], [], "flog", ["%rs1"], [(["rs1"], [])], ["absl::bind_front(&coralnpu::sim::CoralNPULogInstruction,0)"]⟩,
  ⟨"slog", [⟨28, 4, 7⟩, ⟨27, 1, 1⟩, ⟨25, 2, 0⟩, ⟨20, 5, 0⟩, ⟨12, 3, 1⟩, ⟨7, 5, 0⟩, ⟨0, 7, 119⟩], [⟨15, 5, 0⟩], [], [], "slog", ["%rs1"], [(["rs1"], [])], ["absl::bind_front(&coralnpu::sim::CoralNPULogInstruction,1)"]⟩,
  ⟨"clog", [⟨28, 4, 7⟩, ⟨27, 1, 1⟩, ⟨25, 2, 0⟩, ⟨20, 5, 0⟩, ⟨12, 3, 2⟩, ⟨7, 5, 0⟩, ⟨0, 7, 119⟩], [⟨15, 5, 0⟩], [], [], "clog", ["%rs1"], [(["rs1"], [])], ["absl::bind_front(&coralnpu::sim::CoralNPULogInstruction,2)"]⟩,
  ⟨"klog", [⟨28, 4, 7⟩, ⟨27, 1, 1⟩, ⟨25, 2, 0⟩, ⟨20, 5, 0⟩, ⟨12, 3, 3⟩, ⟨7, 5, 0⟩, ⟨0, 7, 119⟩], [⟨15, 5, 0⟩], [], [], "klog", ["%rs1"], [(["rs1"], [])], ["absl::bind_front(&coralnpu::sim::CoralNPULogInstruction,3)"]⟩]

/-- The rows of the group. -/
def rows : List V2Isa.Row := rows0 ++ rows1 ++ rows2

def keys : List Nat := [
  309237645367, 446676598807, 68719476847, 17111149707375, 123248381526119,
  140290811756647, 18446602889544630375, 123265561395299, 105673375354979, 52896817234019,
  35304631193699, 17712445153379, 120259113059, 123677878255619, 106085692215299,
  4486471297794067, 88493506174979, 53309134094339, 35716948054019, 18442364083240960019,
  18446743987810205715, 123540439302179, 105948253261859, 88356067221539, 123609158778899,
  88424786698259, 70832600657939, 53240414617619, 18056042536979, 463856496659,
  18302734902606434323, 18302664533862273043, 13690978516508626963, 18302752357353521203, 13691066339999875123,
  18302734765167480883, 18302717172981440563, 18302699580795400243, 18302681988609359923, 18302664396423319603,
  13690978379069673523, 18302646804237279283, 18302629212051238963, 123626338648079, 18446743575493345395,
  18442239975867023475, 106034152607759, 18158637169311219763, 18158619577125179443, 18158601984939139123,
  18158584392753098803, 18158566800567058483, 18158549208381018163, 18158531616194977843, 18158514024008937523,
  105604655878259, 88012469837939, 70420283797619, 105054900068467, 87462714028147,
  122647086108787, 4450874608853107, 4433282422812787, 35235911716979, 17643725676659,
  51539636339, 34686155907187, 17093969866867, 52278341947507, 4380505864691827,
  4362913678651507, 18437736376240701555, 17284814871902290035, 14978971863225466995, 17271304073023324275,
  17870282823324139635, 17149706883112632435, 17010095294664147059, 17145344020973617267, 17005732432525131891,
  15708554985509748855, 15704192123370733687, 17293805011544834167, 17149689823502532727, 17005574635460231287,
  17289442149405818999, 17145326961363517559, 17001211773321216119, 17149830560957333623, 17005715372915032183,
  16861600184872730743, 16717344259375628407, 16573229071333326967, 16429113883291025527, 16712981397236613239,
  16568866209194311799, 16424751021152010359, 16573369808788127863, 16429254620745826423, 16285139432703524983,
  9795469413636374647, 9795451821450334327, 9795434229264294007, 9795416637078253687]

end Verif.Model.V1Scalar
