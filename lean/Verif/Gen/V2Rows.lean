import Verif.Model.V2Isa

/-! Generated by tools/gen_v2.py from the instruction groups of the decoder `CoralNPUV2Inst32`
(/repo/sim/coralnpu_v2.bin_fmt) and the opcodes of /repo/sim/coralnpu_v2.isa. -/

namespace Verif.Model.V2Isa.Gen

def riscVIInstBase32 : List Row := [
  ⟨"lui", [⟨0, 7, 55⟩], [⟨7, 5, 0⟩], [], [], "lui", ["%rd, 0x%(U_imm20:08x)"], [(["U_imm20"], ["rd"])], ["&::mpact::sim::riscv::RV32::RiscVILui"]⟩,
  ⟨"auipc", [⟨0, 7, 23⟩], [⟨7, 5, 0⟩], [], [], "auipc", ["%rd, 0x%(U_imm20:08x)"], [(["U_imm20"], ["rd"])], ["&::mpact::sim::riscv::RV32::RiscVIAuipc"]⟩,
  ⟨"jal", [⟨0, 7, 111⟩], [⟨7, 5, 0⟩], [], [], "jal", ["%rd, 0x%(@+J_imm20:08x)"], [(["J_imm20"], ["next_pc", "rd"])], ["&::mpact::sim::riscv::RV32::RiscVIJal"]⟩,
  ⟨"j", [⟨7, 5, 0⟩, ⟨0, 7, 111⟩], [], [], [], "j", ["0x%(@+J_imm20:08x)"], [(["J_imm20"], ["next_pc", "rd"])], ["&::mpact::sim::riscv::RV32::RiscVIJal"]⟩,
  ⟨"jalr", [⟨12, 3, 0⟩, ⟨0, 7, 103⟩], [⟨7, 5, 0⟩], [], [], "jalr", ["%rd, %rs1, %J_imm12"], [(["rs1", "J_imm12"], ["next_pc", "rd"])], ["&::mpact::sim::riscv::RV32::RiscVIJalr"]⟩,
  ⟨"jr", [⟨7, 5, 0⟩, ⟨12, 3, 0⟩, ⟨0, 7, 103⟩], [], [], [], "jr", ["%rs1, %J_imm12"], [(["rs1", "J_imm12"], ["next_pc", "rd"])], ["&::mpact::sim::riscv::RV32::RiscVIJalr"]⟩,
  ⟨"beq", [⟨12, 3, 0⟩, ⟨0, 7, 99⟩], [], [], [], "beq", ["%rs1, %rs2, 0x%(@+B_imm12:08x)"], [(["rs1", "rs2", "B_imm12"], ["next_pc"])], ["&::mpact::sim::riscv::RV32::RiscVIBeq"]⟩,
  ⟨"bne", [⟨12, 3, 1⟩, ⟨0, 7, 99⟩], [], [], [], "bne", ["%rs1, %rs2, 0x%(@+B_imm12:08x)"], [(["rs1", "rs2", "B_imm12"], ["next_pc"])], ["&::mpact::sim::riscv::RV32::RiscVIBne"]⟩,
  ⟨"blt", [⟨12, 3, 4⟩, ⟨0, 7, 99⟩], [], [], [], "blt", ["%rs1, %rs2, 0x%(@+B_imm12:08x)"], [(["rs1", "rs2", "B_imm12"], ["next_pc"])], ["&::mpact::sim::riscv::RV32::RiscVIBlt"]⟩,
  ⟨"bge", [⟨12, 3, 5⟩, ⟨0, 7, 99⟩], [], [], [], "bge", ["%rs1, %rs2, 0x%(@+B_imm12:08x)"], [(["rs1", "rs2", "B_imm12"], ["next_pc"])], ["&::mpact::sim::riscv::RV32::RiscVIBge"]⟩,
  ⟨"bltu", [⟨12, 3, 6⟩, ⟨0, 7, 99⟩], [], [], [], "bltu", ["%rs1, %rs2, 0x%(@+B_imm12:08x)"], [(["rs1", "rs2", "B_imm12"], ["next_pc"])], ["&::mpact::sim::riscv::RV32::RiscVIBltu"]⟩,
  ⟨"bgeu", [⟨12, 3, 7⟩, ⟨0, 7, 99⟩], [], [], [], "bgeu", ["%rs1, %rs2, 0x%(@+B_imm12:08x)"], [(["rs1", "rs2", "B_imm12"], ["next_pc"])], ["&::mpact::sim::riscv::RV32::RiscVIBgeu"]⟩,
  ⟨"lb", [⟨12, 3, 0⟩, ⟨0, 7, 3⟩], [], [], [], "lb", ["%rd, %I_imm12(%rs1)"], [(["rs1", "I_imm12"], []), ([], ["rd"])], ["&::coralnpu::sim::CoralNPUV2Lb", "&::mpact::sim::riscv::RV32::RiscVILbChild"]⟩,
  ⟨"lh", [⟨12, 3, 1⟩, ⟨0, 7, 3⟩], [], [], [], "lh", ["%rd, %I_imm12(%rs1)"], [(["rs1", "I_imm12"], []), ([], ["rd"])], ["&::coralnpu::sim::CoralNPUV2Lh", "&::mpact::sim::riscv::RV32::RiscVILhChild"]⟩,
  ⟨"lw", [⟨12, 3, 2⟩, ⟨0, 7, 3⟩], [], [], [], "lw", ["%rd, %I_imm12(%rs1)"], [(["rs1", "I_imm12"], []), ([], ["rd"])], ["&::coralnpu::sim::CoralNPUV2Lw", "&::mpact::sim::riscv::RV32::RiscVILwChild"]⟩,
  ⟨"lbu", [⟨12, 3, 4⟩, ⟨0, 7, 3⟩], [], [], [], "lbu", ["%rd, %I_imm12(%rs1)"], [(["rs1", "I_imm12"], []), ([], ["rd"])], ["&::coralnpu::sim::CoralNPUV2Lbu", "&::mpact::sim::riscv::RV32::RiscVILbuChild"]⟩,
  ⟨"lhu", [⟨12, 3, 5⟩, ⟨0, 7, 3⟩], [], [], [], "lhu", ["%rd, %I_imm12(%rs1)"], [(["rs1", "I_imm12"], []), ([], ["rd"])], ["&::coralnpu::sim::CoralNPUV2Lhu", "&::mpact::sim::riscv::RV32::RiscVILhuChild"]⟩,
  ⟨"sb", [⟨12, 3, 0⟩, ⟨0, 7, 35⟩], [], [], [], "sb", ["%rs2, %S_imm12(%rs1)"], [(["rs1", "S_imm12", "rs2"], [])], ["&::coralnpu::sim::CoralNPUV2Sb"]⟩,
  ⟨"sh", [⟨12, 3, 1⟩, ⟨0, 7, 35⟩], [], [], [], "sh", ["%rs2, %S_imm12(%rs1)"], [(["rs1", "S_imm12", "rs2"], [])], ["&::coralnpu::sim::CoralNPUV2Sh"]⟩,
  ⟨"sw", [⟨12, 3, 2⟩, ⟨0, 7, 35⟩], [], [], [], "sw", ["%rs2, %S_imm12(%rs1)"], [(["rs1", "S_imm12", "rs2"], [])], ["&::coralnpu::sim::CoralNPUV2Sw"]⟩,
  ⟨"addi", [⟨12, 3, 0⟩, ⟨0, 7, 19⟩], [⟨7, 5, 0⟩], [], [], "addi", ["%rd, %rs1, %I_imm12"], [(["rs1", "I_imm12"], ["rd"])], ["&::mpact::sim::riscv::RV32::RiscVIAdd"]⟩,
  ⟨"nop", [⟨12, 3, 0⟩, ⟨0, 7, 19⟩, ⟨7, 5, 0⟩, ⟨20, 12, 0⟩, ⟨15, 5, 0⟩], [], [], [], "nop", [], [([], [])], ["&::mpact::sim::riscv::RiscVINop"]⟩,
  ⟨"slti", [⟨12, 3, 2⟩, ⟨0, 7, 19⟩], [⟨7, 5, 0⟩], [], [], "slti", ["%rd, %rs1, %I_imm12"], [(["rs1", "I_imm12"], ["rd"])], ["&::mpact::sim::riscv::RV32::RiscVISlt"]⟩,
  ⟨"sltiu", [⟨12, 3, 3⟩, ⟨0, 7, 19⟩], [⟨7, 5, 0⟩], [], [], "sltiu", ["%rd, %rs1, %I_imm12"], [(["rs1", "I_imm12"], ["rd"])], ["&::mpact::sim::riscv::RV32::RiscVISltu"]⟩,
  ⟨"xori", [⟨12, 3, 4⟩, ⟨0, 7, 19⟩], [⟨7, 5, 0⟩], [], [], "xori", ["%rd, %rs1, %I_imm12"], [(["rs1", "I_imm12"], ["rd"])], ["&::mpact::sim::riscv::RV32::RiscVIXor"]⟩,
  ⟨"ori", [⟨12, 3, 6⟩, ⟨0, 7, 19⟩], [⟨7, 5, 0⟩], [], [], "ori", ["%rd, %rs1, %I_imm12"], [(["rs1", "I_imm12"], ["rd"])], ["&::mpact::sim::riscv::RV32::RiscVIOr"]⟩,
  ⟨"andi", [⟨12, 3, 7⟩, ⟨0, 7, 19⟩], [⟨7, 5, 0⟩], [], [], "andi", ["%rd, %rs1, %I_imm12"], [(["rs1", "I_imm12"], ["rd"])], ["&::mpact::sim::riscv::RV32::RiscVIAnd"]⟩,
  ⟨"slli", [⟨25, 7, 0⟩, ⟨12, 3, 1⟩, ⟨0, 7, 19⟩], [], [], [], "slli", ["%rd, %rs1, 0x%(r_uimm5:x)"], [(["rs1", "r_uimm5"], ["rd"])], ["&::mpact::sim::riscv::RV32::RiscVISll"]⟩,
  ⟨"srli", [⟨25, 7, 0⟩, ⟨12, 3, 5⟩, ⟨0, 7, 19⟩], [⟨7, 5, 0⟩], [], [], "srli", ["%rd  %rs1, 0x%(r_uimm5:x)"], [(["rs1", "r_uimm5"], ["rd"])], ["&::mpact::sim::riscv::RV32::RiscVISrl"]⟩,
  ⟨"srai", [⟨25, 7, 32⟩, ⟨12, 3, 5⟩, ⟨0, 7, 19⟩], [], [], [], "srai", ["%rd, %rs1, 0x%(r_uimm5:x)"], [(["rs1", "r_uimm5"], ["rd"])], ["&::mpact::sim::riscv::RV32::RiscVISra"]⟩,
  ⟨"add", [⟨25, 7, 0⟩, ⟨12, 3, 0⟩, ⟨0, 7, 51⟩], [⟨7, 5, 0⟩], [], [], "add", ["%rd, %rs1, %rs2"], [(["rs1", "rs2"], ["rd"])], ["&::mpact::sim::riscv::RV32::RiscVIAdd"]⟩,
  ⟨"sub", [⟨25, 7, 32⟩, ⟨12, 3, 0⟩, ⟨0, 7, 51⟩], [⟨7, 5, 0⟩], [], [], "sub", ["%rd, %rs1, %rs2"], [(["rs1", "rs2"], ["rd"])], ["&::mpact::sim::riscv::RV32::RiscVISub"]⟩,
  ⟨"sll", [⟨25, 7, 0⟩, ⟨12, 3, 1⟩, ⟨0, 7, 51⟩], [⟨7, 5, 0⟩], [], [], "sll", ["%rd, %rs1, %rs2"], [(["rs1", "rs2"], ["rd"])], ["&::mpact::sim::riscv::RV32::RiscVISll"]⟩,
  ⟨"slt", [⟨25, 7, 0⟩, ⟨12, 3, 2⟩, ⟨0, 7, 51⟩], [⟨7, 5, 0⟩], [], [], "slt", ["%rd, %rs1, %rs2"], [(["rs1", "rs2"], ["rd"])], ["&::mpact::sim::riscv::RV32::RiscVISlt"]⟩,
  ⟨"sltu", [⟨25, 7, 0⟩, ⟨12, 3, 3⟩, ⟨0, 7, 51⟩], [⟨7, 5, 0⟩], [], [], "sltu", ["%rd, %rs1, %rs2"], [(["rs1", "rs2"], ["rd"])], ["&::mpact::sim::riscv::RV32::RiscVISltu"]⟩,
  ⟨"xor", [⟨25, 7, 0⟩, ⟨12, 3, 4⟩, ⟨0, 7, 51⟩], [⟨7, 5, 0⟩], [], [], "xor", ["%rd, %rs1, %rs2"], [(["rs1", "rs2"], ["rd"])], ["&::mpact::sim::riscv::RV32::RiscVIXor"]⟩,
  ⟨"srl", [⟨25, 7, 0⟩, ⟨12, 3, 5⟩, ⟨0, 7, 51⟩], [⟨7, 5, 0⟩], [], [], "srl", ["%rd, %rs1, %rs2"], [(["rs1", "rs2"], ["rd"])], ["&::mpact::sim::riscv::RV32::RiscVISrl"]⟩,
  ⟨"sra", [⟨25, 7, 32⟩, ⟨12, 3, 5⟩, ⟨0, 7, 51⟩], [⟨7, 5, 0⟩], [], [], "sra", ["%rd, %rs1, %rs2"], [(["rs1", "rs2"], ["rd"])], ["&::mpact::sim::riscv::RV32::RiscVISra"]⟩,
  ⟨"or", [⟨25, 7, 0⟩, ⟨12, 3, 6⟩, ⟨0, 7, 51⟩], [⟨7, 5, 0⟩], [], [], "or", ["%rd, %rs1, %rs2"], [(["rs1", "rs2"], ["rd"])], ["&::mpact::sim::riscv::RV32::RiscVIOr"]⟩,
  ⟨"and", [⟨25, 7, 0⟩, ⟨12, 3, 7⟩, ⟨0, 7, 51⟩], [⟨7, 5, 0⟩], [], [], "and", ["%rd, %rs1, %rs2"], [(["rs1", "rs2"], ["rd"])], ["&::mpact::sim::riscv::RV32::RiscVIAnd"]⟩,
  ⟨"fence", [⟨28, 4, 0⟩, ⟨12, 3, 0⟩, ⟨0, 7, 15⟩], [⟨20, 4, 0⟩], [], [], "fence", [], [(["pred", "succ"], [])], ["&::mpact::sim::riscv::RiscVIFence"]⟩,
  ⟨"fence_tso", [⟨28, 4, 8⟩, ⟨24, 4, 3⟩, ⟨20, 4, 3⟩, ⟨12, 3, 0⟩, ⟨0, 7, 15⟩], [], [], [], "fence.tso", [], [([], [])], ["&::mpact::sim::riscv::RiscVIFenceTso"]⟩,
  ⟨"ecall", [⟨7, 25, 0⟩, ⟨0, 7, 115⟩], [], [], [], "ecall", [], [([], [])], ["&::mpact::sim::riscv::RiscVIEcall"]⟩,
  ⟨"ebreak", [⟨7, 25, 8192⟩, ⟨0, 7, 115⟩], [], [], [], "ebreak", [], [([], [])], ["&::mpact::sim::riscv::RiscVIEbreak"]⟩]

def riscVIHints32 : List Row := [
  ⟨"lui_hint", [⟨0, 7, 55⟩, ⟨7, 5, 0⟩], [], [], [], "lui", ["%rd, 0x%(U_imm20:08x)"], [(["U_imm20"], ["rd"])], ["&::mpact::sim::riscv::RiscVINop"]⟩,
  ⟨"auipc_hint", [⟨0, 7, 23⟩, ⟨7, 5, 0⟩], [], [], [], "auipc", ["%rd, 0x%(U_imm20:08x)"], [(["U_imm20"], ["rd"])], ["&::mpact::sim::riscv::RiscVINop"]⟩,
  ⟨"addi_hint1", [⟨12, 3, 0⟩, ⟨0, 7, 19⟩, ⟨7, 5, 0⟩], [⟨15, 5, 0⟩], [], [], "addi", ["%rd, %rs1, %I_imm12"], [(["rs1", "I_imm12"], ["rd"])], ["&::mpact::sim::riscv::RiscVINop"]⟩,
  ⟨"addi_hint2", [⟨12, 3, 0⟩, ⟨0, 7, 19⟩, ⟨7, 5, 0⟩], [⟨20, 12, 0⟩], [], [], "addi", ["%rd, %rs1, %I_imm12"], [(["rs1", "I_imm12"], ["rd"])], ["&::mpact::sim::riscv::RiscVINop"]⟩,
  ⟨"slti_hint", [⟨12, 3, 2⟩, ⟨0, 7, 19⟩, ⟨7, 5, 0⟩], [], [], [], "slti", ["%rd, %rs1, %I_imm12"], [(["rs1", "I_imm12"], ["rd"])], ["&::mpact::sim::riscv::RiscVINop"]⟩,
  ⟨"sltiu_hint", [⟨12, 3, 3⟩, ⟨0, 7, 19⟩, ⟨7, 5, 0⟩], [], [], [], "sltiu", ["%rd, %rs1, %I_imm12"], [(["rs1", "I_imm12"], ["rd"])], ["&::mpact::sim::riscv::RiscVINop"]⟩,
  ⟨"xori_hint", [⟨12, 3, 4⟩, ⟨7, 5, 0⟩, ⟨0, 7, 19⟩], [], [], [], "xori", ["%rd, %rs1, %I_imm12"], [(["rs1", "I_imm12"], ["rd"])], ["&::mpact::sim::riscv::RiscVINop"]⟩,
  ⟨"ori_hint", [⟨12, 3, 6⟩, ⟨7, 5, 0⟩, ⟨0, 7, 19⟩], [], [], [], "ori", ["%rd, %rs1, %I_imm12"], [(["rs1", "I_imm12"], ["rd"])], ["&::mpact::sim::riscv::RiscVINop"]⟩,
  ⟨"andi_hint", [⟨12, 3, 7⟩, ⟨0, 7, 19⟩, ⟨7, 5, 0⟩], [], [], [], "andi", ["%rd, %rs1, %I_imm12"], [(["rs1", "I_imm12"], ["rd"])], ["&::mpact::sim::riscv::RiscVINop"]⟩,
  ⟨"srli_hint", [⟨25, 7, 0⟩, ⟨12, 3, 5⟩, ⟨7, 5, 0⟩, ⟨0, 7, 19⟩], [], [], [], "srli", ["%rd  %rs1, 0x%(I_uimm5:x)"], [(["rs1", "I_uimm5"], ["rd"])], ["&::mpact::sim::riscv::RiscVINop"]⟩,
  ⟨"slt_hint", [⟨25, 7, 0⟩, ⟨12, 3, 2⟩, ⟨7, 5, 0⟩, ⟨0, 7, 51⟩], [], [], [], "slt", ["%rd, %rs1, %rs2"], [(["rs1", "rs2"], ["rd"])], ["&::mpact::sim::riscv::RiscVINop"]⟩,
  ⟨"slli_semihost", [⟨25, 7, 0⟩, ⟨12, 3, 1⟩, ⟨7, 5, 0⟩, ⟨15, 5, 0⟩, ⟨20, 5, 31⟩, ⟨0, 7, 19⟩], [], [], [], "slli", ["%rd, %rs1, 0x%(I_uimm5:x)"], [(["rs1", "I_uimm5"], ["rd"])], ["&::mpact::sim::riscv::RiscVINop"]⟩,
  ⟨"slli_hint1", [⟨25, 7, 0⟩, ⟨12, 3, 1⟩, ⟨7, 5, 0⟩, ⟨0, 7, 19⟩], [⟨15, 5, 0⟩], [], [], "slli", ["%rd, %rs1, 0x%(I_uimm5:x)"], [(["rs1", "I_uimm5"], ["rd"])], ["&::mpact::sim::riscv::RiscVINop"]⟩,
  ⟨"slli_hint2", [⟨25, 7, 0⟩, ⟨12, 3, 1⟩, ⟨7, 5, 0⟩, ⟨0, 7, 19⟩], [⟨20, 5, 31⟩], [], [], "slli", ["%rd, %rs1, 0x%(I_uimm5:x)"], [(["rs1", "I_uimm5"], ["rd"])], ["&::mpact::sim::riscv::RiscVINop"]⟩,
  ⟨"srai_semihost", [⟨25, 7, 32⟩, ⟨12, 3, 5⟩, ⟨7, 5, 0⟩, ⟨15, 5, 0⟩, ⟨20, 5, 7⟩, ⟨0, 7, 19⟩], [], [], [], "srai", ["%rd, %rs1, 0x%(I_uimm5:x)"], [(["rs1", "I_uimm5"], ["rd"])], ["&::mpact::sim::riscv::RiscVINop"]⟩,
  ⟨"srai_hint1", [⟨25, 7, 32⟩, ⟨12, 3, 5⟩, ⟨7, 5, 0⟩, ⟨0, 7, 19⟩], [⟨15, 5, 0⟩], [], [], "srai", ["%rd, %rs1, 0x%(I_uimm5:x)"], [(["rs1", "I_uimm5"], ["rd"])], ["&::mpact::sim::riscv::RiscVINop"]⟩,
  ⟨"srai_hint2", [⟨25, 7, 32⟩, ⟨12, 3, 5⟩, ⟨7, 5, 0⟩, ⟨0, 7, 19⟩], [⟨20, 5, 7⟩], [], [], "srai", ["%rd, %rs1, 0x%(I_uimm5:x)"], [(["rs1", "I_uimm5"], ["rd"])], ["&::mpact::sim::riscv::RiscVINop"]⟩,
  ⟨"add_hint1", [⟨25, 7, 0⟩, ⟨12, 3, 0⟩, ⟨7, 5, 0⟩, ⟨0, 7, 51⟩], [⟨15, 5, 0⟩], [], [], "add", ["%rd, %rs1, %rs2"], [(["rs1", "rs2"], ["rd"])], ["&::mpact::sim::riscv::RiscVINop"]⟩,
  ⟨"add_hint2", [⟨25, 7, 0⟩, ⟨12, 3, 0⟩, ⟨7, 5, 0⟩, ⟨15, 5, 0⟩, ⟨0, 7, 51⟩], [], [⟨20, 5, 5⟩], [], "add", ["%rd, %rs1, %rs2"], [(["rs1", "rs2"], ["rd"])], ["&::mpact::sim::riscv::RiscVINop"]⟩,
  ⟨"add_hint3", [⟨25, 7, 0⟩, ⟨12, 3, 0⟩, ⟨7, 5, 0⟩, ⟨15, 5, 0⟩, ⟨0, 7, 51⟩], [], [], [⟨20, 5, 2⟩], "add", ["%rd, %rs1, %rs2"], [(["rs1", "rs2"], ["rd"])], ["&::mpact::sim::riscv::RiscVINop"]⟩,
  ⟨"sub_hint", [⟨25, 7, 32⟩, ⟨12, 3, 0⟩, ⟨7, 5, 0⟩, ⟨0, 7, 51⟩], [], [], [], "sub", ["%rd, %rs1, %rs2"], [(["rs1", "rs2"], ["rd"])], ["&::mpact::sim::riscv::RiscVINop"]⟩,
  ⟨"sll_hint", [⟨25, 7, 0⟩, ⟨12, 3, 1⟩, ⟨7, 5, 0⟩, ⟨0, 7, 51⟩], [], [], [], "sll", ["%rd, %rs1, %rs2"], [(["rs1", "rs2"], ["rd"])], ["&::mpact::sim::riscv::RiscVINop"]⟩,
  ⟨"sltu_hint", [⟨25, 7, 0⟩, ⟨12, 3, 3⟩, ⟨7, 5, 0⟩, ⟨0, 7, 51⟩], [], [], [], "sltu", ["%rd, %rs1, %rs2"], [(["rs1", "rs2"], ["rd"])], ["&::mpact::sim::riscv::RiscVINop"]⟩,
  ⟨"xor_hint", [⟨25, 7, 0⟩, ⟨12, 3, 4⟩, ⟨7, 5, 0⟩, ⟨0, 7, 51⟩], [], [], [], "xor", ["%rd, %rs1, %rs2"], [(["rs1", "rs2"], ["rd"])], ["&::mpact::sim::riscv::RiscVINop"]⟩,
  ⟨"srl_hint", [⟨25, 7, 0⟩, ⟨12, 3, 5⟩, ⟨7, 5, 0⟩, ⟨0, 7, 51⟩], [], [], [], "srl", ["%rd, %rs1, %rs2"], [(["rs1", "rs2"], ["rd"])], ["&::mpact::sim::riscv::RiscVINop"]⟩,
  ⟨"sra_hint", [⟨25, 7, 32⟩, ⟨12, 3, 5⟩, ⟨7, 5, 0⟩, ⟨0, 7, 51⟩], [], [], [], "sra", ["%rd, %rs1, %rs2"], [(["rs1", "rs2"], ["rd"])], ["&::mpact::sim::riscv::RiscVINop"]⟩,
  ⟨"or_hint", [⟨25, 7, 0⟩, ⟨12, 3, 6⟩, ⟨7, 5, 0⟩, ⟨0, 7, 51⟩], [], [], [], "or", ["%rd, %rs1, %rs2"], [(["rs1", "rs2"], ["rd"])], ["&::mpact::sim::riscv::RiscVINop"]⟩,
  ⟨"and_hint", [⟨25, 7, 0⟩, ⟨12, 3, 7⟩, ⟨7, 5, 0⟩, ⟨0, 7, 51⟩], [], [], [], "and", ["%rd, %rs1, %rs2"], [(["rs1", "rs2"], ["rd"])], ["&::mpact::sim::riscv::RiscVINop"]⟩,
  ⟨"fence_hint1", [⟨12, 3, 0⟩, ⟨7, 5, 0⟩, ⟨28, 4, 0⟩, ⟨24, 4, 0⟩, ⟨0, 7, 15⟩], [⟨15, 5, 0⟩], [], [], "fence", [], [(["pred", "succ"], [])], ["&::mpact::sim::riscv::RiscVINop"]⟩,
  ⟨"fence_hint2", [⟨12, 3, 0⟩, ⟨7, 5, 0⟩, ⟨28, 4, 0⟩, ⟨20, 4, 0⟩, ⟨0, 7, 15⟩], [⟨15, 5, 0⟩], [], [], "fence", [], [(["pred", "succ"], [])], ["&::mpact::sim::riscv::RiscVINop"]⟩,
  ⟨"fence_hint3", [⟨12, 3, 0⟩, ⟨15, 5, 0⟩, ⟨28, 4, 0⟩, ⟨24, 4, 0⟩, ⟨0, 7, 15⟩], [⟨7, 5, 0⟩], [], [], "fence", [], [(["pred", "succ"], [])], ["&::mpact::sim::riscv::RiscVINop"]⟩,
  ⟨"fence_hint4", [⟨12, 3, 0⟩, ⟨15, 5, 0⟩, ⟨28, 4, 0⟩, ⟨20, 4, 0⟩, ⟨0, 7, 15⟩], [⟨7, 5, 0⟩], [], [], "fence", [], [(["pred", "succ"], [])], ["&::mpact::sim::riscv::RiscVINop"]⟩,
  ⟨"fence_hint5", [⟨12, 3, 0⟩, ⟨7, 5, 0⟩, ⟨15, 5, 0⟩, ⟨28, 4, 0⟩, ⟨24, 4, 0⟩, ⟨0, 7, 15⟩], [⟨20, 4, 0⟩], [], [], "fence", [], [(["pred", "succ"], [])], ["&::mpact::sim::riscv::RiscVINop"]⟩,
  ⟨"fence_hint6", [⟨12, 3, 0⟩, ⟨7, 5, 0⟩, ⟨15, 5, 0⟩, ⟨28, 4, 0⟩, ⟨20, 4, 0⟩, ⟨0, 7, 15⟩], [], [], [], "fence", [], [(["pred", "succ"], [])], ["&::mpact::sim::riscv::RiscVINop"]⟩,
  ⟨"fence_hint7", [⟨12, 3, 0⟩, ⟨15, 5, 0⟩, ⟨28, 4, 0⟩, ⟨20, 4, 0⟩, ⟨0, 7, 15⟩], [⟨7, 5, 0⟩, ⟨24, 4, 1⟩], [], [], "fence", [], [(["pred", "succ"], [])], ["&::mpact::sim::riscv::RiscVINop"]⟩]

def riscVZicsrInst32 : List Row := [
  ⟨"csrrw", [⟨12, 3, 1⟩, ⟨0, 7, 115⟩], [⟨20, 12, 3072⟩, ⟨7, 5, 0⟩], [], [], "csrw", ["%rd, %csr, %rs1"], [(["rs1", "csr"], ["rd", "csr"])], ["&::mpact::sim::riscv::RV32::RiscVZiCsrrw"]⟩,
  ⟨"csrrs", [⟨12, 3, 2⟩, ⟨0, 7, 115⟩], [⟨15, 5, 0⟩, ⟨7, 5, 0⟩], [], [], "csrs", ["%rd, %csr, %rs1"], [(["rs1", "csr"], ["rd", "csr"])], ["&::mpact::sim::riscv::RV32::RiscVZiCsrrs"]⟩,
  ⟨"csrrc", [⟨12, 3, 3⟩, ⟨0, 7, 115⟩], [⟨15, 5, 0⟩, ⟨7, 5, 0⟩], [], [], "csrc", ["%rd, %csr, %rs1"], [(["rs1", "csr"], ["rd", "csr"])], ["&::mpact::sim::riscv::RV32::RiscVZiCsrrc"]⟩,
  ⟨"csrrs_nr", [⟨12, 3, 2⟩, ⟨7, 5, 0⟩, ⟨0, 7, 115⟩], [⟨15, 5, 0⟩], [], [], "csrs", ["%csr, %rs1"], [(["rs1", "csr"], ["rd", "csr"])], ["&::mpact::sim::riscv::RV32::RiscVZiCsrrs"]⟩,
  ⟨"csrrc_nr", [⟨12, 3, 3⟩, ⟨7, 5, 0⟩, ⟨0, 7, 115⟩], [⟨15, 5, 0⟩], [], [], "csrc", ["%csr, %rs1"], [(["rs1", "csr"], ["rd", "csr"])], ["&::mpact::sim::riscv::RV32::RiscVZiCsrrc"]⟩,
  ⟨"csrrw_nr", [⟨12, 3, 1⟩, ⟨7, 5, 0⟩, ⟨0, 7, 115⟩], [⟨20, 12, 3072⟩], [], [], "csrw", ["%csr, %rs1"], [(["rs1", "csr"], ["csr"])], ["&::mpact::sim::riscv::RV32::RiscVZiCsrrwNr"]⟩,
  ⟨"csrrs_nw", [⟨12, 3, 2⟩, ⟨15, 5, 0⟩, ⟨0, 7, 115⟩], [], [], [], "csrs", ["%rd, %csr"], [(["csr"], ["rd"])], ["&::mpact::sim::riscv::RV32::RiscVZiCsrrNw"]⟩,
  ⟨"csrrc_nw", [⟨12, 3, 3⟩, ⟨15, 5, 0⟩, ⟨0, 7, 115⟩], [], [], [], "csrc", ["%rd, %csr"], [(["csr"], ["rd"])], ["&::mpact::sim::riscv::RV32::RiscVZiCsrrNw"]⟩,
  ⟨"csrrwi", [⟨12, 3, 5⟩, ⟨0, 7, 115⟩], [⟨7, 5, 0⟩], [], [], "csrwi", ["%rd, %csr, %CSR_uimm5"], [(["CSR_uimm5", "csr"], ["rd", "csr"])], ["&::mpact::sim::riscv::RV32::RiscVZiCsrrw"]⟩,
  ⟨"csrrsi", [⟨12, 3, 6⟩, ⟨0, 7, 115⟩], [⟨15, 5, 0⟩, ⟨7, 5, 0⟩], [], [], "csrsi", ["%rd, %csr, %CSR_uimm5"], [(["CSR_uimm5", "csr"], ["rd", "csr"])], ["&::mpact::sim::riscv::RV32::RiscVZiCsrrs"]⟩,
  ⟨"csrrci", [⟨12, 3, 7⟩, ⟨0, 7, 115⟩], [⟨15, 5, 0⟩, ⟨7, 5, 0⟩], [], [], "csrci", ["%rd, %csr, %CSR_uimm5"], [(["CSR_uimm5", "csr"], ["rd", "csr"])], ["&::mpact::sim::riscv::RV32::RiscVZiCsrrc"]⟩,
  ⟨"csrrsi_nr", [⟨12, 3, 6⟩, ⟨7, 5, 0⟩, ⟨0, 7, 115⟩], [⟨15, 5, 0⟩], [], [], "csrsi", ["%csr, %CSR_uimm5"], [(["CSR_uimm5", "csr"], ["rd", "csr"])], ["&::mpact::sim::riscv::RV32::RiscVZiCsrrs"]⟩,
  ⟨"csrrci_nr", [⟨12, 3, 7⟩, ⟨7, 5, 0⟩, ⟨0, 7, 115⟩], [⟨15, 5, 0⟩], [], [], "csrci", ["%csr, %CSR_uimm5"], [(["CSR_uimm5", "csr"], ["rd", "csr"])], ["&::mpact::sim::riscv::RV32::RiscVZiCsrrc"]⟩,
  ⟨"csrrwi_nr", [⟨12, 3, 5⟩, ⟨7, 5, 0⟩, ⟨0, 7, 115⟩], [], [], [], "csrrwi", ["%csr, %CSR_uimm5"], [(["CSR_uimm5", "csr"], ["csr"])], ["&::mpact::sim::riscv::RV32::RiscVZiCsrrwNr"]⟩,
  ⟨"csrrsi_nw", [⟨12, 3, 6⟩, ⟨15, 5, 0⟩, ⟨0, 7, 115⟩], [], [], [], "csrsi", ["%rd, %csr, 0"], [(["csr"], ["rd"])], ["&::mpact::sim::riscv::RV32::RiscVZiCsrrNw"]⟩,
  ⟨"csrrci_nw", [⟨12, 3, 7⟩, ⟨15, 5, 0⟩, ⟨0, 7, 115⟩], [], [], [], "csrwi", ["%rd, %csr, 0"], [(["csr"], ["rd"])], ["&::mpact::sim::riscv::RV32::RiscVZiCsrrNw"]⟩,
  ⟨"unimp", [⟨12, 3, 1⟩, ⟨20, 12, 3072⟩, ⟨15, 5, 0⟩, ⟨7, 5, 0⟩, ⟨0, 7, 115⟩], [], [], [], "unimp", [], [([], [])], ["&::mpact::sim::riscv::RiscVIUnimplemented"]⟩]

def riscVZifenceiInst32 : List Row := [
  ⟨"fencei", [⟨12, 3, 1⟩, ⟨0, 7, 15⟩], [], [], [], "fence.i", [], [(["I_imm12"], [])], ["&::mpact::sim::riscv::RiscVZFencei"]⟩]

def riscVMInst32 : List Row := [
  ⟨"mul", [⟨25, 7, 1⟩, ⟨12, 3, 0⟩, ⟨0, 7, 51⟩], [], [], [], "mul", ["%rd, %rs1, %rs2"], [(["rs1", "rs2"], ["rd"])], ["&::mpact::sim::riscv::RV32::MMul"]⟩,
  ⟨"mulh", [⟨25, 7, 1⟩, ⟨12, 3, 1⟩, ⟨0, 7, 51⟩], [], [], [], "mulh", ["%rd, %rs1, %rs2"], [(["rs1", "rs2"], ["rd"])], ["&::mpact::sim::riscv::RV32::MMulh"]⟩,
  ⟨"mulhsu", [⟨25, 7, 1⟩, ⟨12, 3, 2⟩, ⟨0, 7, 51⟩], [], [], [], "mulhsu", ["%rd, %rs1, %rs2"], [(["rs1", "rs2"], ["rd"])], ["&::mpact::sim::riscv::RV32::MMulhsu"]⟩,
  ⟨"mulhu", [⟨25, 7, 1⟩, ⟨12, 3, 3⟩, ⟨0, 7, 51⟩], [], [], [], "mulhu", ["%rd, %rs1, %rs2"], [(["rs1", "rs2"], ["rd"])], ["&::mpact::sim::riscv::RV32::MMulhu"]⟩,
  ⟨"div", [⟨25, 7, 1⟩, ⟨12, 3, 4⟩, ⟨0, 7, 51⟩], [], [], [], "div", ["%rd, %rs1, %rs2"], [(["rs1", "rs2"], ["rd"])], ["&::mpact::sim::riscv::RV32::MDiv"]⟩,
  ⟨"divu", [⟨25, 7, 1⟩, ⟨12, 3, 5⟩, ⟨0, 7, 51⟩], [], [], [], "divu", ["%rd, %rs1, %rs2"], [(["rs1", "rs2"], ["rd"])], ["&::mpact::sim::riscv::RV32::MDivu"]⟩,
  ⟨"rem", [⟨25, 7, 1⟩, ⟨12, 3, 6⟩, ⟨0, 7, 51⟩], [], [], [], "rem", ["%rd, %rs1, %rs2"], [(["rs1", "rs2"], ["rd"])], ["&::mpact::sim::riscv::RV32::MRem"]⟩,
  ⟨"remu", [⟨25, 7, 1⟩, ⟨12, 3, 7⟩, ⟨0, 7, 51⟩], [], [], [], "remu", ["%rd, %rs1, %rs2"], [(["rs1", "rs2"], ["rd"])], ["&::mpact::sim::riscv::RV32::MRemu"]⟩]

def riscVFInst32 : List Row := [
  ⟨"flw", [⟨12, 3, 2⟩, ⟨0, 7, 7⟩], [], [], [], "flw", ["%frd, %I_imm12(%rs1)"], [(["rs1", "I_imm12"], []), ([], ["frd"])], ["&::coralnpu::sim::CoralNPUV2Lw", "&::mpact::sim::riscv::RiscVIFlwChild"]⟩,
  ⟨"fsw", [⟨12, 3, 2⟩, ⟨0, 7, 39⟩], [], [], [], "fsw", ["%frs2, %S_imm12(%rs1)"], [(["rs1", "S_imm12", "frs2"], [])], ["&::coralnpu::sim::CoralNPUV2Fsw"]⟩,
  ⟨"fmadd_s", [⟨25, 2, 0⟩, ⟨0, 7, 67⟩], [], [], [], "fmadd", ["%frd, %frs1, %frs2, %frs3"], [(["frs1", "frs2", "frs3", "rm"], ["frd", "fflags"])], ["&::mpact::sim::riscv::RiscVFMadd"]⟩,
  ⟨"fmsub_s", [⟨25, 2, 0⟩, ⟨0, 7, 71⟩], [], [], [], "fmsub", ["%frd, %frs1, %frs2, %frs3"], [(["frs1", "frs2", "frs3", "rm"], ["frd", "fflags"])], ["&::mpact::sim::riscv::RiscVFMsub"]⟩,
  ⟨"fnmsub_s", [⟨25, 2, 0⟩, ⟨0, 7, 75⟩], [], [], [], "fnmsub", ["%frd, %frs1, %frs2, %frs3"], [(["frs1", "frs2", "frs3", "rm"], ["frd", "fflags"])], ["&::mpact::sim::riscv::RiscVFNmsub"]⟩,
  ⟨"fnmadd_s", [⟨25, 2, 0⟩, ⟨0, 7, 79⟩], [], [], [], "fnmadd", ["%frd, %frs1, %frs2, %frs3"], [(["frs1", "frs2", "frs3", "rm"], ["frd", "fflags"])], ["&::mpact::sim::riscv::RiscVFNmadd"]⟩,
  ⟨"fadd_s", [⟨25, 7, 0⟩, ⟨0, 7, 83⟩], [], [], [], "fadd", ["%frd, %frs1, %frs2"], [(["frs1", "frs2", "rm"], ["frd"])], ["&::mpact::sim::riscv::RiscVFAdd"]⟩,
  ⟨"fsub_s", [⟨25, 7, 4⟩, ⟨0, 7, 83⟩], [], [], [], "fsub", ["%frd, %frs1, %frs2"], [(["frs1", "frs2", "rm"], ["frd"])], ["&::mpact::sim::riscv::RiscVFSub"]⟩,
  ⟨"fmul_s", [⟨25, 7, 8⟩, ⟨0, 7, 83⟩], [], [], [], "fmul", ["%frd, %frs1, %frs2"], [(["frs1", "frs2", "rm"], ["frd"])], ["&::mpact::sim::riscv::RiscVFMul"]⟩,
  ⟨"fdiv_s", [⟨25, 7, 12⟩, ⟨0, 7, 83⟩], [], [], [], "fdiv", ["%frd, %frs1, %frs2"], [(["frs1", "frs2", "rm"], ["frd"])], ["&::mpact::sim::riscv::RiscVFDiv"]⟩,
  ⟨"fsqrt_s", [⟨25, 7, 44⟩, ⟨20, 5, 0⟩, ⟨0, 7, 83⟩], [], [], [], "fsqrt", ["%frd, %frs1"], [(["frs1", "rm"], ["frd", "fflags"])], ["&::mpact::sim::riscv::RiscVFSqrt"]⟩,
  ⟨"fsgnj_s", [⟨25, 7, 16⟩, ⟨12, 3, 0⟩, ⟨0, 7, 83⟩], [], [], [], "fsgn.s", ["%frd, %frs1, %frs2"], [(["frs1", "frs2"], ["frd"])], ["&::mpact::sim::riscv::RiscVFSgnj"]⟩,
  ⟨"fsgnjn_s", [⟨25, 7, 16⟩, ⟨12, 3, 1⟩, ⟨0, 7, 83⟩], [], [], [], "fsgnjx.s", ["%frd, %frs1, %frs2"], [(["frs1", "frs2"], ["frd"])], ["&::mpact::sim::riscv::RiscVFSgnjn"]⟩,
  ⟨"fsgnjx_s", [⟨25, 7, 16⟩, ⟨12, 3, 2⟩, ⟨0, 7, 83⟩], [], [], [], "fsgnjx.s", ["%frd, %frs1, %frs2"], [(["frs1", "frs2"], ["frd"])], ["&::mpact::sim::riscv::RiscVFSgnjx"]⟩,
  ⟨"fmin_s", [⟨25, 7, 20⟩, ⟨12, 3, 0⟩, ⟨0, 7, 83⟩], [], [], [], "fmin", ["%frd, %frs1, %frs2"], [(["frs1", "frs2"], ["frd", "fflags"])], ["&::mpact::sim::riscv::RiscVFMin"]⟩,
  ⟨"fmax_s", [⟨25, 7, 20⟩, ⟨12, 3, 1⟩, ⟨0, 7, 83⟩], [], [], [], "fmax", ["%frd, %frs1, %frs2"], [(["frs1", "frs2"], ["frd", "fflags"])], ["&::mpact::sim::riscv::RiscVFMax"]⟩,
  ⟨"fcvt_ws", [⟨25, 7, 96⟩, ⟨20, 5, 0⟩, ⟨0, 7, 83⟩], [], [], [], "fcvt.w.s", ["%rd, %frs1"], [(["frs1", "rm"], ["rd", "fflags"])], ["&::mpact::sim::riscv::RV32::RiscVFCvtWs"]⟩,
  ⟨"fcvt_wus", [⟨25, 7, 96⟩, ⟨20, 5, 1⟩, ⟨0, 7, 83⟩], [], [], [], "fcvt.wu.s", ["%rd, %frs1"], [(["frs1", "rm"], ["rd", "fflags"])], ["&::mpact::sim::riscv::RV32::RiscVFCvtWus"]⟩,
  ⟨"fmv_xw", [⟨25, 7, 112⟩, ⟨20, 5, 0⟩, ⟨12, 3, 0⟩, ⟨0, 7, 83⟩], [], [], [], "mv.x.w", ["%rd, %frs1"], [(["frs1"], ["rd"])], ["&::mpact::sim::riscv::RV32::RiscVFMvxw"]⟩,
  ⟨"fcmpeq_s", [⟨25, 7, 80⟩, ⟨12, 3, 2⟩, ⟨0, 7, 83⟩], [], [], [], "fcmpeq", ["%rd, %frs1, %frs2"], [(["frs1", "frs2"], ["rd", "fflags"])], ["&::mpact::sim::riscv::RV32::RiscVFCmpeq"]⟩,
  ⟨"fcmplt_s", [⟨25, 7, 80⟩, ⟨12, 3, 1⟩, ⟨0, 7, 83⟩], [], [], [], "fcmplt", ["%rd, %frs1, %frs2"], [(["frs1", "frs2"], ["rd", "fflags"])], ["&::mpact::sim::riscv::RV32::RiscVFCmplt"]⟩,
  ⟨"fcmple_s", [⟨25, 7, 80⟩, ⟨12, 3, 0⟩, ⟨0, 7, 83⟩], [], [], [], "fcmple", ["%rd, %frs1, %frs2"], [(["frs1", "frs2"], ["rd", "fflags"])], ["&::mpact::sim::riscv::RV32::RiscVFCmple"]⟩,
  ⟨"fclass_s", [⟨25, 7, 112⟩, ⟨20, 5, 0⟩, ⟨12, 3, 1⟩, ⟨0, 7, 83⟩], [], [], [], "fclass", ["%rd, %frs1"], [(["frs1"], ["rd"])], ["&::mpact::sim::riscv::RV32::RiscVFClass"]⟩,
  ⟨"fcvt_sw", [⟨25, 7, 104⟩, ⟨20, 5, 0⟩, ⟨0, 7, 83⟩], [], [], [], "fcvt.s.w", ["%frd, %rs1"], [(["rs1", "rm"], ["frd"])], ["&::mpact::sim::riscv::RiscVFCvtSw"]⟩,
  ⟨"fcvt_swu", [⟨25, 7, 104⟩, ⟨20, 5, 1⟩, ⟨0, 7, 83⟩], [], [], [], "fcvt.s.wu", ["%frd, %rs1"], [(["rs1", "rm"], ["frd"])], ["&::mpact::sim::riscv::RiscVFCvtSwu"]⟩,
  ⟨"fmv_wx", [⟨25, 7, 120⟩, ⟨20, 5, 0⟩, ⟨12, 3, 0⟩, ⟨0, 7, 83⟩], [], [], [], "mv.w.x", ["%frd, %rs1"], [(["rs1"], ["frd"])], ["&::mpact::sim::riscv::RiscVFMvwx"]⟩]

def riscVZve32xInst32_0 : List Row := [
  ⟨"vsetvli_xn", [⟨31, 1, 0⟩, ⟨12, 3, 7⟩, ⟨0, 7, 87⟩], [⟨15, 5, 0⟩], [], [], "vsetvli", ["%rd,", "%rs1, %zimm11"], [(["rs1", "zimm11"], ["rd"])], ["absl::bind_front(&::mpact::sim::riscv::Vsetvl,false,false)"]⟩,
  ⟨"vsetvli_nz", [⟨15, 5, 0⟩, ⟨31, 1, 0⟩, ⟨12, 3, 7⟩, ⟨0, 7, 87⟩], [⟨7, 5, 0⟩], [], [], "vsetvli", ["%rd, %rs1, %zimm11"], [(["rs1", "zimm11"], ["rd"])], ["absl::bind_front(&::mpact::sim::riscv::Vsetvl,false,true)"]⟩,
  ⟨"vsetvli_zz", [⟨7, 5, 0⟩, ⟨15, 5, 0⟩, ⟨31, 1, 0⟩, ⟨12, 3, 7⟩, ⟨0, 7, 87⟩], [], [], [], "vsetvli", ["%rd, %rs1, %zimm11"], [(["rs1", "zimm11"], ["rd"])], ["absl::bind_front(&::mpact::sim::riscv::Vsetvl,true,true)"]⟩,
  ⟨"vsetivli", [⟨30, 2, 3⟩, ⟨12, 3, 7⟩, ⟨0, 7, 87⟩], [], [], [], "vsetivli %uimm5, %zimm10", [], [(["uimm5", "zimm10"], ["rd"])], ["absl::bind_front(&::mpact::sim::riscv::Vsetvl,false,false)"]⟩,
  ⟨"vsetvl_xn", [⟨25, 7, 64⟩, ⟨12, 3, 7⟩, ⟨0, 7, 87⟩], [⟨15, 5, 0⟩], [], [], "vsetvl", ["%rd, %rs1, %rs2"], [(["rs1", "rs2"], ["rd"])], ["absl::bind_front(&::mpact::sim::riscv::Vsetvl,false,false)"]⟩,
  ⟨"vsetvl_nz", [⟨15, 5, 0⟩, ⟨25, 7, 64⟩, ⟨12, 3, 7⟩, ⟨0, 7, 87⟩], [⟨7, 5, 0⟩], [], [], "vsetvl", ["%rd, %rs1, %rs2"], [(["rs1", "rs2"], ["rd"])], ["absl::bind_front(&::mpact::sim::riscv::Vsetvl,false,true)"]⟩,
  ⟨"vsetvl_zz", [⟨7, 5, 0⟩, ⟨15, 5, 0⟩, ⟨25, 7, 64⟩, ⟨12, 3, 7⟩, ⟨0, 7, 87⟩], [], [], [], "vsetvl", ["%rd, %rs1, %rs2"], [(["rs1", "rs2"], ["rd"])], ["absl::bind_front(&::mpact::sim::riscv::Vsetvl,true,true)"]⟩,
  ⟨"vle8", [⟨25, 1, 0⟩, ⟨29, 3, 0⟩, ⟨28, 1, 0⟩, ⟨26, 2, 0⟩, ⟨20, 5, 0⟩, ⟨12, 3, 0⟩, ⟨0, 7, 7⟩], [], [], [], "vle8.v", ["%vd, (%rs1), %vmask"], [(["rs1", "const1", "vmask"], []), ([], ["vd"])], ["absl::bind_front(&::mpact::sim::riscv::VlStrided,1)", "&::mpact::sim::riscv::VlChild"]⟩,
  ⟨"vle16", [⟨25, 1, 0⟩, ⟨29, 3, 0⟩, ⟨28, 1, 0⟩, ⟨26, 2, 0⟩, ⟨20, 5, 0⟩, ⟨12, 3, 5⟩, ⟨0, 7, 7⟩], [], [], [], "vle16.v", ["%vd, (%rs1), %vmask"], [(["rs1", "const2", "vmask"], []), ([], ["vd"])], ["absl::bind_front(&::mpact::sim::riscv::VlStrided,2)", "&::mpact::sim::riscv::VlChild"]⟩,
  ⟨"vle32", [⟨25, 1, 0⟩, ⟨29, 3, 0⟩, ⟨28, 1, 0⟩, ⟨26, 2, 0⟩, ⟨20, 5, 0⟩, ⟨12, 3, 6⟩, ⟨0, 7, 7⟩], [], [], [], "vle32.v", ["%vd, (%rs1), %vmask"], [(["rs1", "const4", "vmask"], []), ([], ["vd"])], ["absl::bind_front(&::mpact::sim::riscv::VlStrided,4)", "&::mpact::sim::riscv::VlChild"]⟩,
  ⟨"vle8_vm1", [⟨25, 1, 1⟩, ⟨29, 3, 0⟩, ⟨28, 1, 0⟩, ⟨26, 2, 0⟩, ⟨20, 5, 0⟩, ⟨12, 3, 0⟩, ⟨0, 7, 7⟩], [], [], [], "vle8.v", ["%vd, (%rs1)"], [(["rs1", "const1", "vmask_true"], []), ([], ["vd"])], ["absl::bind_front(&::mpact::sim::riscv::VlStrided,1)", "&::mpact::sim::riscv::VlChild"]⟩,
  ⟨"vle16_vm1", [⟨25, 1, 1⟩, ⟨29, 3, 0⟩, ⟨28, 1, 0⟩, ⟨26, 2, 0⟩, ⟨20, 5, 0⟩, ⟨12, 3, 5⟩, ⟨0, 7, 7⟩], [], [], [], "vle16.v", ["%vd, (%rs1)"], [(["rs1", "const2", "vmask_true"], []), ([], ["vd"])], ["absl::bind_front(&::mpact::sim::riscv::VlStrided,2)", "&::mpact::sim::riscv::VlChild"]⟩,
  ⟨"vle32_vm1", [⟨25, 1, 1⟩, ⟨29, 3, 0⟩, ⟨28, 1, 0⟩, ⟨26, 2, 0⟩, ⟨20, 5, 0⟩, ⟨12, 3, 6⟩, ⟨0, 7, 7⟩], [], [], [], "vle32.v", ["%vd, (%rs1)"], [(["rs1", "const4", "vmask_true"], []), ([], ["vd"])], ["absl::bind_front(&::mpact::sim::riscv::VlStrided,4)", "&::mpact::sim::riscv::VlChild"]⟩,
  ⟨"vlm", [⟨29, 3, 0⟩, ⟨28, 1, 0⟩, ⟨26, 2, 0⟩, ⟨20, 5, 11⟩, ⟨12, 3, 0⟩, ⟨0, 7, 7⟩], [], [], [], "vlm.v", ["%vd, (%rs1)"], [(["rs1", "const1", "vmask_true"], []), ([], ["vd"])], ["&::mpact::sim::riscv::Vlm", "&::mpact::sim::riscv::VlChild"]⟩,
  ⟨"vle8ff", [⟨29, 3, 0⟩, ⟨28, 1, 0⟩, ⟨26, 2, 0⟩, ⟨20, 5, 16⟩, ⟨12, 3, 0⟩, ⟨0, 7, 7⟩], [], [], [], "vle8ff.v", ["%vd, (%rs1), %vmask"], [(["rs1", "const1", "vmask"], []), ([], ["vd"])], ["absl::bind_front(&::mpact::sim::riscv::VlStrided,1)", "&::mpact::sim::riscv::VlChild"]⟩,
  ⟨"vle16ff", [⟨29, 3, 0⟩, ⟨28, 1, 0⟩, ⟨26, 2, 0⟩, ⟨20, 5, 16⟩, ⟨12, 3, 5⟩, ⟨0, 7, 7⟩], [], [], [], "vle16ff.v", ["%vd, (%rs1), %vmask"], [(["rs1", "const2", "vmask"], []), ([], ["vd"])], ["absl::bind_front(&::mpact::sim::riscv::VlStrided,2)", "&::mpact::sim::riscv::VlChild"]⟩,
  ⟨"vle32ff", [⟨29, 3, 0⟩, ⟨28, 1, 0⟩, ⟨26, 2, 0⟩, ⟨20, 5, 16⟩, ⟨12, 3, 6⟩, ⟨0, 7, 7⟩], [], [], [], "vle32ff.v", ["%vd, (%rs1), %vmask"], [(["rs1", "const4", "vmask"], []), ([], ["vd"])], ["absl::bind_front(&::mpact::sim::riscv::VlStrided,4)", "&::mpact::sim::riscv::VlChild"]⟩,
  ⟨"vl1re8", [⟨29, 3, 0⟩, ⟨26, 2, 0⟩, ⟨25, 1, 1⟩, ⟨20, 5, 8⟩, ⟨12, 3, 0⟩, ⟨0, 7, 7⟩], [], [], [], "vl1re8.v", ["%vd, (%rs1)"], [(["rs1"], []), ([], ["vd"])], ["absl::bind_front(&::mpact::sim::riscv::VlRegister,1,1)", "&::mpact::sim::riscv::VlChild"]⟩,
  ⟨"vl1re16", [⟨29, 3, 0⟩, ⟨26, 2, 0⟩, ⟨25, 1, 1⟩, ⟨20, 5, 8⟩, ⟨12, 3, 5⟩, ⟨0, 7, 7⟩], [], [], [], "vl1re16.v", ["%vd, (%rs1)"], [(["rs1"], []), ([], ["vd"])], ["absl::bind_front(&::mpact::sim::riscv::VlRegister,1,2)", "&::mpact::sim::riscv::VlChild"]⟩,
  ⟨"vl1re32", [⟨29, 3, 0⟩, ⟨26, 2, 0⟩, ⟨25, 1, 1⟩, ⟨20, 5, 8⟩, ⟨12, 3, 6⟩, ⟨0, 7, 7⟩], [], [], [], "vl1re32.v", ["%vd, (%rs1)"], [(["rs1"], []), ([], ["vd"])], ["absl::bind_front(&::mpact::sim::riscv::VlRegister,1,4)", "&::mpact::sim::riscv::VlChild"]⟩,
  ⟨"vl2re8", [⟨29, 3, 1⟩, ⟨26, 2, 0⟩, ⟨25, 1, 1⟩, ⟨20, 5, 8⟩, ⟨12, 3, 0⟩, ⟨0, 7, 7⟩], [], [], [], "vl2re8.v", ["%vd, (%rs1)"], [(["rs1"], []), ([], ["vd"])], ["absl::bind_front(&::mpact::sim::riscv::VlRegister,2,1)", "&::mpact::sim::riscv::VlChild"]⟩,
  ⟨"vl2re16", [⟨29, 3, 1⟩, ⟨26, 2, 0⟩, ⟨25, 1, 1⟩, ⟨20, 5, 8⟩, ⟨12, 3, 5⟩, ⟨0, 7, 7⟩], [], [], [], "vl2re16.v", ["%vd, (%rs1)"], [(["rs1"], []), ([], ["vd"])], ["absl::bind_front(&::mpact::sim::riscv::VlRegister,2,2)", "&::mpact::sim::riscv::VlChild"]⟩,
  ⟨"vl2re32", [⟨29, 3, 1⟩, ⟨26, 2, 0⟩, ⟨25, 1, 1⟩, ⟨20, 5, 8⟩, ⟨12, 3, 6⟩, ⟨0, 7, 7⟩], [], [], [], "vl2re32.v", ["%vd, (%rs1)"], [(["rs1"], []), ([], ["vd"])], ["absl::bind_front(&::mpact::sim::riscv::VlRegister,2,4)", "&::mpact::sim::riscv::VlChild"]⟩,
  ⟨"vl4re8", [⟨29, 3, 3⟩, ⟨26, 2, 0⟩, ⟨25, 1, 1⟩, ⟨20, 5, 8⟩, ⟨12, 3, 0⟩, ⟨0, 7, 7⟩], [], [], [], "vl4re8.v", ["%vd, (%rs1)"], [(["rs1"], []), ([], ["vd"])], ["absl::bind_front(&::mpact::sim::riscv::VlRegister,4,1)", "&::mpact::sim::riscv::VlChild"]⟩,
  ⟨"vl4re16", [⟨29, 3, 3⟩, ⟨26, 2, 0⟩, ⟨25, 1, 1⟩, ⟨20, 5, 8⟩, ⟨12, 3, 5⟩, ⟨0, 7, 7⟩], [], [], [], "vl4re16.v", ["%vd, (%rs1)"], [(["rs1"], []), ([], ["vd"])], ["absl::bind_front(&::mpact::sim::riscv::VlRegister,4,2)", "&::mpact::sim::riscv::VlChild"]⟩,
  ⟨"vl4re32", [⟨29, 3, 3⟩, ⟨26, 2, 0⟩, ⟨25, 1, 1⟩, ⟨20, 5, 8⟩, ⟨12, 3, 6⟩, ⟨0, 7, 7⟩], [], [], [], "vl4re32.v", ["%vd, (%rs1)"], [(["rs1"], []), ([], ["vd"])], ["absl::bind_front(&::mpact::sim::riscv::VlRegister,4,4)", "&::mpact::sim::riscv::VlChild"]⟩,
  ⟨"vl8re8", [⟨29, 3, 7⟩, ⟨26, 2, 0⟩, ⟨25, 1, 1⟩, ⟨20, 5, 8⟩, ⟨12, 3, 0⟩, ⟨0, 7, 7⟩], [], [], [], "vl8re8.v", ["%vd, (%rs1)"], [(["rs1"], []), ([], ["vd"])], ["absl::bind_front(&::mpact::sim::riscv::VlRegister,8,1)", "&::mpact::sim::riscv::VlChild"]⟩,
  ⟨"vl8re16", [⟨29, 3, 7⟩, ⟨26, 2, 0⟩, ⟨25, 1, 1⟩, ⟨20, 5, 8⟩, ⟨12, 3, 5⟩, ⟨0, 7, 7⟩], [], [], [], "vl8re16.v", ["%vd, (%rs1)"], [(["rs1"], []), ([], ["vd"])], ["absl::bind_front(&::mpact::sim::riscv::VlRegister,8,2)", "&::mpact::sim::riscv::VlChild"]⟩,
  ⟨"vl8re32", [⟨29, 3, 7⟩, ⟨26, 2, 0⟩, ⟨25, 1, 1⟩, ⟨20, 5, 8⟩, ⟨12, 3, 6⟩, ⟨0, 7, 7⟩], [], [], [], "vl8re32.v", ["%vd, (%rs1)"], [(["rs1"], []), ([], ["vd"])], ["absl::bind_front(&::mpact::sim::riscv::VlRegister,8,4)", "&::mpact::sim::riscv::VlChild"]⟩,
  ⟨"vlse8", [⟨29, 3, 0⟩, ⟨28, 1, 0⟩, ⟨26, 2, 2⟩, ⟨12, 3, 0⟩, ⟨0, 7, 7⟩], [], [], [], "vlse8.v", ["%vd, (%rs1), %rs2, %vmask"], [(["rs1", "rs2", "vmask"], []), ([], ["vd"])], ["absl::bind_front(&::mpact::sim::riscv::VlStrided,1)", "&::mpact::sim::riscv::VlChild"]⟩,
  ⟨"vlse16", [⟨29, 3, 0⟩, ⟨28, 1, 0⟩, ⟨26, 2, 2⟩, ⟨12, 3, 5⟩, ⟨0, 7, 7⟩], [], [], [], "vlse16.v", ["%vd, (%rs1), %rs2, %vmask"], [(["rs1", "rs2", "vmask"], []), ([], ["vd"])], ["absl::bind_front(&::mpact::sim::riscv::VlStrided,2)", "&::mpact::sim::riscv::VlChild"]⟩,
  ⟨"vlse32", [⟨29, 3, 0⟩, ⟨28, 1, 0⟩, ⟨26, 2, 2⟩, ⟨12, 3, 6⟩, ⟨0, 7, 7⟩], [], [], [], "vlse32.v", ["%vd, (%rs1), %rs2, %vmask"], [(["rs1", "rs2", "vmask"], []), ([], ["vd"])], ["absl::bind_front(&::mpact::sim::riscv::VlStrided,4)", "&::mpact::sim::riscv::VlChild"]⟩,
  ⟨"vluxei8", [⟨29, 3, 0⟩, ⟨28, 1, 0⟩, ⟨26, 2, 1⟩, ⟨12, 3, 0⟩, ⟨0, 7, 7⟩], [], [], [], "vluxei8.v", ["%vd, (%rs1), %vs2, %vmask"], [(["rs1", "vs2", "vmask"], []), ([], ["vd"])], ["absl::bind_front(&::mpact::sim::riscv::VlIndexed,1)", "&::mpact::sim::riscv::VlChild"]⟩,
  ⟨"vluxei16", [⟨29, 3, 0⟩, ⟨28, 1, 0⟩, ⟨26, 2, 1⟩, ⟨12, 3, 5⟩, ⟨0, 7, 7⟩], [], [], [], "vluxei16.v", ["%vd, (%rs1), %vs2, %vmask"], [(["rs1", "vs2", "vmask"], []), ([], ["vd"])], ["absl::bind_front(&::mpact::sim::riscv::VlIndexed,2)", "&::mpact::sim::riscv::VlChild"]⟩,
  ⟨"vluxei32", [⟨29, 3, 0⟩, ⟨28, 1, 0⟩, ⟨26, 2, 1⟩, ⟨12, 3, 6⟩, ⟨0, 7, 7⟩], [], [], [], "vluxei32.v", ["%vd, (%rs1), %vs2, %vmask"], [(["rs1", "vs2", "vmask"], []), ([], ["vd"])], ["absl::bind_front(&::mpact::sim::riscv::VlIndexed,4)", "&::mpact::sim::riscv::VlChild"]⟩,
  ⟨"vloxei8", [⟨29, 3, 0⟩, ⟨28, 1, 0⟩, ⟨26, 2, 3⟩, ⟨12, 3, 0⟩, ⟨0, 7, 7⟩], [], [], [], "vloxei8.v", ["%vd, (%rs1), %vs2, %vmask"], [(["rs1", "vs2", "vmask"], []), ([], ["vd"])], ["absl::bind_front(&::mpact::sim::riscv::VlIndexed,1)", "&::mpact::sim::riscv::VlChild"]⟩,
  ⟨"vloxei16", [⟨29, 3, 0⟩, ⟨28, 1, 0⟩, ⟨26, 2, 3⟩, ⟨12, 3, 5⟩, ⟨0, 7, 7⟩], [], [], [], "vloxei16.v", ["%vd, (%rs1), %vs2, %vmask"], [(["rs1", "vs2", "vmask"], []), ([], ["vd"])], ["absl::bind_front(&::mpact::sim::riscv::VlIndexed,2)", "&::mpact::sim::riscv::VlChild"]⟩,
  ⟨"vloxei32", [⟨29, 3, 0⟩, ⟨28, 1, 0⟩, ⟨26, 2, 3⟩, ⟨12, 3, 6⟩, ⟨0, 7, 7⟩], [], [], [], "vloxei32.v", ["%vd, (%rs1), %vs2, %vmask"], [(["rs1", "vs2", "vmask"], []), ([], ["vd"])], ["absl::bind_front(&::mpact::sim::riscv::VlIndexed,4)", "&::mpact::sim::riscv::VlChild"]⟩,
  ⟨"vlsege8", [⟨28, 1, 0⟩, ⟨26, 2, 0⟩, ⟨20, 5, 0⟩, ⟨12, 3, 0⟩, ⟨0, 7, 7⟩], [⟨29, 3, 0⟩], [], [], "vlseg%nf\\\\e.v", ["%vd, (%rs1), %vmask"], [(["rs1", "vmask", "nf"], []), (["nf"], ["vd"])], ["absl::bind_front(&::mpact::sim::riscv::VlSegment,1)", "absl::bind_front(&::mpact::sim::riscv::VlSegmentChild,1)"]⟩,
  ⟨"vlsege16", [⟨28, 1, 0⟩, ⟨26, 2, 0⟩, ⟨20, 5, 0⟩, ⟨12, 3, 5⟩, ⟨0, 7, 7⟩], [⟨29, 3, 0⟩], [], [], "vlseg%nf\\\\e.v", ["%vd, (%rs1), %vmask"], [(["rs1", "vmask", "nf"], []), (["nf"], ["vd"])], ["absl::bind_front(&::mpact::sim::riscv::VlSegment,2)", "absl::bind_front(&::mpact::sim::riscv::VlSegmentChild,2)"]⟩,
  ⟨"vlsege32", [⟨28, 1, 0⟩, ⟨26, 2, 0⟩, ⟨20, 5, 0⟩, ⟨12, 3, 6⟩, ⟨0, 7, 7⟩], [⟨29, 3, 0⟩], [], [], "vlseg%nf\\\\e.v", ["%vd, (%rs1), %vmask"], [(["rs1", "vmask", "nf"], []), (["nf"], ["vd"])], ["absl::bind_front(&::mpact::sim::riscv::VlSegment,4)", "absl::bind_front(&::mpact::sim::riscv::VlSegmentChild,4)"]⟩,
  ⟨"vlssege8", [⟨28, 1, 0⟩, ⟨26, 2, 2⟩, ⟨12, 3, 0⟩, ⟨0, 7, 7⟩], [⟨29, 3, 0⟩], [], [], "vlsseg%nf\\\\e8.v", ["%vd, (%rs1), %rs2, %vmask"], [(["rs1", "rs2", "vmask", "nf"], []), (["nf"], ["vd"])], ["absl::bind_front(&::mpact::sim::riscv::VlSegmentStrided,1)", "absl::bind_front(&::mpact::sim::riscv::VlSegmentChild,1)"]⟩,
  ⟨"vlssege16", [⟨28, 1, 0⟩, ⟨26, 2, 2⟩, ⟨12, 3, 5⟩, ⟨0, 7, 7⟩], [⟨29, 3, 0⟩], [], [], "vlsseg%nf\\\\e16.v", ["%vd, (%rs1), %rs2, %vmask"], [(["rs1", "rs2", "vmask", "nf"], []), (["nf"], ["vd"])], ["absl::bind_front(&::mpact::sim::riscv::VlSegmentStrided,2)", "absl::bind_front(&::mpact::sim::riscv::VlSegmentChild,2)"]⟩,
  ⟨"vlssege32", [⟨28, 1, 0⟩, ⟨26, 2, 2⟩, ⟨12, 3, 6⟩, ⟨0, 7, 7⟩], [⟨29, 3, 0⟩], [], [], "vlsseg%nf\\\\e32.v", ["%vd, (%rs1), %rs2, %vmask"], [(["rs1", "rs2", "vmask", "nf"], []), (["nf"], ["vd"])], ["absl::bind_front(&::mpact::sim::riscv::VlSegmentStrided,4)", "absl::bind_front(&::mpact::sim::riscv::VlSegmentChild,4)"]⟩,
  ⟨"vluxsegei8", [⟨28, 1, 0⟩, ⟨26, 2, 1⟩, ⟨12, 3, 0⟩, ⟨0, 7, 7⟩], [⟨29, 3, 0⟩], [], [], "vluxseg%nf\\\\ei1.v", ["%vd, (%rs1), %vs2, %vmask"], [(["rs1", "vs2", "vmask", "nf"], []), (["nf"], ["vd"])], ["absl::bind_front(&::mpact::sim::riscv::VlSegmentIndexed,1)", "absl::bind_front(&::mpact::sim::riscv::VlSegmentChild,1)"]⟩,
  ⟨"vluxsegei16", [⟨28, 1, 0⟩, ⟨26, 2, 1⟩, ⟨12, 3, 5⟩, ⟨0, 7, 7⟩], [⟨29, 3, 0⟩], [], [], "vluxseg%nf\\\\ei2.v", ["%vd, (%rs1), %vs2, %vmask"], [(["rs1", "vs2", "vmask", "nf"], []), (["nf"], ["vd"])], ["absl::bind_front(&::mpact::sim::riscv::VlSegmentIndexed,2)", "absl::bind_front(&::mpact::sim::riscv::VlSegmentChild,2)"]⟩,
  ⟨"vluxsegei32", [⟨28, 1, 0⟩, ⟨26, 2, 1⟩, ⟨12, 3, 6⟩, ⟨0, 7, 7⟩], [⟨29, 3, 0⟩], [], [], "vluxseg%nf\\\\ei4.v", ["%vd, (%rs1), %vs2, %vmask"], [(["rs1", "vs2", "vmask", "nf"], []), (["nf"], ["vd"])], ["absl::bind_front(&::mpact::sim::riscv::VlSegmentIndexed,4)", "absl::bind_front(&::mpact::sim::riscv::VlSegmentChild,4)"]⟩,
  ⟨"vloxsegei8", [⟨28, 1, 0⟩, ⟨26, 2, 3⟩, ⟨12, 3, 0⟩, ⟨0, 7, 7⟩], [⟨29, 3, 0⟩], [], [], "vluxseg%nf\\\\ei1.v", ["%vd, (%rs1), %vs2, %vmask"], [(["rs1", "vs2", "vmask", "nf"], []), (["nf"], ["vd"])], ["absl::bind_front(&::mpact::sim::riscv::VlSegmentIndexed,1)", "absl::bind_front(&::mpact::sim::riscv::VlSegmentChild,1)"]⟩,
  ⟨"vloxsegei16", [⟨28, 1, 0⟩, ⟨26, 2, 3⟩, ⟨12, 3, 5⟩, ⟨0, 7, 7⟩], [⟨29, 3, 0⟩], [], [], "vluxseg%nf\\\\ei2.v", ["%vd, (%rs1), %vs2, %vmask"], [(["rs1", "vs2", "vmask", "nf"], []), (["nf"], ["vd"])], ["absl::bind_front(&::mpact::sim::riscv::VlSegmentIndexed,2)", "absl::bind_front(&::mpact::sim::riscv::VlSegmentChild,2)"]⟩,
  ⟨"vloxsegei32", [⟨28, 1, 0⟩, ⟨26, 2, 3⟩, ⟨12, 3, 6⟩, ⟨0, 7, 7⟩], [⟨29, 3, 0⟩], [], [], "vluxseg%nf\\\\ei4.v", ["%vd, (%rs1), %vs2, %vmask"], [(["rs1", "vs2", "vmask", "nf"], []), (["nf"], ["vd"])], ["absl::bind_front(&::mpact::sim::riscv::VlSegmentIndexed,4)", "absl::bind_front(&::mpact::sim::riscv::VlSegmentChild,4)"]⟩]

def riscVZve32xInst32_1 : List Row := [
  ⟨"vse8", [⟨29, 3, 0⟩, ⟨28, 1, 0⟩, ⟨26, 2, 0⟩, ⟨20, 5, 0⟩, ⟨12, 3, 0⟩, ⟨0, 7, 39⟩], [], [], [], "vse8.v", ["%vs3, (%rs1), %vmask"], [(["vs3", "rs1", "const1", "vmask"], [])], ["absl::bind_front(&::mpact::sim::riscv::VsStrided,1)"]⟩,
  ⟨"vse16", [⟨29, 3, 0⟩, ⟨28, 1, 0⟩, ⟨26, 2, 0⟩, ⟨20, 5, 0⟩, ⟨12, 3, 5⟩, ⟨0, 7, 39⟩], [], [], [], "vse16.v", ["%vs3, (%rs1), %vmask"], [(["vs3", "rs1", "const2", "vmask"], [])], ["absl::bind_front(&::mpact::sim::riscv::VsStrided,2)"]⟩,
  ⟨"vse32", [⟨29, 3, 0⟩, ⟨28, 1, 0⟩, ⟨26, 2, 0⟩, ⟨20, 5, 0⟩, ⟨12, 3, 6⟩, ⟨0, 7, 39⟩], [], [], [], "vse32.v", ["%vs3, (%rs1), %vmask"], [(["vs3", "rs1", "const4", "vmask"], [])], ["absl::bind_front(&::mpact::sim::riscv::VsStrided,4)"]⟩,
  ⟨"vsm", [⟨29, 3, 0⟩, ⟨28, 1, 0⟩, ⟨26, 2, 0⟩, ⟨20, 5, 11⟩, ⟨12, 3, 0⟩, ⟨0, 7, 39⟩], [], [], [], "vsm", [], [(["vs3", "rs1", "const1", "vmask_true"], [])], ["absl::bind_front(&::mpact::sim::riscv::Vsm)"]⟩,
  ⟨"vse8ff", [⟨29, 3, 0⟩, ⟨28, 1, 0⟩, ⟨26, 2, 0⟩, ⟨20, 5, 16⟩, ⟨12, 3, 0⟩, ⟨0, 7, 39⟩], [], [], [], "vse8ff.v", ["%vs3, (%rs1), %vmask"], [(["vs3", "rs1", "const1", "vmask"], [])], ["absl::bind_front(&::mpact::sim::riscv::VsStrided,1)"]⟩,
  ⟨"vse16ff", [⟨29, 3, 0⟩, ⟨28, 1, 0⟩, ⟨26, 2, 0⟩, ⟨20, 5, 16⟩, ⟨12, 3, 5⟩, ⟨0, 7, 39⟩], [], [], [], "vse16ff.v", ["%vs3, (%rs1), %vmask"], [(["vs3", "rs1", "const2", "vmask"], [])], ["absl::bind_front(&::mpact::sim::riscv::VsStrided,2)"]⟩,
  ⟨"vse32ff", [⟨29, 3, 0⟩, ⟨28, 1, 0⟩, ⟨26, 2, 0⟩, ⟨20, 5, 16⟩, ⟨12, 3, 6⟩, ⟨0, 7, 39⟩], [], [], [], "vse32ff.v", ["%vs3, (%rs1), %vmask"], [(["vs3", "rs1", "const4", "vmask"], [])], ["absl::bind_front(&::mpact::sim::riscv::VsStrided,4)"]⟩,
  ⟨"vs1re8", [⟨29, 3, 0⟩, ⟨26, 2, 0⟩, ⟨25, 1, 1⟩, ⟨20, 5, 8⟩, ⟨12, 3, 0⟩, ⟨0, 7, 39⟩], [], [], [], "vs1re8.v", ["%vs3, (%rs1)"], [(["vs3", "rs1"], [])], ["absl::bind_front(&::mpact::sim::riscv::VsRegister,1)"]⟩,
  ⟨"vs1re16", [⟨29, 3, 0⟩, ⟨26, 2, 0⟩, ⟨25, 1, 1⟩, ⟨20, 5, 8⟩, ⟨12, 3, 5⟩, ⟨0, 7, 39⟩], [], [], [], "vs1re16.v", ["%vs3, (%rs1)"], [(["vs3", "rs1"], [])], ["absl::bind_front(&::mpact::sim::riscv::VsRegister,1)"]⟩,
  ⟨"vs1re32", [⟨29, 3, 0⟩, ⟨26, 2, 0⟩, ⟨25, 1, 1⟩, ⟨20, 5, 8⟩, ⟨12, 3, 6⟩, ⟨0, 7, 39⟩], [], [], [], "vs1re32.v", ["%vs3, (%rs1)"], [(["vs3", "rs1"], [])], ["absl::bind_front(&::mpact::sim::riscv::VsRegister,1)"]⟩,
  ⟨"vs2re8", [⟨29, 3, 1⟩, ⟨26, 2, 0⟩, ⟨25, 1, 1⟩, ⟨20, 5, 8⟩, ⟨12, 3, 0⟩, ⟨0, 7, 39⟩], [], [], [], "vs2re8.v", ["%vs3, (%rs1)"], [(["vs3", "rs1"], [])], ["absl::bind_front(&::mpact::sim::riscv::VsRegister,2)"]⟩,
  ⟨"vs2re16", [⟨29, 3, 1⟩, ⟨26, 2, 0⟩, ⟨25, 1, 1⟩, ⟨20, 5, 8⟩, ⟨12, 3, 5⟩, ⟨0, 7, 39⟩], [], [], [], "vs2re16.v", ["%vs3, (%rs1)"], [(["vs3", "rs1"], [])], ["absl::bind_front(&::mpact::sim::riscv::VsRegister,2)"]⟩,
  ⟨"vs2re32", [⟨29, 3, 1⟩, ⟨26, 2, 0⟩, ⟨25, 1, 1⟩, ⟨20, 5, 8⟩, ⟨12, 3, 6⟩, ⟨0, 7, 39⟩], [], [], [], "vs2re32.v", ["%vs3, (%rs1)"], [(["vs3", "rs1"], [])], ["absl::bind_front(&::mpact::sim::riscv::VsRegister,2)"]⟩,
  ⟨"vs4re8", [⟨29, 3, 3⟩, ⟨26, 2, 0⟩, ⟨25, 1, 1⟩, ⟨20, 5, 8⟩, ⟨12, 3, 0⟩, ⟨0, 7, 39⟩], [], [], [], "vs4re8.v", ["%vs3, (%rs1)"], [(["vs3", "rs1"], [])], ["absl::bind_front(&::mpact::sim::riscv::VsRegister,4)"]⟩,
  ⟨"vs4re16", [⟨29, 3, 3⟩, ⟨26, 2, 0⟩, ⟨25, 1, 1⟩, ⟨20, 5, 8⟩, ⟨12, 3, 5⟩, ⟨0, 7, 39⟩], [], [], [], "vs4re16.v", ["%vs3, (%rs1)"], [(["vs3", "rs1"], [])], ["absl::bind_front(&::mpact::sim::riscv::VsRegister,4)"]⟩,
  ⟨"vs4re32", [⟨29, 3, 3⟩, ⟨26, 2, 0⟩, ⟨25, 1, 1⟩, ⟨20, 5, 8⟩, ⟨12, 3, 6⟩, ⟨0, 7, 39⟩], [], [], [], "vs4re32.v", ["%vs3, (%rs1)"], [(["vs3", "rs1"], [])], ["absl::bind_front(&::mpact::sim::riscv::VsRegister,4)"]⟩,
  ⟨"vs8re8", [⟨29, 3, 7⟩, ⟨26, 2, 0⟩, ⟨25, 1, 1⟩, ⟨20, 5, 8⟩, ⟨12, 3, 0⟩, ⟨0, 7, 39⟩], [], [], [], "vs8re8.v", ["%vs3, (%rs1)"], [(["vs3", "rs1"], [])], ["absl::bind_front(&::mpact::sim::riscv::VsRegister,8)"]⟩,
  ⟨"vs8re16", [⟨29, 3, 7⟩, ⟨26, 2, 0⟩, ⟨25, 1, 1⟩, ⟨20, 5, 8⟩, ⟨12, 3, 5⟩, ⟨0, 7, 39⟩], [], [], [], "vs8re16.v", ["%vs3, (%rs1)"], [(["vs3", "rs1"], [])], ["absl::bind_front(&::mpact::sim::riscv::VsRegister,8)"]⟩,
  ⟨"vs8re32", [⟨29, 3, 7⟩, ⟨26, 2, 0⟩, ⟨25, 1, 1⟩, ⟨20, 5, 8⟩, ⟨12, 3, 6⟩, ⟨0, 7, 39⟩], [], [], [], "vs8re32.v", ["%vs3, (%rs1)"], [(["vs3", "rs1"], [])], ["absl::bind_front(&::mpact::sim::riscv::VsRegister,8)"]⟩,
  ⟨"vsse8", [⟨29, 3, 0⟩, ⟨28, 1, 0⟩, ⟨26, 2, 2⟩, ⟨12, 3, 0⟩, ⟨0, 7, 39⟩], [], [], [], "vsse8.v", ["%vs3, (%rs1), %rs2, %vmask"], [(["vs3", "rs1", "rs2", "vmask"], [])], ["absl::bind_front(&::mpact::sim::riscv::VsStrided,1)"]⟩,
  ⟨"vsse16", [⟨29, 3, 0⟩, ⟨28, 1, 0⟩, ⟨26, 2, 2⟩, ⟨12, 3, 5⟩, ⟨0, 7, 39⟩], [], [], [], "vsse16.v", ["%vs3, (%rs1), %rs2, %vmask"], [(["vs3", "rs1", "rs2", "vmask"], [])], ["absl::bind_front(&::mpact::sim::riscv::VsStrided,2)"]⟩,
  ⟨"vsse32", [⟨29, 3, 0⟩, ⟨28, 1, 0⟩, ⟨26, 2, 2⟩, ⟨12, 3, 6⟩, ⟨0, 7, 39⟩], [], [], [], "vsse32.v", ["%vs3, (%rs1), %rs2, %vmask"], [(["vs3", "rs1", "rs2", "vmask"], [])], ["absl::bind_front(&::mpact::sim::riscv::VsStrided,4)"]⟩,
  ⟨"vsuxei8", [⟨29, 3, 0⟩, ⟨28, 1, 0⟩, ⟨26, 2, 1⟩, ⟨12, 3, 0⟩, ⟨0, 7, 39⟩], [], [], [], "vsuxei8", ["%vs3, (%rs1), %vs2, %vmask"], [(["vs3", "rs1", "vs2", "vmask"], [])], ["absl::bind_front(&::mpact::sim::riscv::VsIndexed,1)"]⟩,
  ⟨"vsuxei16", [⟨29, 3, 0⟩, ⟨28, 1, 0⟩, ⟨26, 2, 1⟩, ⟨12, 3, 5⟩, ⟨0, 7, 39⟩], [], [], [], "vsuxei16", ["%vs3, (%rs1), %vs2, %vmask"], [(["vs3", "rs1", "vs2", "vmask"], [])], ["absl::bind_front(&::mpact::sim::riscv::VsIndexed,2)"]⟩,
  ⟨"vsuxei32", [⟨29, 3, 0⟩, ⟨28, 1, 0⟩, ⟨26, 2, 1⟩, ⟨12, 3, 6⟩, ⟨0, 7, 39⟩], [], [], [], "vsuxei32", ["%vs3, (%rs1), %vs2, %vmask"], [(["vs3", "rs1", "vs2", "vmask"], [])], ["absl::bind_front(&::mpact::sim::riscv::VsIndexed,4)"]⟩,
  ⟨"vsoxei8", [⟨29, 3, 0⟩, ⟨28, 1, 0⟩, ⟨26, 2, 3⟩, ⟨12, 3, 0⟩, ⟨0, 7, 39⟩], [], [], [], "vsoxei8", ["%vs3, (%rs1), %vs2, %vmask"], [(["vs3", "rs1", "vs2", "vmask"], [])], ["absl::bind_front(&::mpact::sim::riscv::VsIndexed,1)"]⟩,
  ⟨"vsoxei16", [⟨29, 3, 0⟩, ⟨28, 1, 0⟩, ⟨26, 2, 3⟩, ⟨12, 3, 5⟩, ⟨0, 7, 39⟩], [], [], [], "vsoxei16", ["%vs3, (%rs1), %vs2, %vmask"], [(["vs3", "rs1", "vs2", "vmask"], [])], ["absl::bind_front(&::mpact::sim::riscv::VsIndexed,2)"]⟩,
  ⟨"vsoxei32", [⟨29, 3, 0⟩, ⟨28, 1, 0⟩, ⟨26, 2, 3⟩, ⟨12, 3, 6⟩, ⟨0, 7, 39⟩], [], [], [], "vsoxei32", ["%vs3, (%rs1), %vs2, %vmask"], [(["vs3", "rs1", "vs2", "vmask"], [])], ["absl::bind_front(&::mpact::sim::riscv::VsIndexed,4)"]⟩,
  ⟨"vssege8", [⟨28, 1, 0⟩, ⟨26, 2, 0⟩, ⟨20, 5, 0⟩, ⟨12, 3, 0⟩, ⟨0, 7, 39⟩], [⟨29, 3, 0⟩], [], [], "vsseg%nf\\\\e.v", ["%vs3, (%rs1), %vmask"], [(["vs3", "rs1", "vmask", "nf"], [])], ["absl::bind_front(&::mpact::sim::riscv::VsSegment,1)"]⟩,
  ⟨"vssege16", [⟨28, 1, 0⟩, ⟨26, 2, 0⟩, ⟨20, 5, 0⟩, ⟨12, 3, 5⟩, ⟨0, 7, 39⟩], [⟨29, 3, 0⟩], [], [], "vsseg%nf\\\\e.v", ["%vs3, (%rs1), %vmask"], [(["vs3", "rs1", "vmask", "nf"], [])], ["absl::bind_front(&::mpact::sim::riscv::VsSegment,2)"]⟩,
  ⟨"vssege32", [⟨28, 1, 0⟩, ⟨26, 2, 0⟩, ⟨20, 5, 0⟩, ⟨12, 3, 6⟩, ⟨0, 7, 39⟩], [⟨29, 3, 0⟩], [], [], "vsseg%nf\\\\e.v", ["%vs3, (%rs1), %vmask"], [(["vs3", "rs1", "vmask", "nf"], [])], ["absl::bind_front(&::mpact::sim::riscv::VsSegment,4)"]⟩,
  ⟨"vsssege8", [⟨28, 1, 0⟩, ⟨26, 2, 2⟩, ⟨12, 3, 0⟩, ⟨0, 7, 39⟩], [⟨29, 3, 0⟩], [], [], "vssseg%nf\\\\e8.v", ["%vs3, (%rs1), %rs2, %vmask"], [(["vs3", "rs1", "rs2", "vmask", "nf"], [])], ["absl::bind_front(&::mpact::sim::riscv::VsSegmentStrided,1)"]⟩,
  ⟨"vsssege16", [⟨28, 1, 0⟩, ⟨26, 2, 2⟩, ⟨12, 3, 5⟩, ⟨0, 7, 39⟩], [⟨29, 3, 0⟩], [], [], "vssseg%nf\\\\e16.v", ["%vs3, (%rs1), %rs2, %vmask"], [(["vs3", "rs1", "rs2", "vmask", "nf"], [])], ["absl::bind_front(&::mpact::sim::riscv::VsSegmentStrided,2)"]⟩,
  ⟨"vsssege32", [⟨28, 1, 0⟩, ⟨26, 2, 2⟩, ⟨12, 3, 6⟩, ⟨0, 7, 39⟩], [⟨29, 3, 0⟩], [], [], "vssseg%nf\\\\e32.v", ["%vs3, (%rs1), %rs2, %vmask"], [(["vs3", "rs1", "rs2", "vmask", "nf"], [])], ["absl::bind_front(&::mpact::sim::riscv::VsSegmentStrided,4)"]⟩,
  ⟨"vsuxsegei8", [⟨28, 1, 0⟩, ⟨26, 2, 1⟩, ⟨12, 3, 0⟩, ⟨0, 7, 39⟩], [⟨29, 3, 0⟩], [], [], "vsuxseg%nf\\\\ei1.v", ["%vs3, (%rs1), %vs2, %vmask"], [(["vs3", "rs1", "vs2", "vmask", "nf"], [])], ["absl::bind_front(&::mpact::sim::riscv::VsSegmentStrided,1)"]⟩,
  ⟨"vsuxsegei16", [⟨28, 1, 0⟩, ⟨26, 2, 1⟩, ⟨12, 3, 5⟩, ⟨0, 7, 39⟩], [⟨29, 3, 0⟩], [], [], "vsuxseg%nf\\\\ei2.v", ["%vs3, (%rs1), %vs2, %vmask"], [(["vs3", "rs1", "vs2", "vmask", "nf"], [])], ["absl::bind_front(&::mpact::sim::riscv::VsSegmentStrided,2)"]⟩,
  ⟨"vsuxsegei32", [⟨28, 1, 0⟩, ⟨26, 2, 1⟩, ⟨12, 3, 6⟩, ⟨0, 7, 39⟩], [⟨29, 3, 0⟩], [], [], "vsuxseg%nf\\\\ei4.v", ["%vs3, (%rs1), %vs2, %vmask"], [(["vs3", "rs1", "vs2", "vmask", "nf"], [])], ["absl::bind_front(&::mpact::sim::riscv::VsSegmentStrided,4)"]⟩,
  ⟨"vsoxsegei8", [⟨28, 1, 0⟩, ⟨26, 2, 3⟩, ⟨12, 3, 0⟩, ⟨0, 7, 39⟩], [⟨29, 3, 0⟩], [], [], "vsuxseg%nf\\\\ei1.v", ["%vs3, (%rs1), %vs2, %vmask"], [(["vs3", "rs1", "vs2", "vmask", "nf"], [])], ["absl::bind_front(&::mpact::sim::riscv::VsSegmentIndexed,1)"]⟩,
  ⟨"vsoxsegei16", [⟨28, 1, 0⟩, ⟨26, 2, 3⟩, ⟨12, 3, 5⟩, ⟨0, 7, 39⟩], [⟨29, 3, 0⟩], [], [], "vsuxseg%nf\\\\ei2.v", ["%vs3, (%rs1), %vs2, %vmask"], [(["vs3", "rs1", "vs2", "vmask", "nf"], [])], ["absl::bind_front(&::mpact::sim::riscv::VsSegmentIndexed,2)"]⟩,
  ⟨"vsoxsegei32", [⟨28, 1, 0⟩, ⟨26, 2, 3⟩, ⟨12, 3, 6⟩, ⟨0, 7, 39⟩], [⟨29, 3, 0⟩], [], [], "vsuxseg%nf\\\\ei4.v", ["%vs3, (%rs1), %vs2, %vmask"], [(["vs3", "rs1", "vs2", "vmask", "nf"], [])], ["absl::bind_front(&::mpact::sim::riscv::VsSegmentIndexed,4)"]⟩,
  ⟨"vadd_vv", [⟨26, 6, 0⟩, ⟨12, 3, 0⟩, ⟨0, 7, 87⟩], [], [], [], "vadd.vv", ["%vd, %vs2, %vs1, %vmask"], [(["vs2", "vs1", "vmask"], ["vd"])], ["&::mpact::sim::riscv::Vadd"]⟩,
  ⟨"vadd_vx", [⟨26, 6, 0⟩, ⟨12, 3, 4⟩, ⟨0, 7, 87⟩], [], [], [], "vadd.vx", ["%vd, %vs2, %rs1, %vmask"], [(["vs2", "rs1", "vmask"], ["vd"])], ["&::mpact::sim::riscv::Vadd"]⟩,
  ⟨"vadd_vi", [⟨26, 6, 0⟩, ⟨12, 3, 3⟩, ⟨0, 7, 87⟩], [], [], [], "vadd.vi", ["%vd, %simm5, %vmask"], [(["vs2", "simm5", "vmask"], ["vd"])], ["&::mpact::sim::riscv::Vadd"]⟩,
  ⟨"vsub_vv", [⟨26, 6, 2⟩, ⟨12, 3, 0⟩, ⟨0, 7, 87⟩], [], [], [], "vsub.vv", ["%vd, %vs2, %vs1, %vmask"], [(["vs2", "vs1", "vmask"], ["vd"])], ["&::mpact::sim::riscv::Vsub"]⟩,
  ⟨"vsub_vx", [⟨26, 6, 2⟩, ⟨12, 3, 4⟩, ⟨0, 7, 87⟩], [], [], [], "vsub.vx", ["%vd, %vs2, %rs1, %vmask"], [(["vs2", "rs1", "vmask"], ["vd"])], ["&::mpact::sim::riscv::Vsub"]⟩,
  ⟨"vrsub_vx", [⟨26, 6, 3⟩, ⟨12, 3, 4⟩, ⟨0, 7, 87⟩], [], [], [], "vrsub.vx", ["%vd, %vs2, %rs1, %vmask"], [(["vs2", "rs1", "vmask"], ["vd"])], ["&::mpact::sim::riscv::Vrsub"]⟩,
  ⟨"vrsub_vi", [⟨26, 6, 3⟩, ⟨12, 3, 3⟩, ⟨0, 7, 87⟩], [], [], [], "vrsub.vi", ["%vd, %simm5, %vmask"], [(["vs2", "simm5", "vmask", "vd"], [])], ["&::mpact::sim::riscv::Vrsub"]⟩,
  ⟨"vminu_vv", [⟨26, 6, 4⟩, ⟨12, 3, 0⟩, ⟨0, 7, 87⟩], [], [], [], "vminu.vv", ["%vd, %vs2, %vs1, %vmask"], [(["vs2", "vs1", "vmask"], ["vd"])], ["&::mpact::sim::riscv::Vminu"]⟩,
  ⟨"vminu_vx", [⟨26, 6, 4⟩, ⟨12, 3, 4⟩, ⟨0, 7, 87⟩], [], [], [], "vminu.vx", ["%vd, %vs2, %rs1, %vmask"], [(["vs2", "rs1", "vmask"], ["vd"])], ["&::mpact::sim::riscv::Vminu"]⟩,
  ⟨"vmin_vv", [⟨26, 6, 5⟩, ⟨12, 3, 0⟩, ⟨0, 7, 87⟩], [], [], [], "vmin.vv", ["%vd, %vs2, %vs1, %vmask"], [(["vs2", "vs1", "vmask"], ["vd"])], ["&::mpact::sim::riscv::Vmin"]⟩]

def riscVZve32xInst32_2 : List Row := [
  ⟨"vmin_vx", [⟨26, 6, 5⟩, ⟨12, 3, 4⟩, ⟨0, 7, 87⟩], [], [], [], "vmin.vx", ["%vd, %vs2, %rs1, %vmask"], [(["vs2", "rs1", "vmask"], ["vd"])], ["&::mpact::sim::riscv::Vmin"]⟩,
  ⟨"vmaxu_vv", [⟨26, 6, 6⟩, ⟨12, 3, 0⟩, ⟨0, 7, 87⟩], [], [], [], "vmax.vv", ["%vd, %vs2, %vs1, %vmask"], [(["vs2", "vs1", "vmask"], ["vd"])], ["&::mpact::sim::riscv::Vmaxu"]⟩,
  ⟨"vmaxu_vx", [⟨26, 6, 6⟩, ⟨12, 3, 4⟩, ⟨0, 7, 87⟩], [], [], [], "vmax.vx", ["%vd, %vs2, %rs1, %vmask"], [(["vs2", "rs1", "vmask"], ["vd"])], ["&::mpact::sim::riscv::Vmaxu"]⟩,
  ⟨"vmax_vv", [⟨26, 6, 7⟩, ⟨12, 3, 0⟩, ⟨0, 7, 87⟩], [], [], [], "vmax.vv", ["%vd, %vs2, %vs1, %vmask"], [(["vs2", "vs1", "vmask"], ["vd"])], ["&::mpact::sim::riscv::Vmax"]⟩,
  ⟨"vmax_vx", [⟨26, 6, 7⟩, ⟨12, 3, 4⟩, ⟨0, 7, 87⟩], [], [], [], "vmax.vx", ["%vd, %vs2, %rs1, %vmask"], [(["vs2", "rs1", "vmask"], ["vd"])], ["&::mpact::sim::riscv::Vmax"]⟩,
  ⟨"vand_vv", [⟨26, 6, 9⟩, ⟨12, 3, 0⟩, ⟨0, 7, 87⟩], [], [], [], "vand.vv", ["%vd, %vs2, %vs1, %vmask"], [(["vs2", "vs1", "vmask"], ["vd"])], ["&::mpact::sim::riscv::Vand"]⟩,
  ⟨"vand_vx", [⟨26, 6, 9⟩, ⟨12, 3, 4⟩, ⟨0, 7, 87⟩], [], [], [], "vand.vx", ["%vd, %vs2, %rs1, %vmask"], [(["vs2", "rs1", "vmask"], ["vd"])], ["&::mpact::sim::riscv::Vand"]⟩,
  ⟨"vand_vi", [⟨26, 6, 9⟩, ⟨12, 3, 3⟩, ⟨0, 7, 87⟩], [], [], [], "vand.vi", ["%vd, %simm5, %vmask"], [(["vs2", "simm5", "vmask"], ["vd"])], ["&::mpact::sim::riscv::Vand"]⟩,
  ⟨"vor_vv", [⟨26, 6, 10⟩, ⟨12, 3, 0⟩, ⟨0, 7, 87⟩], [], [], [], "vor.vv", ["%vd, %vs2, %vs1, %vmask"], [(["vs2", "vs1", "vmask"], ["vd"])], ["&::mpact::sim::riscv::Vor"]⟩,
  ⟨"vor_vx", [⟨26, 6, 10⟩, ⟨12, 3, 4⟩, ⟨0, 7, 87⟩], [], [], [], "vor.vx", ["%vd, %vs2, %rs1, %vmask"], [(["vs2", "rs1", "vmask"], ["vd"])], ["&::mpact::sim::riscv::Vor"]⟩,
  ⟨"vor_vi", [⟨26, 6, 10⟩, ⟨12, 3, 3⟩, ⟨0, 7, 87⟩], [], [], [], "vor.vi", ["%vd, %simm5, %vmask"], [(["vs2", "simm5", "vmask"], ["vd"])], ["&::mpact::sim::riscv::Vor"]⟩,
  ⟨"vxor_vv", [⟨26, 6, 11⟩, ⟨12, 3, 0⟩, ⟨0, 7, 87⟩], [], [], [], "vxor.vv", ["%vd, %vs2, %vs1, %vmask"], [(["vs2", "vs1", "vmask"], ["vd"])], ["&::mpact::sim::riscv::Vxor"]⟩,
  ⟨"vxor_vx", [⟨26, 6, 11⟩, ⟨12, 3, 4⟩, ⟨0, 7, 87⟩], [], [], [], "vxor.vx", ["%vd, %vs2, %rs1, %vmask"], [(["vs2", "rs1", "vmask"], ["vd"])], ["&::mpact::sim::riscv::Vxor"]⟩,
  ⟨"vxor_vi", [⟨26, 6, 11⟩, ⟨12, 3, 3⟩, ⟨0, 7, 87⟩], [], [], [], "vxor.vi", ["%vd, %simm5, %vmask"], [(["vs2", "simm5", "vmask"], ["vd"])], ["&::mpact::sim::riscv::Vxor"]⟩,
  ⟨"vrgather_vv", [⟨26, 6, 12⟩, ⟨12, 3, 0⟩, ⟨0, 7, 87⟩], [], [], [], "vrgather.vv", ["%vd, %vs2, %vs1, %vmask"], [(["vs2", "vs1", "vmask"], ["vd"])], ["&::mpact::sim::riscv::Vrgather"]⟩,
  ⟨"vrgather_vx", [⟨26, 6, 12⟩, ⟨12, 3, 4⟩, ⟨0, 7, 87⟩], [], [], [], "vrgather.vx", ["%vd, %vs2, %rs1, %vmask"], [(["vs2", "rs1", "vmask"], ["vd"])], ["&::mpact::sim::riscv::Vrgather"]⟩,
  ⟨"vrgather_vi", [⟨26, 6, 12⟩, ⟨12, 3, 3⟩, ⟨0, 7, 87⟩], [], [], [], "vrgather.vi", ["%vd, %uimm5, %vmask"], [(["vs2", "uimm5", "vmask"], ["vd"])], ["&::mpact::sim::riscv::Vrgather"]⟩,
  ⟨"vslideup_vx", [⟨26, 6, 14⟩, ⟨12, 3, 4⟩, ⟨0, 7, 87⟩], [], [], [], "vslideup.vx", ["%vd, %vs2, %rs1, %vmask"], [(["vs2", "rs1", "vmask"], ["vd"])], ["&::mpact::sim::riscv::Vslideup"]⟩,
  ⟨"vslideup_vi", [⟨26, 6, 14⟩, ⟨12, 3, 3⟩, ⟨0, 7, 87⟩], [], [], [], "vslideup.vi", ["%vd, %vs2, %uimm5, %vmask"], [(["vs2", "uimm5", "vmask"], ["vd"])], ["&::mpact::sim::riscv::Vslideup"]⟩,
  ⟨"vrgatherei16_vv", [⟨26, 6, 14⟩, ⟨12, 3, 0⟩, ⟨0, 7, 87⟩], [], [], [], "vrgatherei16.vv", ["%vd, %vs2, %vs1, %vmask"], [(["vs2", "vs1", "vmask"], ["vd"])], ["&::mpact::sim::riscv::Vrgatherei16"]⟩,
  ⟨"vslidedown_vx", [⟨26, 6, 15⟩, ⟨12, 3, 4⟩, ⟨0, 7, 87⟩], [], [], [], "vslidedown.vx", ["%vd, %vs2, %rs1, %vmask"], [(["vs2", "rs1", "vmask"], ["vd"])], ["&::mpact::sim::riscv::Vslidedown"]⟩,
  ⟨"vslidedown_vi", [⟨26, 6, 15⟩, ⟨12, 3, 3⟩, ⟨0, 7, 87⟩], [], [], [], "vslidedown.vi", ["%vd, %vs2, %uimm5, %vmask"], [(["vs2", "uimm5", "vmask"], ["vd"])], ["&::mpact::sim::riscv::Vslidedown"]⟩,
  ⟨"vadc_vv", [⟨26, 6, 16⟩, ⟨25, 1, 0⟩, ⟨12, 3, 0⟩, ⟨0, 7, 87⟩], [⟨7, 5, 0⟩], [], [], "vadc.vv", ["%vd, %vs2, %vs1, %vmask"], [(["vs2", "vs1", "vmask"], ["vd"])], ["&::mpact::sim::riscv::Vadc"]⟩,
  ⟨"vadc_vx", [⟨26, 6, 16⟩, ⟨25, 1, 0⟩, ⟨12, 3, 4⟩, ⟨0, 7, 87⟩], [⟨7, 5, 0⟩], [], [], "vadc.vx", ["%vd, %vs2, %rs1, %vmask"], [(["vs2", "rs1", "vmask"], ["vd"])], ["&::mpact::sim::riscv::Vadc"]⟩,
  ⟨"vadc_vi", [⟨26, 6, 16⟩, ⟨25, 1, 0⟩, ⟨12, 3, 3⟩, ⟨0, 7, 87⟩], [⟨7, 5, 0⟩], [], [], "vadc.vi", ["%vd, %vs2, %simm5, %vmask"], [(["vs2", "simm5", "vmask"], ["vd"])], ["&::mpact::sim::riscv::Vadc"]⟩,
  ⟨"vmadc_vv", [⟨26, 6, 17⟩, ⟨12, 3, 0⟩, ⟨0, 7, 87⟩], [], [], [], "vmadc.vv", ["%vd, %vs2, %vs1, %vmask, %vm "], [(["vs2", "vs1", "vmask", "vm"], ["vd"])], ["&::mpact::sim::riscv::Vmadc"]⟩,
  ⟨"vmadc_vx", [⟨26, 6, 17⟩, ⟨12, 3, 4⟩, ⟨0, 7, 87⟩], [], [], [], "vmadc.vx", ["%vd, %vs2, %rs1, %vmask, %vm"], [(["vs2", "rs1", "vmask", "vm"], ["vd"])], ["&::mpact::sim::riscv::Vmadc"]⟩,
  ⟨"vmadc_vi", [⟨26, 6, 17⟩, ⟨12, 3, 3⟩, ⟨0, 7, 87⟩], [], [], [], "vmadc.vi", ["%vd, %vs2, %simm5, %vmask, %vm"], [(["vs2", "simm5", "vmask", "vm"], ["vd"])], ["&::mpact::sim::riscv::Vmadc"]⟩,
  ⟨"vsbc_vv", [⟨26, 6, 18⟩, ⟨25, 1, 0⟩, ⟨12, 3, 0⟩, ⟨0, 7, 87⟩], [⟨7, 5, 0⟩], [], [], "vsbc.vv", ["%vd, %vs2, %vs1, %vmask"], [(["vs2", "vs1", "vmask"], ["vd"])], ["&::mpact::sim::riscv::Vsbc"]⟩,
  ⟨"vsbc_vx", [⟨26, 6, 18⟩, ⟨25, 1, 0⟩, ⟨12, 3, 4⟩, ⟨0, 7, 87⟩], [⟨7, 5, 0⟩], [], [], "vsbc.vx", ["%vd, %vs2, %rs1, %vmask"], [(["vs2", "rs1", "vmask"], ["vd"])], ["&::mpact::sim::riscv::Vsbc"]⟩,
  ⟨"vmsbc_vv", [⟨26, 6, 19⟩, ⟨12, 3, 0⟩, ⟨0, 7, 87⟩], [], [], [], "vmsbc.vv", ["%vd, %vs2, %vs1, %vmask, %vm"], [(["vs2", "vs1", "vmask", "vm"], ["vd"])], ["&::mpact::sim::riscv::Vmsbc"]⟩,
  ⟨"vmsbc_vx", [⟨26, 6, 19⟩, ⟨12, 3, 4⟩, ⟨0, 7, 87⟩], [], [], [], "vmsbc.vx", ["%vd, %vs2, %rs1, %vmask, %vm"], [(["vs2", "rs1", "vmask", "vm"], ["vd"])], ["&::mpact::sim::riscv::Vmsbc"]⟩,
  ⟨"vmerge_vv", [⟨26, 6, 23⟩, ⟨25, 1, 0⟩, ⟨12, 3, 0⟩, ⟨0, 7, 87⟩], [], [], [], "vmerge.vv", ["%vd, %vs2, %vs1, %vmask"], [(["vs2", "vs1", "vmask"], ["vd"])], ["&::mpact::sim::riscv::Vmerge"]⟩,
  ⟨"vmerge_vx", [⟨26, 6, 23⟩, ⟨25, 1, 0⟩, ⟨12, 3, 4⟩, ⟨0, 7, 87⟩], [], [], [], "vmerge.vx", ["%vd, %vs2, %rs1, %vmask"], [(["vs2", "rs1", "vmask"], ["vd"])], ["&::mpact::sim::riscv::Vmerge"]⟩,
  ⟨"vmerge_vi", [⟨26, 6, 23⟩, ⟨25, 1, 0⟩, ⟨12, 3, 3⟩, ⟨0, 7, 87⟩], [], [], [], "vmerge.vi", ["%vd, %vs2, %simm5, %vmask"], [(["vs2", "simm5", "vmask"], ["vd"])], ["&::mpact::sim::riscv::Vmerge"]⟩,
  ⟨"vmv_vv", [⟨26, 6, 23⟩, ⟨25, 1, 1⟩, ⟨20, 5, 0⟩, ⟨12, 3, 0⟩, ⟨0, 7, 87⟩], [], [], [], "vmv.vv", ["%vd, %vs1"], [(["vs2", "vs1", "vmask_true"], ["vd"])], ["&::mpact::sim::riscv::Vmerge"]⟩,
  ⟨"vmv_vx", [⟨26, 6, 23⟩, ⟨25, 1, 1⟩, ⟨20, 5, 0⟩, ⟨12, 3, 4⟩, ⟨0, 7, 87⟩], [], [], [], "vmv.vx", ["%vd, %rs1"], [(["vs2", "rs1", "vmask_true"], ["vd"])], ["&::mpact::sim::riscv::Vmerge"]⟩,
  ⟨"vmv_vi", [⟨26, 6, 23⟩, ⟨25, 1, 1⟩, ⟨20, 5, 0⟩, ⟨12, 3, 3⟩, ⟨0, 7, 87⟩], [], [], [], "vmv.vi", ["%vd, %simm5"], [(["vs2", "simm5", "vmask_true"], ["vd"])], ["&::mpact::sim::riscv::Vmerge"]⟩,
  ⟨"vmseq_vv", [⟨26, 6, 24⟩, ⟨12, 3, 0⟩, ⟨0, 7, 87⟩], [], [], [], "vmseq.vv", ["%vd, %vs2, %vs1, %vmask"], [(["vs2", "vs1", "vmask"], ["vd"])], ["&::mpact::sim::riscv::Vmseq"]⟩,
  ⟨"vmseq_vx", [⟨26, 6, 24⟩, ⟨12, 3, 4⟩, ⟨0, 7, 87⟩], [], [], [], "vmseq.vx", ["%vd, %vs2, %rs1, %vmask"], [(["vs2", "rs1", "vmask"], ["vd"])], ["&::mpact::sim::riscv::Vmseq"]⟩,
  ⟨"vmseq_vi", [⟨26, 6, 24⟩, ⟨12, 3, 3⟩, ⟨0, 7, 87⟩], [], [], [], "vmseq.vi", ["%vd, %vs2, %simm5, %vmask"], [(["vs2", "simm5", "vmask"], ["vd"])], ["&::mpact::sim::riscv::Vmseq"]⟩,
  ⟨"vmsne_vv", [⟨26, 6, 25⟩, ⟨12, 3, 0⟩, ⟨0, 7, 87⟩], [], [], [], "vmsne.vv", ["%vd, %vs2, %vs1, %vmask"], [(["vs2", "vs1", "vmask"], ["vd"])], ["&::mpact::sim::riscv::Vmsne"]⟩,
  ⟨"vmsne_vx", [⟨26, 6, 25⟩, ⟨12, 3, 4⟩, ⟨0, 7, 87⟩], [], [], [], "vmsne.vx", ["%vd, %vs2, %rs1, %vmask"], [(["vs2", "rs1", "vmask"], ["vd"])], ["&::mpact::sim::riscv::Vmsne"]⟩,
  ⟨"vmsne_vi", [⟨26, 6, 25⟩, ⟨12, 3, 3⟩, ⟨0, 7, 87⟩], [], [], [], "vmsne.vi", ["%vd, %vs2, %simm5, %vmask"], [(["vs2", "simm5", "vmask"], ["vd"])], ["&::mpact::sim::riscv::Vmsne"]⟩,
  ⟨"vmsltu_vv", [⟨26, 6, 26⟩, ⟨12, 3, 0⟩, ⟨0, 7, 87⟩], [], [], [], "vmsltu.vv", ["%vd, %vs2, %vs1, %vmask"], [(["vs2", "vs1", "vmask"], ["vd"])], ["&::mpact::sim::riscv::Vmsltu"]⟩,
  ⟨"vmsltu_vx", [⟨26, 6, 26⟩, ⟨12, 3, 4⟩, ⟨0, 7, 87⟩], [], [], [], "vmsltu.vx", ["%vd, %vs2, %rs1, %vmask"], [(["vs2", "rs1", "vmask"], ["vd"])], ["&::mpact::sim::riscv::Vmsltu"]⟩,
  ⟨"vmslt_vv", [⟨26, 6, 27⟩, ⟨12, 3, 0⟩, ⟨0, 7, 87⟩], [], [], [], "vmslt.vv", ["%vd, %vs2, %vs1, %vmask"], [(["vs2", "vs1", "vmask"], ["vd"])], ["&::mpact::sim::riscv::Vmslt"]⟩,
  ⟨"vmslt_vx", [⟨26, 6, 27⟩, ⟨12, 3, 4⟩, ⟨0, 7, 87⟩], [], [], [], "vmslt.vx", ["%vd, %vs2, %rs1, %vmask"], [(["vs2", "rs1", "vmask"], ["vd"])], ["&::mpact::sim::riscv::Vmslt"]⟩,
  ⟨"vmsleu_vv", [⟨26, 6, 28⟩, ⟨12, 3, 0⟩, ⟨0, 7, 87⟩], [], [], [], "vmsleu.vv", ["%vd, %vs2, %vs1, %vmask"], [(["vs2", "vs1", "vmask"], ["vd"])], ["&::mpact::sim::riscv::Vmsleu"]⟩,
  ⟨"vmsleu_vx", [⟨26, 6, 28⟩, ⟨12, 3, 4⟩, ⟨0, 7, 87⟩], [], [], [], "vmsleu.vx", ["%vd, %vs2, %rs1, %vmask"], [(["vs2", "rs1", "vmask"], ["vd"])], ["&::mpact::sim::riscv::Vmsleu"]⟩]

def riscVZve32xInst32_3 : List Row := [
  ⟨"vmsleu_vi", [⟨26, 6, 28⟩, ⟨12, 3, 3⟩, ⟨0, 7, 87⟩], [], [], [], "vmsleu.vi", ["%vd, %vs2, %simm5, %vmask"], [(["vs2", "simm5", "vmask"], ["vd"])], ["&::mpact::sim::riscv::Vmsleu"]⟩,
  ⟨"vmsle_vv", [⟨26, 6, 29⟩, ⟨12, 3, 0⟩, ⟨0, 7, 87⟩], [], [], [], "vmsle.vv", ["%vd, %vs2, %vs1, %vmask"], [(["vs2", "vs1", "vmask"], ["vd"])], ["&::mpact::sim::riscv::Vmsle"]⟩,
  ⟨"vmsle_vx", [⟨26, 6, 29⟩, ⟨12, 3, 4⟩, ⟨0, 7, 87⟩], [], [], [], "vmsle.vx", ["%vd, %vs2, %rs1, %vmask"], [(["vs2", "rs1", "vmask"], ["vd"])], ["&::mpact::sim::riscv::Vmsle"]⟩,
  ⟨"vmsle_vi", [⟨26, 6, 29⟩, ⟨12, 3, 3⟩, ⟨0, 7, 87⟩], [], [], [], "vmsle.vi", ["%vd, %vs2, %simm5, %vmask"], [(["vs2", "simm5", "vmask"], ["vd"])], ["&::mpact::sim::riscv::Vmsle"]⟩,
  ⟨"vmsgtu_vx", [⟨26, 6, 30⟩, ⟨12, 3, 4⟩, ⟨0, 7, 87⟩], [], [], [], "vmsgtu.vx", ["%vd, %vs2, %rs1, %vmask"], [(["vs2", "rs1", "vmask"], ["vd"])], ["&::mpact::sim::riscv::Vmsgtu"]⟩,
  ⟨"vmsgtu_vi", [⟨26, 6, 30⟩, ⟨12, 3, 3⟩, ⟨0, 7, 87⟩], [], [], [], "vmsgtu.vi", ["%vd, %vs2, %simm5, %vmask"], [(["vs2", "simm5", "vmask"], ["vd"])], ["&::mpact::sim::riscv::Vmsgtu"]⟩,
  ⟨"vmsgt_vx", [⟨26, 6, 31⟩, ⟨12, 3, 4⟩, ⟨0, 7, 87⟩], [], [], [], "vmsgt.vx", ["%vd, %vs2, %rs1, %vmask"], [(["vs2", "rs1", "vmask"], ["vd"])], ["&::mpact::sim::riscv::Vmsgt"]⟩,
  ⟨"vmsgt_vi", [⟨26, 6, 31⟩, ⟨12, 3, 3⟩, ⟨0, 7, 87⟩], [], [], [], "vmsgt.vi", ["%vd, %vs2, %simm5, %vmask"], [(["vs2", "simm5", "vmask"], ["vd"])], ["&::mpact::sim::riscv::Vmsgt"]⟩,
  ⟨"vsaddu_vv", [⟨26, 6, 32⟩, ⟨12, 3, 0⟩, ⟨0, 7, 87⟩], [], [], [], "vsaddu.vv", ["%vd, %vs2, %vs1, %vmask"], [(["vs2", "vs1", "vmask"], ["vd"])], ["&::mpact::sim::riscv::Vsaddu"]⟩,
  ⟨"vsaddu_vx", [⟨26, 6, 32⟩, ⟨12, 3, 4⟩, ⟨0, 7, 87⟩], [], [], [], "vsaddu.vx", ["%vd, %vs2, %rs1, %vmask"], [(["vs2", "rs1", "vmask"], ["vd"])], ["&::mpact::sim::riscv::Vsaddu"]⟩,
  ⟨"vsaddu_vi", [⟨26, 6, 32⟩, ⟨12, 3, 3⟩, ⟨0, 7, 87⟩], [], [], [], "vsaddu.vi", ["%vd, %vs2, %simm5, %vmask"], [(["vs2", "simm5", "vmask"], ["vd"])], ["&::mpact::sim::riscv::Vsaddu"]⟩,
  ⟨"vsadd_vv", [⟨26, 6, 33⟩, ⟨12, 3, 0⟩, ⟨0, 7, 87⟩], [], [], [], "vsadd.vv", ["%vd, %vs2, %vs1, %vmask"], [(["vs2", "vs1", "vmask"], ["vd"])], ["&::mpact::sim::riscv::Vsadd"]⟩,
  ⟨"vsadd_vx", [⟨26, 6, 33⟩, ⟨12, 3, 4⟩, ⟨0, 7, 87⟩], [], [], [], "vsadd.vx", ["%vd, %vs2, %rs1, %vmask"], [(["vs2", "rs1", "vmask"], ["vd"])], ["&::mpact::sim::riscv::Vsadd"]⟩,
  ⟨"vsadd_vi", [⟨26, 6, 33⟩, ⟨12, 3, 3⟩, ⟨0, 7, 87⟩], [], [], [], "vsadd.vi", ["%vd, %vs2, %simm5, %vmask"], [(["vs2", "simm5", "vmask"], ["vd"])], ["&::mpact::sim::riscv::Vsadd"]⟩,
  ⟨"vssubu_vv", [⟨26, 6, 34⟩, ⟨12, 3, 0⟩, ⟨0, 7, 87⟩], [], [], [], "vssubu.vv", ["%vd, %vs2, %vs1, %vmask"], [(["vs2", "vs1", "vmask"], ["vd"])], ["&::mpact::sim::riscv::Vssubu"]⟩,
  ⟨"vssubu_vx", [⟨26, 6, 34⟩, ⟨12, 3, 4⟩, ⟨0, 7, 87⟩], [], [], [], "vssubu.vx", ["%vd, %vs2, %rs1, %vmask"], [(["vs2", "rs1", "vmask"], ["vd"])], ["&::mpact::sim::riscv::Vssubu"]⟩,
  ⟨"vssub_vv", [⟨26, 6, 35⟩, ⟨12, 3, 0⟩, ⟨0, 7, 87⟩], [], [], [], "vssub.vv", ["%vd, %vs2, %vs1, %vmask"], [(["vs2", "vs1", "vmask"], ["vd"])], ["&::mpact::sim::riscv::Vssub"]⟩,
  ⟨"vssub_vx", [⟨26, 6, 35⟩, ⟨12, 3, 4⟩, ⟨0, 7, 87⟩], [], [], [], "vssub.vx", ["%vd, %vs2, %rs1, %vmask"], [(["vs2", "rs1", "vmask"], ["vd"])], ["&::mpact::sim::riscv::Vssub"]⟩,
  ⟨"vsll_vv", [⟨26, 6, 37⟩, ⟨12, 3, 0⟩, ⟨0, 7, 87⟩], [], [], [], "vsll.vv", ["%vd, %vs2, %vs1, %vmask"], [(["vs2", "vs1", "vmask"], ["vd"])], ["&::mpact::sim::riscv::Vsll"]⟩,
  ⟨"vsll_vx", [⟨26, 6, 37⟩, ⟨12, 3, 4⟩, ⟨0, 7, 87⟩], [], [], [], "vsll.vx", ["%vd, %vs2, %rs1, %vmask"], [(["vs2", "rs1", "vmask"], ["vd"])], ["&::mpact::sim::riscv::Vsll"]⟩,
  ⟨"vsll_vi", [⟨26, 6, 37⟩, ⟨12, 3, 3⟩, ⟨0, 7, 87⟩], [], [], [], "vsll.vi", ["%vd, %simm5, %vmask"], [(["vs2", "simm5", "vmask"], ["vd"])], ["&::mpact::sim::riscv::Vsll"]⟩,
  ⟨"vsmul_vv", [⟨26, 6, 39⟩, ⟨12, 3, 0⟩, ⟨0, 7, 87⟩], [], [], [], "vsmul.vv", ["%vd, %vs2, %vs1, %vmask"], [(["vs2", "vs1", "vmask"], ["vd"])], ["&::mpact::sim::riscv::Vsmul"]⟩,
  ⟨"vsmul_vx", [⟨26, 6, 39⟩, ⟨12, 3, 4⟩, ⟨0, 7, 87⟩], [], [], [], "vsmul.vx", ["%vd, %vs2, %rs1, %vmask"], [(["vs2", "rs1", "vmask"], ["vd"])], ["&::mpact::sim::riscv::Vsmul"]⟩,
  ⟨"vmv1r_vi", [⟨26, 6, 39⟩, ⟨15, 5, 0⟩, ⟨12, 3, 3⟩, ⟨0, 7, 87⟩], [], [], [], "vmv1r.vi", ["%vd, %vs2"], [(["vs2"], ["vd"])], ["absl::bind_front(&::mpact::sim::riscv::Vmvr,1)"]⟩,
  ⟨"vmv2r_vi", [⟨26, 6, 39⟩, ⟨15, 5, 1⟩, ⟨12, 3, 3⟩, ⟨0, 7, 87⟩], [], [], [], "vmv2r.vi", ["%vd, %vs2"], [(["vs2"], ["vd"])], ["absl::bind_front(&::mpact::sim::riscv::Vmvr,2)"]⟩,
  ⟨"vmv4r_vi", [⟨26, 6, 39⟩, ⟨15, 5, 3⟩, ⟨12, 3, 3⟩, ⟨0, 7, 87⟩], [], [], [], "vmv4r.vi", ["%vd, %vs2"], [(["vs2"], ["vd"])], ["absl::bind_front(&::mpact::sim::riscv::Vmvr,4)"]⟩,
  ⟨"vmv8r_vi", [⟨26, 6, 39⟩, ⟨15, 5, 7⟩, ⟨12, 3, 3⟩, ⟨0, 7, 87⟩], [], [], [], "vmv8r.vi", ["%vd, %vs2"], [(["vs2"], ["vd"])], ["absl::bind_front(&::mpact::sim::riscv::Vmvr,8)"]⟩,
  ⟨"vsrl_vv", [⟨26, 6, 40⟩, ⟨12, 3, 0⟩, ⟨0, 7, 87⟩], [], [], [], "vsrl.vv", ["%vd, %vs2, %vs1, %vmask"], [(["vs2", "vs1", "vmask"], ["vd"])], ["&::mpact::sim::riscv::Vsrl"]⟩,
  ⟨"vsrl_vx", [⟨26, 6, 40⟩, ⟨12, 3, 4⟩, ⟨0, 7, 87⟩], [], [], [], "vsrl.vx", ["%vd, %vs2, %rs1, %vmask"], [(["vs2", "rs1", "vmask"], ["vd"])], ["&::mpact::sim::riscv::Vsrl"]⟩,
  ⟨"vsrl_vi", [⟨26, 6, 40⟩, ⟨12, 3, 3⟩, ⟨0, 7, 87⟩], [], [], [], "vsrl.vi", ["%vd, %simm5, %vmask"], [(["vs2", "simm5", "vmask"], ["vd"])], ["&::mpact::sim::riscv::Vsrl"]⟩,
  ⟨"vsra_vv", [⟨26, 6, 41⟩, ⟨12, 3, 0⟩, ⟨0, 7, 87⟩], [], [], [], "vsra.vv", ["%vd, %vs2, %vs1, %vmask"], [(["vs2", "vs1", "vmask"], ["vd"])], ["&::mpact::sim::riscv::Vsra"]⟩,
  ⟨"vsra_vx", [⟨26, 6, 41⟩, ⟨12, 3, 4⟩, ⟨0, 7, 87⟩], [], [], [], "vsra.vx", ["%vd, %vs2, %rs1, %vmask"], [(["vs2", "rs1", "vmask"], ["vd"])], ["&::mpact::sim::riscv::Vsra"]⟩,
  ⟨"vsra_vi", [⟨26, 6, 41⟩, ⟨12, 3, 3⟩, ⟨0, 7, 87⟩], [], [], [], "vsra.vi", ["%vd, %simm5, %vmask"], [(["vs2", "simm5", "vmask"], ["vd"])], ["&::mpact::sim::riscv::Vsra"]⟩,
  ⟨"vssrl_vv", [⟨26, 6, 42⟩, ⟨12, 3, 0⟩, ⟨0, 7, 87⟩], [], [], [], "vssrl.vv", ["%vd, %vs2, %vs1, %vmask"], [(["vs2", "vs1", "vmask"], ["vd"])], ["&::mpact::sim::riscv::Vssrl"]⟩,
  ⟨"vssrl_vx", [⟨26, 6, 42⟩, ⟨12, 3, 4⟩, ⟨0, 7, 87⟩], [], [], [], "vssrl.vx", ["%vd, %vs2, %rs1, %vmask"], [(["vs2", "rs1", "vmask"], ["vd"])], ["&::mpact::sim::riscv::Vssrl"]⟩,
  ⟨"vssrl_vi", [⟨26, 6, 42⟩, ⟨12, 3, 3⟩, ⟨0, 7, 87⟩], [], [], [], "vssrl.vi", ["%vd, %vs2, %uimm5, %vmask"], [(["vs2", "uimm5", "vmask"], ["vd"])], ["&::mpact::sim::riscv::Vssrl"]⟩,
  ⟨"vssra_vv", [⟨26, 6, 43⟩, ⟨12, 3, 0⟩, ⟨0, 7, 87⟩], [], [], [], "vssra.vv", ["%vd, %vs2, %vs1, %vmask"], [(["vs2", "vs1", "vmask"], ["vd"])], ["&::mpact::sim::riscv::Vssra"]⟩,
  ⟨"vssra_vx", [⟨26, 6, 43⟩, ⟨12, 3, 4⟩, ⟨0, 7, 87⟩], [], [], [], "vssra.vx", ["%vd, %vs2, %rs1, %vmask"], [(["vs2", "rs1", "vmask"], ["vd"])], ["&::mpact::sim::riscv::Vssra"]⟩,
  ⟨"vssra_vi", [⟨26, 6, 43⟩, ⟨12, 3, 3⟩, ⟨0, 7, 87⟩], [], [], [], "vssra.vi", ["%vd, %vs2, %uimm5, %vmask"], [(["vs2", "uimm5", "vmask"], ["vd"])], ["&::mpact::sim::riscv::Vssra"]⟩,
  ⟨"vnsrl_vv", [⟨26, 6, 44⟩, ⟨12, 3, 0⟩, ⟨0, 7, 87⟩], [], [], [], "vnsrl.vv", ["%vd, %vs2, %vs1, %vmask"], [(["vs2", "vs1", "vmask"], ["vd"])], ["&::mpact::sim::riscv::Vnsrl"]⟩,
  ⟨"vnsrl_vx", [⟨26, 6, 44⟩, ⟨12, 3, 4⟩, ⟨0, 7, 87⟩], [], [], [], "vnsrl.vx", ["%vd, %vs2, %rs1, %vmask"], [(["vs2", "rs1", "vmask"], ["vd"])], ["&::mpact::sim::riscv::Vnsrl"]⟩,
  ⟨"vnsrl_vi", [⟨26, 6, 44⟩, ⟨12, 3, 3⟩, ⟨0, 7, 87⟩], [], [], [], "vnsrl.vi", ["%vd, %vs2, %uimm5, %vmask"], [(["vs2", "uimm5", "vmask"], ["vd"])], ["&::mpact::sim::riscv::Vnsrl"]⟩,
  ⟨"vnsra_vv", [⟨26, 6, 45⟩, ⟨12, 3, 0⟩, ⟨0, 7, 87⟩], [], [], [], "vnsra.vv", ["%vd, %vs2, %vs1, %vmask"], [(["vs2", "vs1", "vmask"], ["vd"])], ["&::mpact::sim::riscv::Vnsra"]⟩,
  ⟨"vnsra_vx", [⟨26, 6, 45⟩, ⟨12, 3, 4⟩, ⟨0, 7, 87⟩], [], [], [], "vnsra.vx", ["%vd, %vs2, %rs1, %vmask"], [(["vs2", "rs1", "vmask"], ["vd"])], ["&::mpact::sim::riscv::Vnsra"]⟩,
  ⟨"vnsra_vi", [⟨26, 6, 45⟩, ⟨12, 3, 3⟩, ⟨0, 7, 87⟩], [], [], [], "vnsra.vi", ["%vd, %vs2, %uimm5, %vmask"], [(["vs2", "uimm5", "vmask"], ["vd"])], ["&::mpact::sim::riscv::Vnsra"]⟩,
  ⟨"vnclipu_vv", [⟨26, 6, 46⟩, ⟨12, 3, 0⟩, ⟨0, 7, 87⟩], [], [], [], "vnclipu_vv", ["%vd, %vs2, %vs1, %vmask"], [(["vs2", "vs1", "vmask"], ["vd"])], ["&::mpact::sim::riscv::Vnclipu"]⟩,
  ⟨"vnclipu_vx", [⟨26, 6, 46⟩, ⟨12, 3, 4⟩, ⟨0, 7, 87⟩], [], [], [], "vnclipu_vx", ["%vd, %vs2, %rs1, %vmask"], [(["vs2", "rs1", "vmask"], ["vd"])], ["&::mpact::sim::riscv::Vnclipu"]⟩,
  ⟨"vnclipu_vi", [⟨26, 6, 46⟩, ⟨12, 3, 3⟩, ⟨0, 7, 87⟩], [], [], [], "vnclipu_vi", ["%vd, %vs2, %uimm5, %vmask"], [(["vs2", "uimm5", "vmask"], ["vd"])], ["&::mpact::sim::riscv::Vnclipu"]⟩,
  ⟨"vnclip_vv", [⟨26, 6, 47⟩, ⟨12, 3, 0⟩, ⟨0, 7, 87⟩], [], [], [], "vnclip_vv", ["%vd, %vs2, %vs1, %vmask"], [(["vs2", "vs1", "vmask"], ["vd"])], ["&::mpact::sim::riscv::Vnclip"]⟩,
  ⟨"vnclip_vx", [⟨26, 6, 47⟩, ⟨12, 3, 4⟩, ⟨0, 7, 87⟩], [], [], [], "vnclip_vx", ["%vd, %vs2, %rs1, %vmask"], [(["vs2", "rs1", "vmask"], ["vd"])], ["&::mpact::sim::riscv::Vnclip"]⟩]

def riscVZve32xInst32_4 : List Row := [
  ⟨"vnclip_vi", [⟨26, 6, 47⟩, ⟨12, 3, 3⟩, ⟨0, 7, 87⟩], [], [], [], "vnclip_vi", ["%vd, %vs2, %uimm5, %vmask"], [(["vs2", "uimm5", "vmask"], ["vd"])], ["&::mpact::sim::riscv::Vnclip"]⟩,
  ⟨"vwredsumu_vv", [⟨26, 6, 48⟩, ⟨12, 3, 0⟩, ⟨0, 7, 87⟩], [], [], [], "vwredsumu.vv", ["%vd, %vs2, %vs1, %vmask"], [(["vs2", "vs1", "vmask"], ["vd"])], ["&::mpact::sim::riscv::Vwredsumu"]⟩,
  ⟨"vwredsum_vv", [⟨26, 6, 49⟩, ⟨12, 3, 0⟩, ⟨0, 7, 87⟩], [], [], [], "vwredsum.vv", ["%vd, %vs2, %vs1, %vmask"], [(["vs2", "vs1", "vmask"], ["vd"])], ["&::mpact::sim::riscv::Vwredsum"]⟩,
  ⟨"vredsum_vv", [⟨26, 6, 0⟩, ⟨12, 3, 2⟩, ⟨0, 7, 87⟩], [], [], [], "vredsum.vv", ["%vd, %vs2, %vs1, %vmask"], [(["vs2", "vs1", "vmask"], ["vd"])], ["&::mpact::sim::riscv::Vredsum"]⟩,
  ⟨"vredand_vv", [⟨26, 6, 1⟩, ⟨12, 3, 2⟩, ⟨0, 7, 87⟩], [], [], [], "vredand.vv", ["%vd, %vs2, %vs1, %vmask"], [(["vs2", "vs1", "vmask"], ["vd"])], ["&::mpact::sim::riscv::Vredand"]⟩,
  ⟨"vredor_vv", [⟨26, 6, 2⟩, ⟨12, 3, 2⟩, ⟨0, 7, 87⟩], [], [], [], "vredor.vv", ["%vd, %vs2, %vs1, %vmask"], [(["vs2", "vs1", "vmask"], ["vd"])], ["&::mpact::sim::riscv::Vredor"]⟩,
  ⟨"vredxor_vv", [⟨26, 6, 3⟩, ⟨12, 3, 2⟩, ⟨0, 7, 87⟩], [], [], [], "vredxor.vv", ["%vd, %vs2, %vs1, %vmask"], [(["vs2", "vs1", "vmask"], ["vd"])], ["&::mpact::sim::riscv::Vredxor"]⟩,
  ⟨"vredminu_vv", [⟨26, 6, 4⟩, ⟨12, 3, 2⟩, ⟨0, 7, 87⟩], [], [], [], "vredminu.vv", ["%vd, %vs2, %vs1, %vmask"], [(["vs2", "vs1", "vmask"], ["vd"])], ["&::mpact::sim::riscv::Vredminu"]⟩,
  ⟨"vredmin_vv", [⟨26, 6, 5⟩, ⟨12, 3, 2⟩, ⟨0, 7, 87⟩], [], [], [], "vredmin.vv", ["%vd, %vs2, %vs1, %vmask"], [(["vs2", "vs1", "vmask"], ["vd"])], ["&::mpact::sim::riscv::Vredmin"]⟩,
  ⟨"vredmaxu_vv", [⟨26, 6, 6⟩, ⟨12, 3, 2⟩, ⟨0, 7, 87⟩], [], [], [], "vredmaxu.vv", ["%vd, %vs2, %vs1, %vmask"], [(["vs2", "vs1", "vmask"], ["vd"])], ["&::mpact::sim::riscv::Vredmaxu"]⟩,
  ⟨"vredmax_vv", [⟨26, 6, 7⟩, ⟨12, 3, 2⟩, ⟨0, 7, 87⟩], [], [], [], "vredmax.vv", ["%vd, %vs2, %vs1, %vmask"], [(["vs2", "vs1", "vmask"], ["vd"])], ["&::mpact::sim::riscv::Vredmax"]⟩,
  ⟨"vaaddu_vv", [⟨26, 6, 8⟩, ⟨12, 3, 2⟩, ⟨0, 7, 87⟩], [], [], [], "vaaddu.vv", ["%vd, %vs2, %vs1, %vmask"], [(["vs2", "vs1", "vmask"], ["vd"])], ["&::mpact::sim::riscv::Vaaddu"]⟩,
  ⟨"vaaddu_vx", [⟨26, 6, 8⟩, ⟨12, 3, 6⟩, ⟨0, 7, 87⟩], [], [], [], "vaaddu.vx", ["%vd, %vs2, %rs1, %vmask"], [(["vs2", "rs1", "vmask"], ["vd"])], ["&::mpact::sim::riscv::Vaaddu"]⟩,
  ⟨"vaadd_vv", [⟨26, 6, 9⟩, ⟨12, 3, 2⟩, ⟨0, 7, 87⟩], [], [], [], "vaadd.vv", ["%vd, %vs2, %vs1, %vmask"], [(["vs2", "vs1", "vmask"], ["vd"])], ["&::mpact::sim::riscv::Vaadd"]⟩,
  ⟨"vaadd_vx", [⟨26, 6, 9⟩, ⟨12, 3, 6⟩, ⟨0, 7, 87⟩], [], [], [], "vaadd.vx", ["%vd, %vs2, %rs1, %vmask"], [(["vs2", "rs1", "vmask"], ["vd"])], ["&::mpact::sim::riscv::Vaadd"]⟩,
  ⟨"vasubu_vv", [⟨26, 6, 10⟩, ⟨12, 3, 2⟩, ⟨0, 7, 87⟩], [], [], [], "vasubu.vv", ["%vd, %vs2, %vs1, %vmask"], [(["vs2", "vs1", "vmask"], ["vd"])], ["&::mpact::sim::riscv::Vasubu"]⟩,
  ⟨"vasubu_vx", [⟨26, 6, 10⟩, ⟨12, 3, 6⟩, ⟨0, 7, 87⟩], [], [], [], "vasubu.vx", ["%vd, %vs2, %rs1, %vmask"], [(["vs2", "rs1", "vmask"], ["vd"])], ["&::mpact::sim::riscv::Vasubu"]⟩,
  ⟨"vasub_vv", [⟨26, 6, 11⟩, ⟨12, 3, 2⟩, ⟨0, 7, 87⟩], [], [], [], "vasub.vv", ["%vd, %vs2, %vs1, %vmask"], [(["vs2", "vs1", "vmask"], ["vd"])], ["&::mpact::sim::riscv::Vasub"]⟩,
  ⟨"vasub_vx", [⟨26, 6, 11⟩, ⟨12, 3, 6⟩, ⟨0, 7, 87⟩], [], [], [], "vasub.vx", ["%vd, %vs2, %rs1, %vmask"], [(["vs2", "rs1", "vmask"], ["vd"])], ["&::mpact::sim::riscv::Vasub"]⟩,
  ⟨"vslide1up_vx", [⟨26, 6, 14⟩, ⟨12, 3, 6⟩, ⟨0, 7, 87⟩], [], [], [], "vslide1up.vx", ["%vd, %vs2, %rs1, %vmask"], [(["vs2", "rs1", "vmask"], ["vd"])], ["&::mpact::sim::riscv::Vslide1up"]⟩,
  ⟨"vslide1down_vx", [⟨26, 6, 15⟩, ⟨12, 3, 6⟩, ⟨0, 7, 87⟩], [], [], [], "vslide1down.vx", ["%vd, %vs2, %rs1, %vmask"], [(["vs2", "rs1", "vmask"], ["vd"])], ["&::mpact::sim::riscv::Vslide1down"]⟩,
  ⟨"vcompress_vv", [⟨26, 6, 23⟩, ⟨12, 3, 2⟩, ⟨0, 7, 87⟩], [], [], [], "vcompress.vv", ["%vd, %vs2, %vs1"], [(["vs2", "vs1"], ["vd"])], ["&::mpact::sim::riscv::Vcompress"]⟩,
  ⟨"vmandnot_vv", [⟨26, 6, 24⟩, ⟨12, 3, 2⟩, ⟨0, 7, 87⟩], [], [], [], "vwmandnot.vv", ["%vd, %vs2, %vs1"], [(["vs2", "vs1"], ["vd"])], ["&::mpact::sim::riscv::Vmandnot"]⟩,
  ⟨"vmand_vv", [⟨26, 6, 25⟩, ⟨12, 3, 2⟩, ⟨0, 7, 87⟩], [], [], [], "vmand.vv", ["%vd, %vs2, %vs1"], [(["vs2", "vs1"], ["vd"])], ["&::mpact::sim::riscv::Vmand"]⟩,
  ⟨"vmor_vv", [⟨26, 6, 26⟩, ⟨12, 3, 2⟩, ⟨0, 7, 87⟩], [], [], [], "vmor.vv", ["%vd, %vs2, %vs1"], [(["vs2", "vs1"], ["vd"])], ["&::mpact::sim::riscv::Vmor"]⟩,
  ⟨"vmxor_vv", [⟨26, 6, 27⟩, ⟨12, 3, 2⟩, ⟨0, 7, 87⟩], [], [], [], "vmxor.vv", ["%vd, %vs2, %vs1"], [(["vs2", "vs1"], ["vd"])], ["&::mpact::sim::riscv::Vmxor"]⟩,
  ⟨"vmornot_vv", [⟨26, 6, 28⟩, ⟨12, 3, 2⟩, ⟨0, 7, 87⟩], [], [], [], "vmornot.vv", ["%vd, %vs2, %vs1"], [(["vs2", "vs1"], ["vd"])], ["&::mpact::sim::riscv::Vmornot"]⟩,
  ⟨"vmnand_vv", [⟨26, 6, 29⟩, ⟨12, 3, 2⟩, ⟨0, 7, 87⟩], [], [], [], "vmnand.vv", ["%vd, %vs2, %vs1"], [(["vs2", "vs1"], ["vd"])], ["&::mpact::sim::riscv::Vmnand"]⟩,
  ⟨"vmnor_vv", [⟨26, 6, 30⟩, ⟨12, 3, 2⟩, ⟨0, 7, 87⟩], [], [], [], "vmnor.vv", ["%vd, %vs2, %vs1"], [(["vs2", "vs1"], ["vd"])], ["&::mpact::sim::riscv::Vmnor"]⟩,
  ⟨"vmxnor_vv", [⟨26, 6, 31⟩, ⟨12, 3, 2⟩, ⟨0, 7, 87⟩], [], [], [], "vmxnor.vv", ["%vd, %vs2, %vs1"], [(["vs2", "vs1"], ["vd"])], ["&::mpact::sim::riscv::Vmxnor"]⟩,
  ⟨"vdivu_vv", [⟨26, 6, 32⟩, ⟨12, 3, 2⟩, ⟨0, 7, 87⟩], [], [], [], "vdivu.vv", ["%vd, %vs2, %vs1, %vmask"], [(["vs2", "vs1", "vmask"], ["vd"])], ["&::mpact::sim::riscv::Vdivu"]⟩,
  ⟨"vdivu_vx", [⟨26, 6, 32⟩, ⟨12, 3, 6⟩, ⟨0, 7, 87⟩], [], [], [], "vdivu.vx", ["%vd, %vs2, %rs1, %vmask"], [(["vs2", "rs1", "vmask"], ["vd"])], ["&::mpact::sim::riscv::Vdivu"]⟩,
  ⟨"vdiv_vv", [⟨26, 6, 33⟩, ⟨12, 3, 2⟩, ⟨0, 7, 87⟩], [], [], [], "vdiv.vv", ["%vd, %vs2, %vs1, %vmask"], [(["vs2", "vs1", "vmask"], ["vd"])], ["&::mpact::sim::riscv::Vdiv"]⟩,
  ⟨"vdiv_vx", [⟨26, 6, 33⟩, ⟨12, 3, 6⟩, ⟨0, 7, 87⟩], [], [], [], "vdiv.vx", ["%vd, %vs2, %rs1, %vmask"], [(["vs2", "rs1", "vmask"], ["vd"])], ["&::mpact::sim::riscv::Vdiv"]⟩,
  ⟨"vremu_vv", [⟨26, 6, 34⟩, ⟨12, 3, 2⟩, ⟨0, 7, 87⟩], [], [], [], "vremu.vv", ["%vd, %vs2, %vs1, %vmask"], [(["vs2", "vs1", "vmask"], ["vd"])], ["&::mpact::sim::riscv::Vremu"]⟩,
  ⟨"vremu_vx", [⟨26, 6, 34⟩, ⟨12, 3, 6⟩, ⟨0, 7, 87⟩], [], [], [], "vremu.vx", ["%vd, %vs2, %rs1, %vmask"], [(["vs2", "rs1", "vmask"], ["vd"])], ["&::mpact::sim::riscv::Vremu"]⟩,
  ⟨"vrem_vv", [⟨26, 6, 35⟩, ⟨12, 3, 2⟩, ⟨0, 7, 87⟩], [], [], [], "vrem.vv", ["%vd, %vs2, %vs1, %vmask"], [(["vs2", "vs1", "vmask"], ["vd"])], ["&::mpact::sim::riscv::Vrem"]⟩,
  ⟨"vrem_vx", [⟨26, 6, 35⟩, ⟨12, 3, 6⟩, ⟨0, 7, 87⟩], [], [], [], "vrem.vx", ["%vd, %vs2, %rs1, %vmask"], [(["vs2", "rs1", "vmask"], ["vd"])], ["&::mpact::sim::riscv::Vrem"]⟩,
  ⟨"vmulhu_vv", [⟨26, 6, 36⟩, ⟨12, 3, 2⟩, ⟨0, 7, 87⟩], [], [], [], "vmulhu.vv", ["%vd, %vs2, %vs1, %vmask"], [(["vs2", "vs1", "vmask"], ["vd"])], ["&::mpact::sim::riscv::Vmulhu"]⟩,
  ⟨"vmulhu_vx", [⟨26, 6, 36⟩, ⟨12, 3, 6⟩, ⟨0, 7, 87⟩], [], [], [], "vmulhu.vx", ["%vd, %vs2, %rs1, %vmask"], [(["vs2", "rs1", "vmask"], ["vd"])], ["&::mpact::sim::riscv::Vmulhu"]⟩,
  ⟨"vmul_vv", [⟨26, 6, 37⟩, ⟨12, 3, 2⟩, ⟨0, 7, 87⟩], [], [], [], "vmul.vv", ["%vd, %vs2, %vs1, %vmask"], [(["vs2", "vs1", "vmask"], ["vd"])], ["&::mpact::sim::riscv::Vmul"]⟩,
  ⟨"vmul_vx", [⟨26, 6, 37⟩, ⟨12, 3, 6⟩, ⟨0, 7, 87⟩], [], [], [], "vmul.vx", ["%vd, %vs2, %rs1, %vmask"], [(["vs2", "rs1", "vmask"], ["vd"])], ["&::mpact::sim::riscv::Vmul"]⟩,
  ⟨"vmulhsu_vv", [⟨26, 6, 38⟩, ⟨12, 3, 2⟩, ⟨0, 7, 87⟩], [], [], [], "vmulhsu.vv", ["%vd, %vs2, %vs1, %vmask"], [(["vs2", "vs1", "vmask"], ["vd"])], ["&::mpact::sim::riscv::Vmulhsu"]⟩,
  ⟨"vmulhsu_vx", [⟨26, 6, 38⟩, ⟨12, 3, 6⟩, ⟨0, 7, 87⟩], [], [], [], "vmulhsu.vx", ["%vd, %vs2, %rs1, %vmask"], [(["vs2", "rs1", "vmask"], ["vd"])], ["&::mpact::sim::riscv::Vmulhsu"]⟩,
  ⟨"vmulh_vv", [⟨26, 6, 39⟩, ⟨12, 3, 2⟩, ⟨0, 7, 87⟩], [], [], [], "vmulh.vv", ["%vd, %vs2, %vs1, %vmask"], [(["vs2", "vs1", "vmask"], ["vd"])], ["&::mpact::sim::riscv::Vmulh"]⟩,
  ⟨"vmulh_vx", [⟨26, 6, 39⟩, ⟨12, 3, 6⟩, ⟨0, 7, 87⟩], [], [], [], "vmulh.vx", ["%vd, %vs2, %rs1, %vmask"], [(["vs2", "rs1", "vmask"], ["vd"])], ["&::mpact::sim::riscv::Vmulh"]⟩,
  ⟨"vmadd_vv", [⟨26, 6, 41⟩, ⟨12, 3, 2⟩, ⟨0, 7, 87⟩], [], [], [], "vmadd.vv", ["%vd, %vs2, %vs1, %vmask"], [(["vs2", "vs1", "vd", "vmask"], ["vd"])], ["&::mpact::sim::riscv::Vmadd"]⟩,
  ⟨"vmadd_vx", [⟨26, 6, 41⟩, ⟨12, 3, 6⟩, ⟨0, 7, 87⟩], [], [], [], "vmadd.vx", ["%vd, %vs2, %rs1, %vmask"], [(["vs2", "rs1", "vd", "vmask"], ["vd"])], ["&::mpact::sim::riscv::Vmadd"]⟩,
  ⟨"vnmsub_vv", [⟨26, 6, 43⟩, ⟨12, 3, 2⟩, ⟨0, 7, 87⟩], [], [], [], "vnmsub.vv", ["%vd, %vs2, %vs1, %vmask"], [(["vs2", "vs1", "vd", "vmask"], ["vd"])], ["&::mpact::sim::riscv::Vnmsub"]⟩,
  ⟨"vnmsub_vx", [⟨26, 6, 43⟩, ⟨12, 3, 6⟩, ⟨0, 7, 87⟩], [], [], [], "vnmsub.vx", ["%vd, %vs2, %rs1, %vmask"], [(["vs2", "rs1", "vd", "vmask"], ["vd"])], ["&::mpact::sim::riscv::Vnmsub"]⟩]

def riscVZve32xInst32_5 : List Row := [
  ⟨"vmacc_vv", [⟨26, 6, 45⟩, ⟨12, 3, 2⟩, ⟨0, 7, 87⟩], [], [], [], "vmacc.vv", ["%vd, %vs2, %vs1, %vmask"], [(["vs2", "vs1", "vd", "vmask"], ["vd"])], ["&::mpact::sim::riscv::Vmacc"]⟩,
  ⟨"vmacc_vx", [⟨26, 6, 45⟩, ⟨12, 3, 6⟩, ⟨0, 7, 87⟩], [], [], [], "vmacc.vx", ["%vd, %vs2, %rs1, %vmask"], [(["vs2", "rs1", "vd", "vmask"], ["vd"])], ["&::mpact::sim::riscv::Vmacc"]⟩,
  ⟨"vnmsac_vv", [⟨26, 6, 47⟩, ⟨12, 3, 2⟩, ⟨0, 7, 87⟩], [], [], [], "vnmsac.vv", ["%vd, %vs2, %vs1, %vmask"], [(["vs2", "vs1", "vd", "vmask"], ["vd"])], ["&::mpact::sim::riscv::Vnmsac"]⟩,
  ⟨"vnmsac_vx", [⟨26, 6, 47⟩, ⟨12, 3, 6⟩, ⟨0, 7, 87⟩], [], [], [], "vnmsac.vx", ["%vd, %vs2, %rs1, %vmask"], [(["vs2", "rs1", "vd", "vmask"], ["vd"])], ["&::mpact::sim::riscv::Vnmsac"]⟩,
  ⟨"vwaddu_vv", [⟨26, 6, 48⟩, ⟨12, 3, 2⟩, ⟨0, 7, 87⟩], [], [], [], "vwaddu.vv", ["%vd, %vs2, %vs1, %vmask"], [(["vs2", "vs1", "vmask"], ["vd"])], ["&::mpact::sim::riscv::Vwaddu"]⟩,
  ⟨"vwaddu_vx", [⟨26, 6, 48⟩, ⟨12, 3, 6⟩, ⟨0, 7, 87⟩], [], [], [], "vwaddu.vx", ["%vd, %vs2, %rs1, %vmask"], [(["vs2", "rs1", "vmask"], ["vd"])], ["&::mpact::sim::riscv::Vwaddu"]⟩,
  ⟨"vwadd_vv", [⟨26, 6, 49⟩, ⟨12, 3, 2⟩, ⟨0, 7, 87⟩], [], [], [], "vwadd_vv", ["%vd, %vs2, %vs1, %vmask"], [(["vs2", "vs1", "vmask"], ["vd"])], ["&::mpact::sim::riscv::Vwadd"]⟩,
  ⟨"vwadd_vx", [⟨26, 6, 49⟩, ⟨12, 3, 6⟩, ⟨0, 7, 87⟩], [], [], [], "vwadd.vx", ["%vd, %vs2, %rs1, %vmask"], [(["vs2", "rs1", "vmask"], ["vd"])], ["&::mpact::sim::riscv::Vwadd"]⟩,
  ⟨"vwsubu_vv", [⟨26, 6, 50⟩, ⟨12, 3, 2⟩, ⟨0, 7, 87⟩], [], [], [], "vwsubu.vv", ["%vd, %vs2, %vs1, %vmask"], [(["vs2", "vs1", "vmask"], ["vd"])], ["&::mpact::sim::riscv::Vwsubu"]⟩,
  ⟨"vwsubu_vx", [⟨26, 6, 50⟩, ⟨12, 3, 6⟩, ⟨0, 7, 87⟩], [], [], [], "vwsubu.vx", ["%vd, %vs2, %rs1, %vmask"], [(["vs2", "rs1", "vmask"], ["vd"])], ["&::mpact::sim::riscv::Vwsubu"]⟩,
  ⟨"vwsub_vv", [⟨26, 6, 51⟩, ⟨12, 3, 2⟩, ⟨0, 7, 87⟩], [], [], [], "vwsub.vv", ["%vd, %vs2, %vs1, %vmask"], [(["vs2", "vs1", "vmask"], ["vd"])], ["&::mpact::sim::riscv::Vwsub"]⟩,
  ⟨"vwsub_vx", [⟨26, 6, 51⟩, ⟨12, 3, 6⟩, ⟨0, 7, 87⟩], [], [], [], "vwsub.vx", ["%vd, %vs2, %rs1, %vmask"], [(["vs2", "rs1", "vmask"], ["vd"])], ["&::mpact::sim::riscv::Vwsub"]⟩,
  ⟨"vwaddu_w_vv", [⟨26, 6, 52⟩, ⟨12, 3, 2⟩, ⟨0, 7, 87⟩], [], [], [], "vwaddu.wv", ["%vd, %vs2, %vs1, %vmask"], [(["vs2", "vs1", "vmask"], ["vd"])], ["&::mpact::sim::riscv::Vwadduw"]⟩,
  ⟨"vwaddu_w_vx", [⟨26, 6, 52⟩, ⟨12, 3, 6⟩, ⟨0, 7, 87⟩], [], [], [], "vwaddu.wx", ["%vd, %vs2, %rs1, %vmask"], [(["vs2", "rs1", "vmask"], ["vd"])], ["&::mpact::sim::riscv::Vwadduw"]⟩,
  ⟨"vwadd_w_vv", [⟨26, 6, 53⟩, ⟨12, 3, 2⟩, ⟨0, 7, 87⟩], [], [], [], "vwadd.wv", ["%vd, %vs2, %vs1, %vmask"], [(["vs2", "vs1", "vmask"], ["vd"])], ["&::mpact::sim::riscv::Vwaddw"]⟩,
  ⟨"vwadd_w_vx", [⟨26, 6, 53⟩, ⟨12, 3, 6⟩, ⟨0, 7, 87⟩], [], [], [], "vwadd.wx", ["%vd, %vs2, %rs1, %vmask"], [(["vs2", "rs1", "vmask"], ["vd"])], ["&::mpact::sim::riscv::Vwaddw"]⟩,
  ⟨"vwsubu_w_vv", [⟨26, 6, 54⟩, ⟨12, 3, 2⟩, ⟨0, 7, 87⟩], [], [], [], "vwsubu.wv", ["%vd, %vs2, %vs1, %vmask"], [(["vs2", "vs1", "vmask"], ["vd"])], ["&::mpact::sim::riscv::Vwsubuw"]⟩,
  ⟨"vwsubu_w_vx", [⟨26, 6, 54⟩, ⟨12, 3, 6⟩, ⟨0, 7, 87⟩], [], [], [], "vwsubu.wx", ["%vd, %vs2, %rs1, %vmask"], [(["vs2", "rs1", "vmask"], ["vd"])], ["&::mpact::sim::riscv::Vwsubuw"]⟩,
  ⟨"vwsub_w_vv", [⟨26, 6, 55⟩, ⟨12, 3, 2⟩, ⟨0, 7, 87⟩], [], [], [], "vwsub.wv", ["%vd, %vs2, %vs1, %vmask"], [(["vs2", "vs1", "vmask"], ["vd"])], ["&::mpact::sim::riscv::Vwsubw"]⟩,
  ⟨"vwsub_w_vx", [⟨26, 6, 55⟩, ⟨12, 3, 6⟩, ⟨0, 7, 87⟩], [], [], [], "vwsub.wx", ["%vd, %vs2, %rs1, %vmask"], [(["vs2", "rs1", "vmask"], ["vd"])], ["&::mpact::sim::riscv::Vwsubw"]⟩,
  ⟨"vwmulu_vv", [⟨26, 6, 56⟩, ⟨12, 3, 2⟩, ⟨0, 7, 87⟩], [], [], [], "vwmulu.vv", ["%vd, %vs2, %vs1, %vmask"], [(["vs2", "vs1", "vmask"], ["vd"])], ["&::mpact::sim::riscv::Vwmulu"]⟩,
  ⟨"vwmulu_vx", [⟨26, 6, 56⟩, ⟨12, 3, 6⟩, ⟨0, 7, 87⟩], [], [], [], "vwmulu.vx", ["%vd, %vs2, %rs1, %vmask"], [(["vs2", "rs1", "vmask"], ["vd"])], ["&::mpact::sim::riscv::Vwmulu"]⟩,
  ⟨"vwmulsu_vv", [⟨26, 6, 58⟩, ⟨12, 3, 2⟩, ⟨0, 7, 87⟩], [], [], [], "vwmulsu.vv", ["%vd, %vs2, %vs1, %vmask"], [(["vs2", "vs1", "vmask"], ["vd"])], ["&::mpact::sim::riscv::Vwmulsu"]⟩,
  ⟨"vwmulsu_vx", [⟨26, 6, 58⟩, ⟨12, 3, 6⟩, ⟨0, 7, 87⟩], [], [], [], "vwmulsu.vx", ["%vd, %vs2, %rs1, %vmask"], [(["vs2", "rs1", "vmask"], ["vd"])], ["&::mpact::sim::riscv::Vwmulsu"]⟩,
  ⟨"vwmul_vv", [⟨26, 6, 59⟩, ⟨12, 3, 2⟩, ⟨0, 7, 87⟩], [], [], [], "vwmul.vv", ["%vd, %vs2, %vs1, %vmask"], [(["vs2", "vs1", "vmask"], ["vd"])], ["&::mpact::sim::riscv::Vwmul"]⟩,
  ⟨"vwmul_vx", [⟨26, 6, 59⟩, ⟨12, 3, 6⟩, ⟨0, 7, 87⟩], [], [], [], "vwmul.vx", ["%vd, %vs2, %rs1, %vmask"], [(["vs2", "rs1", "vmask"], ["vd"])], ["&::mpact::sim::riscv::Vwmul"]⟩,
  ⟨"vwmaccu_vv", [⟨26, 6, 60⟩, ⟨12, 3, 2⟩, ⟨0, 7, 87⟩], [], [], [], "vwmaccu.vv", ["%vd, %vs2, %vs1, %vmask"], [(["vs2", "vs1", "vd", "vmask"], ["vd"])], ["&::mpact::sim::riscv::Vwmaccu"]⟩,
  ⟨"vwmaccu_vx", [⟨26, 6, 60⟩, ⟨12, 3, 6⟩, ⟨0, 7, 87⟩], [], [], [], "vwmaccu.vx", ["%vd, %vs2, %rs1, %vmask"], [(["vs2", "rs1", "vd", "vmask"], ["vd"])], ["&::mpact::sim::riscv::Vwmaccu"]⟩,
  ⟨"vwmacc_vv", [⟨26, 6, 61⟩, ⟨12, 3, 2⟩, ⟨0, 7, 87⟩], [], [], [], "vwmacc.vv", ["%vd, %vs2, %vs1, %vmask"], [(["vs2", "vs1", "vd", "vmask"], ["vd"])], ["&::mpact::sim::riscv::Vwmacc"]⟩,
  ⟨"vwmacc_vx", [⟨26, 6, 61⟩, ⟨12, 3, 6⟩, ⟨0, 7, 87⟩], [], [], [], "vwmacc.vx", ["%vd, %vs2, %rs1, %vmask"], [(["vs2", "rs1", "vd", "vmask"], ["vd"])], ["&::mpact::sim::riscv::Vwmacc"]⟩,
  ⟨"vwmaccus_vv", [⟨26, 6, 62⟩, ⟨12, 3, 2⟩, ⟨0, 7, 87⟩], [], [], [], "vwmaccus.vv", ["%vd, %vs2, %vs1, %vmask"], [(["vs2", "vs1", "vd", "vmask"], ["vd"])], ["&::mpact::sim::riscv::Vwmaccus"]⟩,
  ⟨"vwmaccus_vx", [⟨26, 6, 62⟩, ⟨12, 3, 6⟩, ⟨0, 7, 87⟩], [], [], [], "vwmaccus.vx", ["%vd, %vs2, %rs1, %vmask"], [(["vs2", "rs1", "vd", "vmask"], ["vd"])], ["&::mpact::sim::riscv::Vwmaccus"]⟩,
  ⟨"vwmaccsu_vv", [⟨26, 6, 63⟩, ⟨12, 3, 2⟩, ⟨0, 7, 87⟩], [], [], [], "vwmaccsu.vv", ["%vd, %vs2, %vs1, %vmask"], [(["vs2", "vs1", "vd", "vmask"], ["vd"])], ["&::mpact::sim::riscv::Vwmaccsu"]⟩,
  ⟨"vwmaccsu_vx", [⟨26, 6, 63⟩, ⟨12, 3, 6⟩, ⟨0, 7, 87⟩], [], [], [], "vwmaccsu.vx", ["%vd, %vs2, %rs1, %vmask"], [(["vs2", "rs1", "vd", "vmask"], ["vd"])], ["&::mpact::sim::riscv::Vwmaccsu"]⟩,
  ⟨"vmv_x_s", [⟨26, 6, 16⟩, ⟨15, 5, 0⟩, ⟨12, 3, 2⟩, ⟨0, 7, 87⟩], [], [], [], "vmv.x.s", ["%rd, %vs2"], [(["vs2"], ["rd"])], ["&::mpact::sim::riscv::VmvToScalar"]⟩,
  ⟨"vcpop", [⟨26, 6, 16⟩, ⟨15, 5, 16⟩, ⟨12, 3, 2⟩, ⟨0, 7, 87⟩], [], [], [], "vcpop", ["%rd, %vs2, %vmask"], [(["vs2", "vmask"], ["rd"])], ["&::mpact::sim::riscv::Vcpop"]⟩,
  ⟨"vfirst", [⟨26, 6, 16⟩, ⟨15, 5, 17⟩, ⟨12, 3, 2⟩, ⟨0, 7, 87⟩], [], [], [], "vfirst", ["%rd, %vs2, %vmask"], [(["vs2", "vmask"], ["rd"])], ["&::mpact::sim::riscv::Vfirst"]⟩,
  ⟨"vmv_s_x", [⟨26, 6, 16⟩, ⟨20, 5, 0⟩, ⟨12, 3, 6⟩, ⟨0, 7, 87⟩], [], [], [], "vmv.s.x", ["%vd, %rs1"], [(["rs1"], ["vd"])], ["&::mpact::sim::riscv::VmvFromScalar"]⟩,
  ⟨"vzext_vf8", [⟨26, 6, 18⟩, ⟨15, 5, 2⟩, ⟨12, 3, 2⟩, ⟨0, 7, 87⟩], [], [], [], "vzext.vf8", ["%vd, %vs2, %vmask"], [(["vs2", "vmask"], ["vd"])], ["&::mpact::sim::riscv::Vzext8"]⟩,
  ⟨"vsext_vf8", [⟨26, 6, 18⟩, ⟨15, 5, 3⟩, ⟨12, 3, 2⟩, ⟨0, 7, 87⟩], [], [], [], "vsext.vf8", ["%vd, %vs2, %vmask"], [(["vs2", "vmask"], ["vd"])], ["&::mpact::sim::riscv::Vsext8"]⟩,
  ⟨"vzext_vf4", [⟨26, 6, 18⟩, ⟨15, 5, 4⟩, ⟨12, 3, 2⟩, ⟨0, 7, 87⟩], [], [], [], "vzext.vf4", ["%vd, %vs2, %vmask"], [(["vs2", "vmask"], ["vd"])], ["&::mpact::sim::riscv::Vzext4"]⟩,
  ⟨"vsext_vf4", [⟨26, 6, 18⟩, ⟨15, 5, 5⟩, ⟨12, 3, 2⟩, ⟨0, 7, 87⟩], [], [], [], "vsext.vf4", ["%vd, %vs2, %vmask"], [(["vs2", "vmask"], ["vd"])], ["&::mpact::sim::riscv::Vsext4"]⟩,
  ⟨"vzext_vf2", [⟨26, 6, 18⟩, ⟨15, 5, 6⟩, ⟨12, 3, 2⟩, ⟨0, 7, 87⟩], [], [], [], "vzext.vf2", ["%vd, %vs2, %vmask"], [(["vs2", "vmask"], ["vd"])], ["&::mpact::sim::riscv::Vzext2"]⟩,
  ⟨"vsext_vf2", [⟨26, 6, 18⟩, ⟨15, 5, 7⟩, ⟨12, 3, 2⟩, ⟨0, 7, 87⟩], [], [], [], "vsext.vf2", ["%vd, %vs2, %vmask"], [(["vs2", "vmask"], ["vd"])], ["&::mpact::sim::riscv::Vsext2"]⟩,
  ⟨"vmsbf", [⟨26, 6, 20⟩, ⟨15, 5, 1⟩, ⟨12, 3, 2⟩, ⟨0, 7, 87⟩], [], [], [], "vmsbf.m", ["%vd, %vs2, %vmask"], [(["vs2", "vmask"], ["vd"])], ["&::mpact::sim::riscv::Vmsbf"]⟩,
  ⟨"vmsof", [⟨26, 6, 20⟩, ⟨15, 5, 2⟩, ⟨12, 3, 2⟩, ⟨0, 7, 87⟩], [], [], [], "vmsof.m", ["%vd, %vs2, %vmask"], [(["vs2", "vmask"], ["vd"])], ["&::mpact::sim::riscv::Vmsof"]⟩,
  ⟨"vmsif", [⟨26, 6, 20⟩, ⟨15, 5, 3⟩, ⟨12, 3, 2⟩, ⟨0, 7, 87⟩], [], [], [], "vmsif.m", ["%vd, %vs2, %vmask"], [(["vs2", "vmask"], ["vd"])], ["&::mpact::sim::riscv::Vmsif"]⟩,
  ⟨"viota", [⟨26, 6, 20⟩, ⟨15, 5, 16⟩, ⟨12, 3, 2⟩, ⟨0, 7, 87⟩], [], [], [], "viota.m", ["%vd, %vs2, %vmask"], [(["vs2", "vmask"], ["vd"])], ["&::mpact::sim::riscv::Viota"]⟩,
  ⟨"vid", [⟨26, 6, 20⟩, ⟨15, 5, 17⟩, ⟨12, 3, 2⟩, ⟨0, 7, 87⟩], [], [], [], "vid.v", ["%vd, %vmask"], [(["vmask"], ["vd"])], ["&::mpact::sim::riscv::Vid"]⟩]

def riscVZbbInst32 : List Row := [
  ⟨"andn", [⟨25, 7, 32⟩, ⟨12, 3, 7⟩, ⟨0, 7, 51⟩], [], [], [], "andn", ["%rd, %rs1, %rs2"], [(["rs1", "rs2"], ["rd"])], ["&::mpact::sim::riscv::RV32::RiscVAndn"]⟩,
  ⟨"orn", [⟨25, 7, 32⟩, ⟨12, 3, 6⟩, ⟨0, 7, 51⟩], [], [], [], "orn", ["%rd, %rs1, %rs2"], [(["rs1", "rs2"], ["rd"])], ["&::mpact::sim::riscv::RV32::RiscVOrn"]⟩,
  ⟨"xnor", [⟨25, 7, 32⟩, ⟨12, 3, 4⟩, ⟨0, 7, 51⟩], [], [], [], "xor", ["%rd, %rs1, %rs2"], [(["rs1", "rs2"], ["rd"])], ["&::mpact::sim::riscv::RV32::RiscVXnor"]⟩,
  ⟨"clz", [⟨25, 7, 48⟩, ⟨20, 5, 0⟩, ⟨12, 3, 1⟩, ⟨0, 7, 19⟩], [], [], [], "clz", ["%rd, %rs1"], [(["rs1"], ["rd"])], ["&::mpact::sim::riscv::RV32::RiscVClz"]⟩,
  ⟨"ctz", [⟨25, 7, 48⟩, ⟨20, 5, 1⟩, ⟨12, 3, 1⟩, ⟨0, 7, 19⟩], [], [], [], "ctz", ["%rd, %rs1"], [(["rs1"], ["rd"])], ["&::mpact::sim::riscv::RV32::RiscVCtz"]⟩,
  ⟨"cpop", [⟨25, 7, 48⟩, ⟨20, 5, 2⟩, ⟨12, 3, 1⟩, ⟨0, 7, 19⟩], [], [], [], "cpop", ["%rd, %rs1"], [(["rs1"], ["rd"])], ["&::mpact::sim::riscv::RV32::RiscVCpop"]⟩,
  ⟨"max", [⟨25, 7, 5⟩, ⟨12, 3, 6⟩, ⟨0, 7, 51⟩], [], [], [], "max", ["%rd, %rs1, %rs2"], [(["rs1", "rs2"], ["rd"])], ["&::mpact::sim::riscv::RV32::RiscVMax"]⟩,
  ⟨"maxu", [⟨25, 7, 5⟩, ⟨12, 3, 7⟩, ⟨0, 7, 51⟩], [], [], [], "max", ["%rd, %rs1, %rs2"], [(["rs1", "rs2"], ["rd"])], ["&::mpact::sim::riscv::RV32::RiscVMaxu"]⟩,
  ⟨"min", [⟨25, 7, 5⟩, ⟨12, 3, 4⟩, ⟨0, 7, 51⟩], [], [], [], "min", ["%rd, %rs1, %rs2"], [(["rs1", "rs2"], ["rd"])], ["&::mpact::sim::riscv::RV32::RiscVMin"]⟩,
  ⟨"minu", [⟨25, 7, 5⟩, ⟨12, 3, 5⟩, ⟨0, 7, 51⟩], [], [], [], "min", ["%rd, %rs1, %rs2"], [(["rs1", "rs2"], ["rd"])], ["&::mpact::sim::riscv::RV32::RiscVMinu"]⟩,
  ⟨"sext_b", [⟨25, 7, 48⟩, ⟨20, 5, 4⟩, ⟨12, 3, 1⟩, ⟨0, 7, 19⟩], [], [], [], "sext.b", ["%rd, %rs1"], [(["rs1"], ["rd"])], ["&::mpact::sim::riscv::RV32::RiscVSextB"]⟩,
  ⟨"sext_h", [⟨25, 7, 48⟩, ⟨20, 5, 5⟩, ⟨12, 3, 1⟩, ⟨0, 7, 19⟩], [], [], [], "sext.h", ["%rd, %rs1"], [(["rs1"], ["rd"])], ["&::mpact::sim::riscv::RV32::RiscVSextH"]⟩,
  ⟨"rol", [⟨25, 7, 48⟩, ⟨12, 3, 1⟩, ⟨0, 7, 51⟩], [], [], [], "rol", ["%rd, %rs1, %rs2"], [(["rs1", "rs2"], ["rd"])], ["&::mpact::sim::riscv::RV32::RiscVRol"]⟩,
  ⟨"ror", [⟨25, 7, 48⟩, ⟨12, 3, 5⟩, ⟨0, 7, 51⟩], [], [], [], "ror", ["%rd, %rs1, %rs2"], [(["rs1", "rs2"], ["rd"])], ["&::mpact::sim::riscv::RV32::RiscVRor"]⟩,
  ⟨"orcb", [⟨25, 7, 20⟩, ⟨20, 5, 7⟩, ⟨12, 3, 5⟩, ⟨0, 7, 19⟩], [], [], [], "orc", ["%rd, %rs1"], [(["rs1"], ["rd"])], ["&::mpact::sim::riscv::RV32::RiscVOrcb"]⟩,
  ⟨"rev8", [⟨25, 7, 52⟩, ⟨20, 5, 24⟩, ⟨12, 3, 5⟩, ⟨0, 7, 19⟩], [], [], [], "rev8", ["%rd, %rs1"], [(["rs1"], ["rd"])], ["&::mpact::sim::riscv::RV32::RiscVRev8"]⟩]

def riscVZbbInst32Only : List Row := [
  ⟨"zext_h", [⟨25, 7, 4⟩, ⟨20, 5, 0⟩, ⟨12, 3, 4⟩, ⟨0, 7, 51⟩], [], [], [], "zext.h", ["%rd, %rs1"], [(["rs1"], ["rd"])], ["&::mpact::sim::riscv::RV32::RiscVZextH"]⟩]

def riscVZbbImmInst32 : List Row := [
  ⟨"rori", [⟨25, 7, 48⟩, ⟨12, 3, 5⟩, ⟨0, 7, 19⟩], [], [], [], "rori", ["%rd, %rs1, %r_uimm5"], [(["rs1", "r_uimm5"], ["rd"])], ["&::mpact::sim::riscv::RV32::RiscVRor"]⟩]

def riscVPrivInst32 : List Row := [
  ⟨"mret", [⟨7, 25, 6307840⟩, ⟨0, 7, 115⟩], [], [], [], "mret", [], [([], ["next_pc"])], ["&::mpact::sim::riscv::RV32::RiscVPrivMRet"]⟩,
  ⟨"wfi", [⟨7, 25, 2138112⟩, ⟨0, 7, 115⟩], [], [], [], "wfi", [], [([], [])], ["&::mpact::sim::riscv::RiscVPrivWfi"]⟩]

def coralNPUV2CustomInst32 : List Row := [
  ⟨"mpause", [⟨7, 25, 1048576⟩, ⟨0, 7, 115⟩], [], [], [], "mpause", [], [([], [])], ["&::coralnpu::sim::CoralNPUV2Mpause"]⟩]

end Verif.Model.V2Isa.Gen

namespace Verif.Model.V2Isa

/-- The rows of the decoder `CoralNPUV2Inst32` (coralnpu_v2.bin_fmt 21-35). -/
def rows : List Row :=
  Gen.riscVIInstBase32 ++
  Gen.riscVIHints32 ++
  Gen.riscVZicsrInst32 ++
  Gen.riscVZifenceiInst32 ++
  Gen.riscVMInst32 ++
  Gen.riscVFInst32 ++
  Gen.riscVZve32xInst32_0 ++
  Gen.riscVZve32xInst32_1 ++
  Gen.riscVZve32xInst32_2 ++
  Gen.riscVZve32xInst32_3 ++
  Gen.riscVZve32xInst32_4 ++
  Gen.riscVZve32xInst32_5 ++
  Gen.riscVZbbInst32 ++
  Gen.riscVZbbInst32Only ++
  Gen.riscVZbbImmInst32 ++
  Gen.riscVPrivInst32 ++
  Gen.coralNPUV2CustomInst32

end Verif.Model.V2Isa
