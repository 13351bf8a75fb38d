import Verif.Model.Isa

/-! Generated by tools/gen_rows.py from the instruction group `CoralNPUInst` of
/repo/sim/coralnpu_base.bin_fmt and the opcodes of the `.isa` files. -/

namespace Verif.Model.Gen

def g0_0 : List Row := [
  ⟨[.lui], [.lui], 0, [⟨0, 7, 55⟩], [], [.uImm20], [.rd], .scalar⟩,
  ⟨[.auipc], [.auipc], 0, [⟨0, 7, 23⟩], [], [.uImm20], [.rd], .scalar⟩,
  ⟨[.jal], [.jal], 0, [⟨0, 7, 111⟩], [⟨7, 5, 0⟩], [.jImm20], [.nextPc, .rd], .scalar⟩,
  ⟨[.j], [.j], 0, [⟨7, 5, 0⟩, ⟨0, 7, 111⟩], [], [.jImm20], [.nextPc, .rd], .scalar⟩,
  ⟨[.jalr], [.jalr], 0, [⟨12, 3, 0⟩, ⟨0, 7, 103⟩], [⟨7, 5, 0⟩], [.rs1, .jImm12], [.nextPc, .rd], .scalar⟩,
  ⟨[.jr], [.jr], 0, [⟨7, 5, 0⟩, ⟨12, 3, 0⟩, ⟨0, 7, 103⟩], [⟨15, 5, 1⟩], [.rs1, .jImm12], [.nextPc, .rd], .scalar⟩,
  ⟨[.ret], [.ret], 0, [⟨7, 5, 0⟩, ⟨15, 5, 1⟩, ⟨20, 12, 0⟩, ⟨12, 3, 0⟩, ⟨0, 7, 103⟩], [], [.rs1, .jImm12], [.nextPc, .rd], .scalar⟩,
  ⟨[.beq], [.beq], 0, [⟨12, 3, 0⟩, ⟨0, 7, 99⟩], [], [.rs1, .rs2, .bImm12], [.nextPc], .scalar⟩,
  ⟨[.bne], [.bne], 0, [⟨12, 3, 1⟩, ⟨0, 7, 99⟩], [], [.rs1, .rs2, .bImm12], [.nextPc], .scalar⟩,
  ⟨[.blt], [.blt], 0, [⟨12, 3, 4⟩, ⟨0, 7, 99⟩], [], [.rs1, .rs2, .bImm12], [.nextPc], .scalar⟩,
  ⟨[.bge], [.bge], 0, [⟨12, 3, 5⟩, ⟨0, 7, 99⟩], [], [.rs1, .rs2, .bImm12], [.nextPc], .scalar⟩,
  ⟨[.bltu], [.bltu], 0, [⟨12, 3, 6⟩, ⟨0, 7, 99⟩], [], [.rs1, .rs2, .bImm12], [.nextPc], .scalar⟩,
  ⟨[.bgeu], [.bgeu], 0, [⟨12, 3, 7⟩, ⟨0, 7, 99⟩], [], [.rs1, .rs2, .bImm12], [.nextPc], .scalar⟩,
  ⟨[.lb], [.lb], 0, [⟨12, 3, 0⟩, ⟨0, 7, 3⟩], [], [.rs1, .iImm12], [.rd], .scalar⟩,
  ⟨[.lh], [.lh], 0, [⟨12, 3, 1⟩, ⟨0, 7, 3⟩], [], [.rs1, .iImm12], [.rd], .scalar⟩,
  ⟨[.li], [.li], 0, [⟨15, 5, 0⟩, ⟨12, 3, 0⟩, ⟨0, 7, 19⟩], [⟨7, 5, 0⟩], [.rs1, .iImm12], [.rd], .scalar⟩,
  ⟨[.lw], [.lw], 0, [⟨12, 3, 2⟩, ⟨0, 7, 3⟩], [], [.rs1, .iImm12], [.rd], .scalar⟩,
  ⟨[.lbu], [.lbu], 0, [⟨12, 3, 4⟩, ⟨0, 7, 3⟩], [], [.rs1, .iImm12], [.rd], .scalar⟩,
  ⟨[.lhu], [.lhu], 0, [⟨12, 3, 5⟩, ⟨0, 7, 3⟩], [], [.rs1, .iImm12], [.rd], .scalar⟩,
  ⟨[.mv], [.mv], 0, [⟨20, 12, 0⟩, ⟨12, 3, 0⟩, ⟨0, 7, 19⟩], [⟨15, 5, 0⟩], [.rs1, .iImm12], [.rd], .scalar⟩,
  ⟨[.nop], [.nop], 0, [⟨7, 5, 0⟩, ⟨15, 5, 0⟩, ⟨20, 12, 0⟩, ⟨12, 3, 0⟩, ⟨0, 7, 19⟩], [], [], [], .scalar⟩,
  ⟨[.sb], [.sb], 0, [⟨12, 3, 0⟩, ⟨0, 7, 35⟩], [], [.rs1, .sImm12, .rs2], [], .scalar⟩,
  ⟨[.sh], [.sh], 0, [⟨12, 3, 1⟩, ⟨0, 7, 35⟩], [], [.rs1, .sImm12, .rs2], [], .scalar⟩,
  ⟨[.sw], [.sw], 0, [⟨12, 3, 2⟩, ⟨0, 7, 35⟩], [], [.rs1, .sImm12, .rs2], [], .scalar⟩,
  ⟨[.addi], [.addi], 0, [⟨12, 3, 0⟩, ⟨0, 7, 19⟩], [⟨15, 5, 0⟩, ⟨20, 12, 0⟩], [.rs1, .iImm12], [.rd], .scalar⟩,
  ⟨[.slti], [.slti], 0, [⟨12, 3, 2⟩, ⟨0, 7, 19⟩], [], [.rs1, .iImm12], [.rd], .scalar⟩,
  ⟨[.sltiu], [.sltiu], 0, [⟨12, 3, 3⟩, ⟨0, 7, 19⟩], [], [.rs1, .iImm12], [.rd], .scalar⟩,
  ⟨[.xori], [.xori], 0, [⟨12, 3, 4⟩, ⟨0, 7, 19⟩], [], [.rs1, .iImm12], [.rd], .scalar⟩,
  ⟨[.ori], [.ori], 0, [⟨12, 3, 6⟩, ⟨0, 7, 19⟩], [], [.rs1, .iImm12], [.rd], .scalar⟩,
  ⟨[.andi], [.andi], 0, [⟨12, 3, 7⟩, ⟨0, 7, 19⟩], [], [.rs1, .iImm12], [.rd], .scalar⟩,
  ⟨[.slli], [.slli], 0, [⟨25, 7, 0⟩, ⟨12, 3, 1⟩, ⟨0, 7, 19⟩], [], [.rs1, .iUimm5], [.rd], .scalar⟩,
  ⟨[.srli], [.srli], 0, [⟨25, 7, 0⟩, ⟨12, 3, 5⟩, ⟨0, 7, 19⟩], [], [.rs1, .iUimm5], [.rd], .scalar⟩,
  ⟨[.srai], [.srai], 0, [⟨25, 7, 32⟩, ⟨12, 3, 5⟩, ⟨0, 7, 19⟩], [], [.rs1, .iUimm5], [.rd], .scalar⟩,
  ⟨[.add], [.add], 0, [⟨25, 7, 0⟩, ⟨12, 3, 0⟩, ⟨0, 7, 51⟩], [], [.rs1, .rs2], [.rd], .scalar⟩,
  ⟨[.sub], [.sub], 0, [⟨25, 7, 32⟩, ⟨12, 3, 0⟩, ⟨0, 7, 51⟩], [], [.rs1, .rs2], [.rd], .scalar⟩,
  ⟨[.sll], [.sll], 0, [⟨25, 7, 0⟩, ⟨12, 3, 1⟩, ⟨0, 7, 51⟩], [], [.rs1, .rs2], [.rd], .scalar⟩,
  ⟨[.slt], [.slt], 0, [⟨25, 7, 0⟩, ⟨12, 3, 2⟩, ⟨0, 7, 51⟩], [], [.rs1, .rs2], [.rd], .scalar⟩,
  ⟨[.sltu], [.sltu], 0, [⟨25, 7, 0⟩, ⟨12, 3, 3⟩, ⟨0, 7, 51⟩], [], [.rs1, .rs2], [.rd], .scalar⟩,
  ⟨[.xor], [.xor], 0, [⟨25, 7, 0⟩, ⟨12, 3, 4⟩, ⟨0, 7, 51⟩], [], [.rs1, .rs2], [.rd], .scalar⟩,
  ⟨[.srl], [.srl], 0, [⟨25, 7, 0⟩, ⟨12, 3, 5⟩, ⟨0, 7, 51⟩], [], [.rs1, .rs2], [.rd], .scalar⟩,
  ⟨[.sra], [.sra], 0, [⟨25, 7, 32⟩, ⟨12, 3, 5⟩, ⟨0, 7, 51⟩], [], [.rs1, .rs2], [.rd], .scalar⟩,
  ⟨[.or], [.or], 0, [⟨25, 7, 0⟩, ⟨12, 3, 6⟩, ⟨0, 7, 51⟩], [], [.rs1, .rs2], [.rd], .scalar⟩,
  ⟨[.and], [.and], 0, [⟨25, 7, 0⟩, ⟨12, 3, 7⟩, ⟨0, 7, 51⟩], [], [.rs1, .rs2], [.rd], .scalar⟩,
  ⟨[.fence], [.fence], 0, [⟨12, 3, 0⟩, ⟨0, 7, 15⟩], [], [.iImm12], [], .scalar⟩,
  ⟨[.ecall], [.ecall], 0, [⟨7, 25, 0⟩, ⟨0, 7, 115⟩], [], [], [], .scalar⟩,
  ⟨[.ebreak], [.ebreak], 0, [⟨7, 25, 8192⟩, ⟨0, 7, 115⟩], [], [], [], .scalar⟩,
  ⟨[.fencei], [.fence, .i], 0, [⟨12, 3, 1⟩, ⟨0, 7, 15⟩], [], [.iImm12], [], .scalar⟩,
  ⟨[.mul], [.mul], 0, [⟨25, 7, 1⟩, ⟨12, 3, 0⟩, ⟨0, 7, 51⟩], [], [.rs1, .rs2], [.rd], .scalar⟩,
  ⟨[.mulh], [.mulh], 0, [⟨25, 7, 1⟩, ⟨12, 3, 1⟩, ⟨0, 7, 51⟩], [], [.rs1, .rs2], [.rd], .scalar⟩,
  ⟨[.mulhsu], [.mulhsu], 0, [⟨25, 7, 1⟩, ⟨12, 3, 2⟩, ⟨0, 7, 51⟩], [], [.rs1, .rs2], [.rd], .scalar⟩,
  ⟨[.mulhu], [.mulhu], 0, [⟨25, 7, 1⟩, ⟨12, 3, 3⟩, ⟨0, 7, 51⟩], [], [.rs1, .rs2], [.rd], .scalar⟩,
  ⟨[.div], [.div], 0, [⟨25, 7, 1⟩, ⟨12, 3, 4⟩, ⟨0, 7, 51⟩], [], [.rs1, .rs2], [.rd], .scalar⟩,
  ⟨[.divu], [.divu], 0, [⟨25, 7, 1⟩, ⟨12, 3, 5⟩, ⟨0, 7, 51⟩], [], [.rs1, .rs2], [.rd], .scalar⟩,
  ⟨[.rem], [.rem], 0, [⟨25, 7, 1⟩, ⟨12, 3, 6⟩, ⟨0, 7, 51⟩], [], [.rs1, .rs2], [.rd], .scalar⟩,
  ⟨[.remu], [.remu], 0, [⟨25, 7, 1⟩, ⟨12, 3, 7⟩, ⟨0, 7, 51⟩], [], [.rs1, .rs2], [.rd], .scalar⟩,
  ⟨[.csrrw], [.csrw], 0, [⟨12, 3, 1⟩, ⟨0, 7, 115⟩], [⟨7, 5, 0⟩], [.rs1, .csr], [.rd, .csr], .scalar⟩,
  ⟨[.csrrs], [.csrs], 0, [⟨12, 3, 2⟩, ⟨0, 7, 115⟩], [⟨15, 5, 0⟩, ⟨7, 5, 0⟩], [.rs1, .csr], [.rd, .csr], .scalar⟩,
  ⟨[.csrrc], [.csrc], 0, [⟨12, 3, 3⟩, ⟨0, 7, 115⟩], [⟨15, 5, 0⟩, ⟨7, 5, 0⟩], [.rs1, .csr], [.rd, .csr], .scalar⟩,
  ⟨[.csrrs, .nr], [.csrs], 0, [⟨12, 3, 2⟩, ⟨7, 5, 0⟩, ⟨0, 7, 115⟩], [⟨15, 5, 0⟩], [.rs1, .csr], [.rd, .csr], .scalar⟩,
  ⟨[.csrrc, .nr], [.csrc], 0, [⟨12, 3, 3⟩, ⟨7, 5, 0⟩, ⟨0, 7, 115⟩], [⟨15, 5, 0⟩], [.rs1, .csr], [.rd, .csr], .scalar⟩]

def g0_1 : List Row := [
  ⟨[.csrrw, .nr], [.csrw], 0, [⟨12, 3, 1⟩, ⟨7, 5, 0⟩, ⟨0, 7, 115⟩], [], [.rs1, .csr], [.csr], .scalar⟩,
  ⟨[.csrrs, .nw], [.csrs], 0, [⟨12, 3, 2⟩, ⟨15, 5, 0⟩, ⟨0, 7, 115⟩], [], [.csr], [.rd], .scalar⟩,
  ⟨[.csrrc, .nw], [.csrc], 0, [⟨12, 3, 3⟩, ⟨15, 5, 0⟩, ⟨0, 7, 115⟩], [], [.csr], [.rd], .scalar⟩,
  ⟨[.csrrwi], [.csrwi], 0, [⟨12, 3, 5⟩, ⟨0, 7, 115⟩], [⟨7, 5, 0⟩], [.csrUimm5, .csr], [.rd, .csr], .scalar⟩,
  ⟨[.csrrsi], [.csrsi], 0, [⟨12, 3, 6⟩, ⟨0, 7, 115⟩], [⟨15, 5, 0⟩, ⟨7, 5, 0⟩], [.csrUimm5, .csr], [.rd, .csr], .scalar⟩,
  ⟨[.csrrci], [.csrci], 0, [⟨12, 3, 7⟩, ⟨0, 7, 115⟩], [⟨15, 5, 0⟩, ⟨7, 5, 0⟩], [.csrUimm5, .csr], [.rd, .csr], .scalar⟩,
  ⟨[.csrrsi, .nr], [.csrsi], 0, [⟨12, 3, 6⟩, ⟨7, 5, 0⟩, ⟨0, 7, 115⟩], [⟨15, 5, 0⟩], [.csrUimm5, .csr], [.rd, .csr], .scalar⟩,
  ⟨[.csrrci, .nr], [.csrci], 0, [⟨12, 3, 7⟩, ⟨7, 5, 0⟩, ⟨0, 7, 115⟩], [⟨15, 5, 0⟩], [.csrUimm5, .csr], [.rd, .csr], .scalar⟩,
  ⟨[.csrrwi, .nr], [.csrrwi], 0, [⟨12, 3, 5⟩, ⟨7, 5, 0⟩, ⟨0, 7, 115⟩], [], [.csrUimm5, .csr], [.csr], .scalar⟩,
  ⟨[.csrrsi, .nw], [.csrsi], 0, [⟨12, 3, 6⟩, ⟨15, 5, 0⟩, ⟨0, 7, 115⟩], [], [.csr], [.rd], .scalar⟩,
  ⟨[.csrrci, .nw], [.csrwi], 0, [⟨12, 3, 7⟩, ⟨15, 5, 0⟩, ⟨0, 7, 115⟩], [], [.csr], [.rd], .scalar⟩,
  ⟨[.uret], [.uret], 0, [⟨7, 25, 16384⟩, ⟨0, 7, 115⟩], [], [], [.nextPc], .scalar⟩,
  ⟨[.sret], [.sret], 0, [⟨7, 25, 2113536⟩, ⟨0, 7, 115⟩], [], [], [.nextPc], .scalar⟩,
  ⟨[.mret], [.mret], 0, [⟨7, 25, 6307840⟩, ⟨0, 7, 115⟩], [], [], [.nextPc], .scalar⟩,
  ⟨[.wfi], [.wfi], 0, [⟨7, 25, 2138112⟩, ⟨0, 7, 115⟩], [], [], [], .scalar⟩,
  ⟨[.mpause], [.mpause], 0, [⟨7, 25, 1048576⟩, ⟨0, 7, 115⟩], [], [], [], .scalar⟩,
  ⟨[.sfence, .vma, .zz], [.sfence, .vma], 0, [⟨25, 7, 9⟩, ⟨20, 5, 0⟩, ⟨15, 5, 0⟩, ⟨12, 3, 0⟩, ⟨7, 5, 0⟩, ⟨0, 7, 115⟩], [], [.rs1, .rs2], [], .scalar⟩,
  ⟨[.sfence, .vma, .zn], [.sfence, .vma], 0, [⟨25, 7, 9⟩, ⟨15, 5, 0⟩, ⟨12, 3, 0⟩, ⟨7, 5, 0⟩, ⟨0, 7, 115⟩], [⟨20, 5, 0⟩], [.rs1, .rs2], [], .scalar⟩,
  ⟨[.sfence, .vma, .nz], [.sfence, .vma], 0, [⟨25, 7, 9⟩, ⟨20, 5, 0⟩, ⟨12, 3, 0⟩, ⟨7, 5, 0⟩, ⟨0, 7, 115⟩], [⟨15, 5, 0⟩], [.rs1, .rs2], [], .scalar⟩,
  ⟨[.sfence, .vma, .nn], [.sfence, .vma], 0, [⟨25, 7, 9⟩, ⟨12, 3, 0⟩, ⟨7, 5, 0⟩, ⟨0, 7, 115⟩], [⟨20, 5, 0⟩, ⟨15, 5, 0⟩], [.rs1, .rs2], [], .scalar⟩,
  ⟨[.flushall], [.flushall], 0, [⟨7, 25, 4980736⟩, ⟨0, 7, 119⟩], [], [], [], .scalar⟩,
  ⟨[.flushat], [.flushat], 0, [⟨25, 7, 19⟩, ⟨20, 5, 0⟩, ⟨12, 3, 0⟩, ⟨7, 5, 0⟩, ⟨0, 7, 119⟩], [⟨15, 5, 0⟩], [.rs1], [], .scalar⟩,
  ⟨[.getmaxvl, .b], [.getmaxvl, .b], 0, [⟨28, 4, 1⟩, ⟨27, 1, 0⟩, ⟨25, 2, 0⟩, ⟨20, 5, 0⟩, ⟨15, 5, 0⟩, ⟨12, 3, 0⟩, ⟨0, 7, 119⟩], [⟨7, 5, 0⟩], [], [.rd], .getvl .i8 false false false⟩,
  ⟨[.getmaxvl, .h], [.getmaxvl, .h], 0, [⟨28, 4, 1⟩, ⟨27, 1, 0⟩, ⟨25, 2, 1⟩, ⟨20, 5, 0⟩, ⟨15, 5, 0⟩, ⟨12, 3, 0⟩, ⟨0, 7, 119⟩], [⟨7, 5, 0⟩], [], [.rd], .getvl .i16 false false false⟩,
  ⟨[.getmaxvl, .w], [.getmaxvl, .w], 0, [⟨28, 4, 1⟩, ⟨27, 1, 0⟩, ⟨25, 2, 2⟩, ⟨20, 5, 0⟩, ⟨15, 5, 0⟩, ⟨12, 3, 0⟩, ⟨0, 7, 119⟩], [⟨7, 5, 0⟩], [], [.rd], .getvl .i32 false false false⟩,
  ⟨[.getvl, .b, .x], [.getvl, .b, .x], 0, [⟨28, 4, 1⟩, ⟨27, 1, 0⟩, ⟨25, 2, 0⟩, ⟨20, 5, 0⟩, ⟨12, 3, 0⟩, ⟨0, 7, 119⟩], [⟨15, 5, 0⟩, ⟨7, 5, 0⟩], [.rs1], [.rd], .getvl .i8 false true false⟩,
  ⟨[.getvl, .h, .x], [.getvl, .h, .x], 0, [⟨28, 4, 1⟩, ⟨27, 1, 0⟩, ⟨25, 2, 1⟩, ⟨20, 5, 0⟩, ⟨12, 3, 0⟩, ⟨0, 7, 119⟩], [⟨15, 5, 0⟩, ⟨7, 5, 0⟩], [.rs1], [.rd], .getvl .i16 false true false⟩,
  ⟨[.getvl, .w, .x], [.getvl, .w, .x], 0, [⟨28, 4, 1⟩, ⟨27, 1, 0⟩, ⟨25, 2, 2⟩, ⟨20, 5, 0⟩, ⟨12, 3, 0⟩, ⟨0, 7, 119⟩], [⟨15, 5, 0⟩, ⟨7, 5, 0⟩], [.rs1], [.rd], .getvl .i32 false true false⟩,
  ⟨[.getvl, .b, .xx], [.getvl, .b, .xx], 0, [⟨28, 4, 1⟩, ⟨27, 1, 0⟩, ⟨25, 2, 0⟩, ⟨12, 3, 0⟩, ⟨0, 7, 119⟩], [⟨20, 5, 0⟩, ⟨15, 5, 0⟩, ⟨7, 5, 0⟩], [.rs1, .rs2], [.rd], .getvl .i8 false true true⟩,
  ⟨[.getvl, .h, .xx], [.getvl, .h, .xx], 0, [⟨28, 4, 1⟩, ⟨27, 1, 0⟩, ⟨25, 2, 1⟩, ⟨12, 3, 0⟩, ⟨0, 7, 119⟩], [⟨20, 5, 0⟩, ⟨15, 5, 0⟩, ⟨7, 5, 0⟩], [.rs1, .rs2], [.rd], .getvl .i16 false true true⟩,
  ⟨[.getvl, .w, .xx], [.getvl, .w, .xx], 0, [⟨28, 4, 1⟩, ⟨27, 1, 0⟩, ⟨25, 2, 2⟩, ⟨12, 3, 0⟩, ⟨0, 7, 119⟩], [⟨20, 5, 0⟩, ⟨15, 5, 0⟩, ⟨7, 5, 0⟩], [.rs1, .rs2], [.rd], .getvl .i32 false true true⟩,
  ⟨[.getmaxvl, .b, .m], [.getmaxvl, .b, .m], 0, [⟨28, 4, 1⟩, ⟨27, 1, 1⟩, ⟨25, 2, 0⟩, ⟨20, 5, 0⟩, ⟨15, 5, 0⟩, ⟨12, 3, 0⟩, ⟨0, 7, 119⟩], [⟨7, 5, 0⟩], [], [.rd], .getvl .i8 true false false⟩,
  ⟨[.getmaxvl, .h, .m], [.getmaxvl, .h, .m], 0, [⟨28, 4, 1⟩, ⟨27, 1, 1⟩, ⟨25, 2, 1⟩, ⟨20, 5, 0⟩, ⟨15, 5, 0⟩, ⟨12, 3, 0⟩, ⟨0, 7, 119⟩], [⟨7, 5, 0⟩], [], [.rd], .getvl .i16 true false false⟩,
  ⟨[.getmaxvl, .w, .m], [.getmaxvl, .w, .m], 0, [⟨28, 4, 1⟩, ⟨27, 1, 1⟩, ⟨25, 2, 2⟩, ⟨20, 5, 0⟩, ⟨15, 5, 0⟩, ⟨12, 3, 0⟩, ⟨0, 7, 119⟩], [⟨7, 5, 0⟩], [], [.rd], .getvl .i32 true false false⟩,
  ⟨[.getvl, .b, .x, .m], [.getvl, .b, .x, .m], 0, [⟨28, 4, 1⟩, ⟨27, 1, 1⟩, ⟨25, 2, 0⟩, ⟨20, 5, 0⟩, ⟨12, 3, 0⟩, ⟨0, 7, 119⟩], [⟨15, 5, 0⟩, ⟨7, 5, 0⟩], [.rs1], [.rd], .getvl .i8 true true false⟩,
  ⟨[.getvl, .h, .x, .m], [.getvl, .h, .x, .m], 0, [⟨28, 4, 1⟩, ⟨27, 1, 1⟩, ⟨25, 2, 1⟩, ⟨20, 5, 0⟩, ⟨12, 3, 0⟩, ⟨0, 7, 119⟩], [⟨15, 5, 0⟩, ⟨7, 5, 0⟩], [.rs1], [.rd], .getvl .i16 true true false⟩,
  ⟨[.getvl, .w, .x, .m], [.getvl, .w, .x, .m], 0, [⟨28, 4, 1⟩, ⟨27, 1, 1⟩, ⟨25, 2, 2⟩, ⟨20, 5, 0⟩, ⟨12, 3, 0⟩, ⟨0, 7, 119⟩], [⟨15, 5, 0⟩, ⟨7, 5, 0⟩], [.rs1], [.rd], .getvl .i32 true true false⟩,
  ⟨[.getvl, .b, .xx, .m], [.getvl, .b, .xx, .m], 0, [⟨28, 4, 1⟩, ⟨27, 1, 1⟩, ⟨25, 2, 0⟩, ⟨12, 3, 0⟩, ⟨0, 7, 119⟩], [⟨20, 5, 0⟩, ⟨15, 5, 0⟩, ⟨7, 5, 0⟩], [.rs1, .rs2], [.rd], .getvl .i8 true true true⟩,
  ⟨[.getvl, .h, .xx, .m], [.getvl, .h, .xx, .m], 0, [⟨28, 4, 1⟩, ⟨27, 1, 1⟩, ⟨25, 2, 1⟩, ⟨12, 3, 0⟩, ⟨0, 7, 119⟩], [⟨20, 5, 0⟩, ⟨15, 5, 0⟩, ⟨7, 5, 0⟩], [.rs1, .rs2], [.rd], .getvl .i16 true true true⟩,
  ⟨[.getvl, .w, .xx, .m], [.getvl, .w, .xx, .m], 0, [⟨28, 4, 1⟩, ⟨27, 1, 1⟩, ⟨25, 2, 2⟩, ⟨12, 3, 0⟩, ⟨0, 7, 119⟩], [⟨20, 5, 0⟩, ⟨15, 5, 0⟩, ⟨7, 5, 0⟩], [.rs1, .rs2], [.rd], .getvl .i32 true true true⟩,
  ⟨[.flog], [.flog], 0, [⟨28, 4, 7⟩, ⟨27, 1, 1⟩, ⟨25, 2, 0⟩, ⟨20, 5, 0⟩, ⟨12, 3, 0⟩, ⟨7, 5, 0⟩, ⟨0, 7, 119⟩], [⟨15, 5, 0⟩], [.rs1], [], .scalar⟩,
  ⟨[.slog], [.slog], 0, [⟨28, 4, 7⟩, ⟨27, 1, 1⟩, ⟨25, 2, 0⟩, ⟨20, 5, 0⟩, ⟨12, 3, 1⟩, ⟨7, 5, 0⟩, ⟨0, 7, 119⟩], [⟨15, 5, 0⟩], [.rs1], [], .scalar⟩,
  ⟨[.clog], [.clog], 0, [⟨28, 4, 7⟩, ⟨27, 1, 1⟩, ⟨25, 2, 0⟩, ⟨20, 5, 0⟩, ⟨12, 3, 2⟩, ⟨7, 5, 0⟩, ⟨0, 7, 119⟩], [⟨15, 5, 0⟩], [.rs1], [], .scalar⟩,
  ⟨[.klog], [.klog], 0, [⟨28, 4, 7⟩, ⟨27, 1, 1⟩, ⟨25, 2, 0⟩, ⟨20, 5, 0⟩, ⟨12, 3, 3⟩, ⟨7, 5, 0⟩, ⟨0, 7, 119⟩], [⟨15, 5, 0⟩], [.rs1], [], .scalar⟩]

def group0 : List Row := g0_0 ++ g0_1

end Verif.Model.Gen
