import Verif.Gen.Tok
import Verif.Model.Isa

/-! Generated by tools/gen_conform.py from /repo/sim/test/coralnpu_encoding_test.cc: the words that the test parses,
with the results it expects. -/

namespace Verif.Conform.Encoding
open Verif.Model

/-- Words and the opcode expected (every test but `RV32ZBBOpcodes`). -/
def opcodes : List (BitVec 32 × List Tok) := [
  (0x000000b7, [.lui]),
  (0x00000097, [.auipc]),
  (0x000000ef, [.jal]),
  (0x00008067, [.ret]),
  (0x00010067, [.jr]),
  (0x000000e7, [.jalr]),
  (0x00000063, [.beq]),
  (0x00001063, [.bne]),
  (0x00004063, [.blt]),
  (0x00005063, [.bge]),
  (0x00006063, [.bltu]),
  (0x00007063, [.bgeu]),
  (0x00000083, [.lb]),
  (0x00001083, [.lh]),
  (0x00002083, [.lw]),
  (0x00004083, [.lbu]),
  (0x00005083, [.lhu]),
  (0x000000a3, [.sb]),
  (0x000010a3, [.sh]),
  (0x000020a3, [.sw]),
  (0x00000013, [.nop]),
  (0x00000093, [.li]),
  (0x00010093, [.mv]),
  (0x00110093, [.addi]),
  (0x00002093, [.slti]),
  (0x00003093, [.sltiu]),
  (0x00004093, [.xori]),
  (0x00006093, [.ori]),
  (0x00007093, [.andi]),
  (0x00001093, [.slli]),
  (0x00005093, [.srli]),
  (0x40005093, [.srai]),
  (0x000000b3, [.add]),
  (0x400000b3, [.sub]),
  (0x000010b3, [.sll]),
  (0x000020b3, [.slt]),
  (0x000030b3, [.sltu]),
  (0x000040b3, [.xor]),
  (0x000050b3, [.srl]),
  (0x400050b3, [.sra]),
  (0x000060b3, [.or]),
  (0x000070b3, [.and]),
  (0x0ff0000f, [.fence]),
  (0x00000073, [.ecall]),
  (0x00100073, [.ebreak]),
  (0x08000073, [.mpause]),
  (0x26000077, [.flushall]),
  (0x26008077, [.flushat]),
  (0x100000f7, [.getmaxvl, .b]),
  (0x120080f7, [.getvl, .h, .x]),
  (0x141080f7, [.getvl, .w, .xx]),
  (0x78008077, [.flog]),
  (0x78009077, [.slog]),
  (0x7800a077, [.clog]),
  (0x7800b077, [.klog]),
  (0x0000100f, [.fencei]),
  (0x000010f3, [.csrrw]),
  (0x0000a0f3, [.csrrs]),
  (0x0000b0f3, [.csrrc]),
  (0x00001073, [.csrrw, .nr]),
  (0x00002073, [.csrrs, .nw]),
  (0x00003073, [.csrrc, .nw]),
  (0x000050f3, [.csrrwi]),
  (0x0000e0f3, [.csrrsi]),
  (0x0000f0f3, [.csrrci]),
  (0x00005073, [.csrrwi, .nr]),
  (0x00006073, [.csrrsi, .nw]),
  (0x00007073, [.csrrci, .nw]),
  (0x02000033, [.mul]),
  (0x02001033, [.mulh]),
  (0x02002033, [.mulhsu]),
  (0x02003033, [.mulhu]),
  (0x02004033, [.div]),
  (0x02005033, [.divu]),
  (0x02006033, [.rem]),
  (0x02007033, [.remu]),
  (0x0000801f, [.vld, .b, .x]),
  (0x0000901f, [.vld, .h, .x]),
  (0x0000001f, [.vld, .b, .x]),
  (0x0420a01f, [.vld, .w, .l, .xx]),
  (0x2000801f, [.vst, .b, .x]),
  (0x2000001f, [.vst, .b, .x]),
  (0x2420a01f, [.vst, .w, .l, .xx]),
  (0x6820801f, [.vstq, .b, .s, .xx]),
  (0x40100208, [.vsrans, .b, .vv]),
  (0x48100208, [.vsrans, .b, .r, .vv]),
  (0x40101208, [.vsrans, .h, .vv]),
  (0x60100208, [.vsraqs, .b, .vv]),
  (0x68100208, [.vsraqs, .b, .r, .vv]),
  (0x28101210, [.vacc, .h, .vv]),
  (0x2c102210, [.vacc, .w, .u, .vv]),
  (0x40040c06, [.acset]),
  (0x44040c06, [.actr]),
  (0x48040c06, [.adwinit]),
  (0x20142c05, [.aconv, .vxv]),
  (0x00004080, [.vadd, .b, .vv]),
  (0x20142c15, [.vdwconv, .vxv]),
  (0x10101210, [.vaddw, .h, .vv]),
  (0x1c102210, [.vsubw, .w, .u, .vv]),
  (0x28100200, [.vle, .b, .vv]),
  (0x34100204, [.vmvp, .vv]),
  (0x1010120c, [.vmulw, .h, .vv]),
  (0x1410220c, [.vmulw, .w, .u, .vv]),
  (0x68100218, [.vevnodd, .b, .vv]),
  (0x70101218, [.vzip, .h, .vv]),
  (0x50000c1f, [.vcget]),
  (0x00004082, [.vadd, .b, .vx])]

/-- Words for which no opcode is expected. -/
def nones : List (BitVec 32) := [0x40102208]

/-- Words of the test `RV32ZBBOpcodes`, decoded by groups that are not part of /repo. -/
def zbb : List (BitVec 32) := [0x40007033, 0x40006033, 0x40004033, 0x60001013, 0x60101013, 0x60201013, 0x0a006033, 0x0a007033, 0x0a004033, 0x0a005033, 0x60401013, 0x60501013, 0x60001033, 0x60005033, 0x28705013, 0x69805013, 0x08004033, 0x60005013]

/-- Number of registers expected of a vector source operand. -/
def srcSizes : List (BitVec 32 × List Tok × Opd × Nat) := [
  (0x40100208, [.vsrans, .b, .vv], .vs1, 2),
  (0x48100208, [.vsrans, .b, .r, .vv], .vs1, 2),
  (0x40101208, [.vsrans, .h, .vv], .vs1, 2),
  (0x60100208, [.vsraqs, .b, .vv], .vs1, 4),
  (0x68100208, [.vsraqs, .b, .r, .vv], .vs1, 4),
  (0x28101210, [.vacc, .h, .vv], .vs1, 2),
  (0x2c102210, [.vacc, .w, .u, .vv], .vs1, 2),
  (0x40040c06, [.acset], .vs1, 8),
  (0x44040c06, [.actr], .vs1, 8),
  (0x48040c06, [.adwinit], .vs1, 4),
  (0x20142c05, [.aconv, .vxv], .vs1, 8),
  (0x00004080, [.vadd, .b, .vv], .vs1, 1),
  (0x20142c15, [.vdwconv, .vxv], .vs1, 9),
  (0x20142c05, [.aconv, .vxv], .vs3, 8),
  (0x00004080, [.vadd, .b, .vv], .vs2, 1)]

/-- First register expected of a vector source operand. -/
def srcFirst : List (BitVec 32 × List Tok × Opd × Nat) := [
  (0x2000801f, [.vst, .b, .x], .vd, 0),
  (0x20142c05, [.aconv, .vxv], .vs3, 8),
  (0x00004080, [.vadd, .b, .vv], .vs2, 0)]

/-- Number of registers expected of the vector destination. -/
def dstSizes : List (BitVec 32 × List Tok × Opd × Nat) := [
  (0x0000801f, [.vld, .b, .x], .vd, 1),
  (0x10101210, [.vaddw, .h, .vv], .vd, 2),
  (0x1c102210, [.vsubw, .w, .u, .vv], .vd, 2),
  (0x28101210, [.vacc, .h, .vv], .vd, 2),
  (0x2c102210, [.vacc, .w, .u, .vv], .vd, 2),
  (0x28100200, [.vle, .b, .vv], .vd, 1),
  (0x34100204, [.vmvp, .vv], .vd, 2),
  (0x1010120c, [.vmulw, .h, .vv], .vd, 2),
  (0x1410220c, [.vmulw, .w, .u, .vv], .vd, 2),
  (0x68100218, [.vevnodd, .b, .vv], .vd, 2),
  (0x70101218, [.vzip, .h, .vv], .vd, 2),
  (0x48040c06, [.adwinit], .vd, 4),
  (0x50000c1f, [.vcget], .vd, 8),
  (0x20142c15, [.vdwconv, .vxv], .vd, 4)]

/-- Scalar source operands: number of the register expected, 0 for `zero`. -/
def scalars : List (BitVec 32 × List Tok × Opd × Nat) := [
  (0x0000001f, [.vld, .b, .x], .vs1, 0),
  (0x0420a01f, [.vld, .w, .l, .xx], .vs1, 1),
  (0x0420a01f, [.vld, .w, .l, .xx], .vs2, 2),
  (0x6820801f, [.vstq, .b, .s, .xx], .vs2, 2),
  (0x00004082, [.vadd, .b, .vx], .vs2, 0)]

/-- Scalar destination operands: number of the register expected, 0 for `zero`. -/
def scalarDsts : List (BitVec 32 × List Tok × Opd × Nat) := [
  (0x2000001f, [.vst, .b, .x], .vs1, 0),
  (0x2420a01f, [.vst, .w, .l, .xx], .vs1, 1)]

end Verif.Conform.Encoding
