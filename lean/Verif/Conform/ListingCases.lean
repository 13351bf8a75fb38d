/-!
# The listing of the RVV test program

Generated by `tools/gen_conform_listing.py` from `/repo/sim/test/testfiles/coralnpu_v2_rvv_add_intrinsic.disassm`: word and
mnemonic of every line.
-/

namespace Verif.Conform.V2

def listing : List (BitVec 32 × String) := [
  (0x00018117, "auipc"),
  (0x00010113, "mv"),
  (0x00010197, "auipc"),
  (0x7f818193, "addi"),
  (0x00000213, "li"),
  (0x00000313, "li"),
  (0x00000393, "li"),
  (0x00000413, "li"),
  (0x00000493, "li"),
  (0x00000593, "li"),
  (0x00000613, "li"),
  (0x00000693, "li"),
  (0x00000713, "li"),
  (0x00000793, "li"),
  (0x00000813, "li"),
  (0x00000893, "li"),
  (0x00000913, "li"),
  (0x00000993, "li"),
  (0x00000a13, "li"),
  (0x00000a93, "li"),
  (0x00000b13, "li"),
  (0x00000b93, "li"),
  (0x00000c13, "li"),
  (0x00000c93, "li"),
  (0x00000d13, "li"),
  (0x00000d93, "li"),
  (0x00000e13, "li"),
  (0x00000e93, "li"),
  (0x00000f13, "li"),
  (0x00000f93, "li"),
  (0x81018513, "addi"),
  (0x00011597, "auipc"),
  (0xf9458593, "addi"),
  (0x10c000ef, "jal"),
  (0x20000413, "li"),
  (0x20000493, "li"),
  (0x00947a63, "bgeu"),
  (0x00042283, "lw"),
  (0x000280e7, "jalr"),
  (0x00440413, "addi"),
  (0xfe946ae3, "bltu"),
  (0x00000297, "auipc"),
  (0x0c828293, "addi"),
  (0x30529073, "csrw"),
  (0x00010297, "auipc"),
  (0xf5028293, "addi"),
  (0x0badd537, "lui"),
  (0x00d50513, "addi"),
  (0x00a2a023, "sw"),
  (0x00000513, "li"),
  (0x00000593, "li"),
  (0x00000097, "auipc"),
  (0x02c08093, "addi"),
  (0x000080e7, "jalr"),
  (0x00010297, "auipc"),
  (0xf2828293, "addi"),
  (0x00a2a023, "sw"),
  (0x00050663, "beqz"),
  (0x00100073, "ebreak"),
  (0x0080006f, "j"),
  (0x08000073, ".insn"),
  (0x0000006f, "j"),
  (0xff010113, "addi"),
  (0x00112623, "sw"),
  (0x40000613, "li"),
  (0x00100593, "li"),
  (0x81018513, "addi"),
  (0x068000ef, "jal"),
  (0x40000613, "li"),
  (0x00600593, "li"),
  (0xc1018513, "addi"),
  (0x058000ef, "jal"),
  (0xc1018693, "addi"),
  (0x81018613, "addi"),
  (0x00010717, "auipc"),
  (0x6e870713, "addi"),
  (0x01018593, "addi"),
  (0x02000793, "li"),
  (0x0c27f057, "vsetvli"),
  (0x02068207, "vle8.v"),
  (0x02060807, "vle8.v"),
  (0xc7022457, "vwadd.vv"),
  (0x02075427, "vse16.v"),
  (0x02068693, "addi"),
  (0x02060613, "addi"),
  (0x04070713, "addi"),
  (0xfeb692e3, "bne"),
  (0x00000513, "li"),
  (0x00c12083, "lw"),
  (0x01010113, "addi"),
  (0x00008067, "ret"),
  (0x00100073, "ebreak"),
  (0x0000006f, "j"),
  (0x00050313, "mv"),
  (0x00060a63, "beqz"),
  (0x00b30023, "sb"),
  (0xfff60613, "addi"),
  (0x00130313, "addi"),
  (0xfe061ae3, "bnez"),
  (0x00008067, "ret"),
  (0x02b57063, "bgeu"),
  (0x00b562b3, "or"),
  (0x0032f293, "andi"),
  (0x00029e63, "bnez"),
  (0x00052023, "sw"),
  (0x00450513, "addi"),
  (0xfeb56ce3, "bltu"),
  (0x00008067, "ret"),
  (0x00b51463, "bne"),
  (0x00008067, "ret"),
  (0x00100073, "ebreak"),
  (0x02b57c63, "bgeu"),
  (0x00b562b3, "or"),
  (0x00c2e2b3, "or"),
  (0x0032f293, "andi"),
  (0x02029863, "bnez"),
  (0x40c502b3, "sub"),
  (0x40a58333, "sub"),
  (0x0262e263, "bltu"),
  (0x00062283, "lw"),
  (0x00460613, "addi"),
  (0x00552023, "sw"),
  (0x00450513, "addi"),
  (0xfeb568e3, "bltu"),
  (0x00008067, "ret"),
  (0x00b51463, "bne"),
  (0x00008067, "ret"),
  (0x00100073, "ebreak")]

end Verif.Conform.V2
