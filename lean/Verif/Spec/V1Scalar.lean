import Verif.Spec.V2Isa
import Verif.Spec.V2Operands

/-!
# The scalar instructions of the first core

RV32IM with Zicsr, Zifencei, the privileged instructions and the core's own scalar instructions (`mpause`, cache flush,
vector length, logging), from the RISC-V Unprivileged and Privileged ISA manuals and the ISA document of the core. A line
gives the fixed fields, the operands, and the function of mpact-riscv (or of the core) that performs the instruction.
`I_uimm5` is the shift amount, bits 24 … 20.
-/

namespace Verif.Spec.V1Scalar
open Verif.Spec Verif.Spec.V2Isa

def fn (s : String) : String := "&mpact::sim::riscv::" ++ s
def fn32 (s : String) : String := "&mpact::sim::riscv::RV32::" ++ s
def core (s : String) : String := "&coralnpu::sim::CoralNPU" ++ s
def bound (s args : String) : String := "absl::bind_front(&coralnpu::sim::CoralNPU" ++ s ++ args ++ ")"

def imm (m : String) (f : Nat) (s : String) : Line :=
  ⟨m, [op 0x13, f3 f], [], [(["rs1", "I_imm12"], ["rd"])], [fn32 s], [rd 0]⟩

def shift (m : String) (f g : Nat) (s : String) : Line :=
  ⟨m, [op 0x13, f3 f, f7 g], [], [(["rs1", "I_uimm5"], ["rd"])], [fn32 s], [rd 0]⟩

def reg (m : String) (f g : Nat) (s : String) : Line :=
  ⟨m, [op 0x33, f3 f, f7 g], [], [(["rs1", "rs2"], ["rd"])], [fn32 s], [rd 0]⟩

def jump (m : String) (f : Nat) (s : String) : Line :=
  ⟨m, [op 0x63, f3 f], [], [(["rs1", "rs2", "B_imm12"], ["next_pc"])], [fn32 s], []⟩

def ld (m : String) (f : Nat) (s : String) : Line :=
  ⟨m, [op 0x03, f3 f], [], [(["rs1", "I_imm12"], []), ([], ["rd"])], [fn32 s, fn32 (s ++ "Child")], []⟩

def st (m : String) (f : Nat) (T : String) : Line :=
  ⟨m, [op 0x23, f3 f], [], [(["rs1", "S_imm12", "rs2"], [])], [core ("IStore<" ++ T ++ ">")], []⟩

def base : List Line :=
  [⟨"lui", [op 0x37], [], [(["U_imm20"], ["rd"])], [fn32 "RiscVILui"], [rd 0]⟩,
   ⟨"auipc", [op 0x17], [], [(["U_imm20"], ["rd"])], [fn32 "RiscVIAuipc"], [rd 0]⟩,
   ⟨"jal", [op 0x6f], [], [(["J_imm20"], ["next_pc", "rd"])], [fn32 "RiscVIJal"], []⟩,
   ⟨"jalr", [op 0x67, f3 0], [], [(["rs1", "J_imm12"], ["next_pc", "rd"])], [fn32 "RiscVIJalr"], []⟩,
   jump "beq" 0 "RiscVIBeq", jump "bne" 1 "RiscVIBne", jump "blt" 4 "RiscVIBlt", jump "bge" 5 "RiscVIBge",
   jump "bltu" 6 "RiscVIBltu", jump "bgeu" 7 "RiscVIBgeu",
   ld "lb" 0 "RiscVILb", ld "lh" 1 "RiscVILh", ld "lw" 2 "RiscVILw", ld "lbu" 4 "RiscVILbu", ld "lhu" 5 "RiscVILhu",
   st "sb" 0 "uint8_t", st "sh" 1 "uint16_t", st "sw" 2 "uint32_t",
   imm "addi" 0 "RiscVIAdd", imm "slti" 2 "RiscVISlt", imm "sltiu" 3 "RiscVISltu", imm "xori" 4 "RiscVIXor",
   imm "ori" 6 "RiscVIOr", imm "andi" 7 "RiscVIAnd",
   shift "slli" 1 0 "RiscVISll", shift "srli" 5 0 "RiscVISrl", shift "srai" 5 0x20 "RiscVISra",
   reg "add" 0 0 "RiscVIAdd", reg "sub" 0 0x20 "RiscVISub", reg "sll" 1 0 "RiscVISll", reg "slt" 2 0 "RiscVISlt",
   reg "sltu" 3 0 "RiscVISltu", reg "xor" 4 0 "RiscVIXor", reg "srl" 5 0 "RiscVISrl", reg "sra" 5 0x20 "RiscVISra",
   reg "or" 6 0 "RiscVIOr", reg "and" 7 0 "RiscVIAnd",
   -- with `fm`, the predecessors and the successors as one operand
   ⟨"fence", [op 0x0f, f3 0], [], [(["I_imm12"], [])], [fn "RiscVIFence"], []⟩,
   ⟨"fence.i", [op 0x0f, f3 1], [], [(["I_imm12"], [])], [fn "RiscVZFencei"], []⟩,
   word "ecall" 0x73 (fn "RiscVIEcall") [], word "ebreak" 0x100073 (fn "RiscVIEbreak") []]

def muldiv : List Line :=
  [reg "mul" 0 1 "MMul", reg "mulh" 1 1 "MMulh", reg "mulhsu" 2 1 "MMulhsu", reg "mulhu" 3 1 "MMulhu",
   reg "div" 4 1 "MDiv", reg "divu" 5 1 "MDivu", reg "rem" 6 1 "MRem", reg "remu" 7 1 "MRemu"]

/-- `csrrw` with `rd` = x0 does not read, the others with `rs1` = x0 or a zero immediate do not write. -/
def csrs : List Line :=
  [("csrrw", 1, "rs1"), ("csrrwi", 5, "CSR_uimm5")].flatMap (fun (m, f, s) =>
    [⟨m, [op 0x73, f3 f], [rd 0], [([s, "csr"], ["rd", "csr"])], [fn32 "RiscVZiCsrrw"], []⟩,
     ⟨m, [op 0x73, f3 f, rd 0], [], [([s, "csr"], ["csr"])], [fn32 "RiscVZiCsrrwNr"], []⟩]) ++
  [("csrrs", 2, "rs1", "RiscVZiCsrrs"), ("csrrc", 3, "rs1", "RiscVZiCsrrc"), ("csrrsi", 6, "CSR_uimm5", "RiscVZiCsrrs"),
    ("csrrci", 7, "CSR_uimm5", "RiscVZiCsrrc")].flatMap (fun (m, f, s, g) =>
    [⟨m, [op 0x73, f3 f], [rs1 0], [([s, "csr"], ["rd", "csr"])], [fn32 g], []⟩,
     ⟨m, [op 0x73, f3 f, rs1 0], [], [(["csr"], ["rd"])], [fn32 "RiscVZiCsrrNw"], []⟩])

def sfence (fixed other : List Bits) (s : String) : Line :=
  ⟨"sfence.vma", op 0x73 :: f3 0 :: rd 0 :: f7 9 :: fixed, other, [(["rs1", "rs2"], [])], [fn ("RiscVPrivSFenceVma" ++ s)], []⟩

def privileged : List Line :=
  [word "uret" 0x00200073 (fn32 "RiscVPrivURet") ["next_pc"], word "sret" 0x10200073 (fn32 "RiscVPrivSRet") ["next_pc"],
   word "mret" 0x30200073 (fn32 "RiscVPrivMRet") ["next_pc"], word "wfi" 0x10500073 (fn "RiscVPrivWfi") [],
   sfence [rs1 0, rs2 0] [] "ZZ", sfence [rs1 0] [rs2 0] "ZN", sfence [rs2 0] [rs1 0] "NZ", sfence [] [rs1 0, rs2 0] "NN"]

/-- A system instruction of the core: major opcode 0x77, and bits 31 … 25. -/
def sys (m : String) (g f : Nat) (fixed other : List Bits) (src dst : List String) (s : String) : Line :=
  ⟨m, op 0x77 :: f3 f :: f7 g :: fixed, other, [(src, dst)], [s], []⟩

/-- Element types by the `mode` field. -/
def modes : List (Nat × String × String) := [(0, "b", "int8_t"), (1, "h", "int16_t"), (2, "w", "int32_t")]

/-- `getmaxvl`, `getvl` with one and with two limits; `m` is the group of four registers. -/
def lengths : List Line :=
  [(0, "", "false"), (1, ".m", "true")].flatMap fun (m, t, b) => modes.flatMap fun (z, u, T) =>
    [sys ("getmaxvl." ++ u ++ t) (8 + 4 * m + z) 0 [rs1 0, rs2 0] [rd 0] [] ["rd"] (bound "GetVl" ("<" ++ T ++ ">," ++ b ++ ",false,false")),
     sys ("getvl." ++ u ++ ".x" ++ t) (8 + 4 * m + z) 0 [rs2 0] [rd 0, rs1 0] ["rs1"] ["rd"]
       (bound "GetVl" ("<" ++ T ++ ">," ++ b ++ ",true,false")),
     sys ("getvl." ++ u ++ ".xx" ++ t) (8 + 4 * m + z) 0 [] [rd 0, rs1 0, rs2 0] ["rs1", "rs2"] ["rd"]
       (bound "GetVl" ("<" ++ T ++ ">," ++ b ++ ",true,true"))]

def own : List Line :=
  [word "mpause" 0x08000073 (core "IMpause") [], word "flushall" 0x26000077 (core "NopInstruction") [],
   sys "flushat" 0x13 0 [rd 0, rs2 0] [rs1 0] ["rs1"] [] (core "NopInstruction")] ++
  [("flog", 0, "0"), ("slog", 1, "1"), ("clog", 2, "2"), ("klog", 3, "3")].map fun (m, f, k) =>
    sys m 0x3c f [rd 0, rs2 0] [rs1 0] ["rs1"] [] (bound "LogInstruction" ("," ++ k))

def listing : List Line := base ++ muldiv ++ csrs ++ privileged ++ lengths ++ own

/-- Assembler names for special cases, and shortened names, of the instructions. -/
def aliases : List (String × String) :=
  [("j", "jal"), ("jr", "jalr"), ("ret", "jalr"), ("li", "addi"), ("mv", "addi"), ("nop", "addi"), ("csrw", "csrrw"),
   ("csrs", "csrrs"), ("csrc", "csrrc"), ("csrsi", "csrrsi"), ("csrci", "csrrci")]

/-- The instruction a name stands for. -/
def nameOf (s : String) : String := (aliases.lookup s).getD s

/-- Immediates with a sign: bit 31 is the sign. -/
def signedImms : List (String × (BitVec 32 → Int)) :=
  [("I_imm12", fun w => -2048 * V2Isa.bit w 31 + bitsAt w 20 11),
   ("J_imm12", fun w => -2048 * V2Isa.bit w 31 + bitsAt w 20 11),
   ("S_imm12", fun w => -2048 * V2Isa.bit w 31 + 32 * bitsAt w 25 6 + bitsAt w 7 5),
   ("B_imm12", fun w => -4096 * V2Isa.bit w 31 + 2048 * V2Isa.bit w 7 + 32 * bitsAt w 25 6 + 2 * bitsAt w 8 4),
   ("J_imm20", fun w => -1048576 * V2Isa.bit w 31 + 4096 * bitsAt w 12 8 + 2048 * V2Isa.bit w 20 + 2 * bitsAt w 21 10)]

/-- Immediates without a sign. -/
def unsignedImms : List (String × (BitVec 32 → Nat)) :=
  [("U_imm20", fun w => 4096 * bitsAt w 12 20), ("I_uimm5", fun w => bitsAt w 20 5), ("r_uimm5", fun w => bitsAt w 20 5),
   ("CSR_uimm5", fun w => bitsAt w 15 5), ("csr", fun w => bitsAt w 20 12)]

end Verif.Spec.V1Scalar
