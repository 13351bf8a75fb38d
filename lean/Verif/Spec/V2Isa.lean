import Verif.Spec.Conv

/-!
# The instructions of the second core

RV32IMF with Zicsr, Zifencei, Zbb, `mret`, `wfi`, the core's own `mpause`, and the Zve32x vector instructions, from the
listings of the RISC-V Unprivileged and Privileged ISA manuals and the "V" extension 1.0. Each line gives the fixed
fields of the encoding, the operands, and the function of mpact-riscv (or of the core, for memory accesses) that
performs the instruction. Reserved encodings have no line.
-/

namespace Verif.Spec.V2Isa
open Verif.Spec

/-- A field of the word: position, width and a value. -/
abbrev Bits := Nat × Nat × Nat

/-- One line of the listing. -/
structure Line where
  /-- Assembler name. -/
  mnem : String
  /-- Fields that have this value. -/
  fixed : List Bits
  /-- Fields that do not have this value. -/
  other : List Bits
  /-- Source and destination operands of the instruction and, for a load, of its completion. -/
  parts : List (List String × List String)
  /-- The functions for these parts. -/
  sems : List String
  /-- The instruction has no effect when one of these fields has this value. -/
  nopIf : List Bits
deriving DecidableEq

/-- The word is an encoding of the line. -/
def Line.Is (e : Line) (w : BitVec 32) : Prop :=
  (∀ b ∈ e.fixed, bitsAt w b.1 b.2.1 = b.2.2) ∧ (∀ b ∈ e.other, bitsAt w b.1 b.2.1 ≠ b.2.2)

/-! ### Field names -/

def op (v : Nat) : Bits := (0, 7, v)
def rd (v : Nat) : Bits := (7, 5, v)
def f3 (v : Nat) : Bits := (12, 3, v)
def rs1 (v : Nat) : Bits := (15, 5, v)
def rs2 (v : Nat) : Bits := (20, 5, v)
def f7 (v : Nat) : Bits := (25, 7, v)
def i12 (v : Nat) : Bits := (20, 12, v)
def f6 (v : Nat) : Bits := (26, 6, v)
def vm (v : Nat) : Bits := (25, 1, v)
def nf (v : Nat) : Bits := (29, 3, v)
def mew (v : Nat) : Bits := (28, 1, v)
def mop (v : Nat) : Bits := (26, 2, v)

def ext (s : String) : String := "&::mpact::sim::riscv::" ++ s
def ext32 (s : String) : String := "&::mpact::sim::riscv::RV32::" ++ s
def own (s : String) : String := "&::coralnpu::sim::CoralNPUV2" ++ s
def bind (s args : String) : String := "absl::bind_front(&::mpact::sim::riscv::" ++ s ++ args ++ ")"

/-! ### Scalar instructions -/

def opImm (m : String) (f : Nat) (s : String) : Line :=
  ⟨m, [op 0x13, f3 f], [], [(["rs1", "I_imm12"], ["rd"])], [ext32 s], [rd 0]⟩

def opShift (m : String) (f g : Nat) (s : String) : Line :=
  ⟨m, [op 0x13, f3 f, f7 g], [], [(["rs1", "r_uimm5"], ["rd"])], [ext32 s], [rd 0]⟩

def opReg (m : String) (f g : Nat) (s : String) : Line :=
  ⟨m, [op 0x33, f3 f, f7 g], [], [(["rs1", "rs2"], ["rd"])], [ext32 s], [rd 0]⟩

def opUn (m : String) (o f g : Nat) (s : String) : Line :=
  ⟨m, [op o, f3 f, i12 g], [], [(["rs1"], ["rd"])], [ext32 s], [rd 0]⟩

def branch (m : String) (f : Nat) (s : String) : Line :=
  ⟨m, [op 0x63, f3 f], [], [(["rs1", "rs2", "B_imm12"], ["next_pc"])], [ext32 s], []⟩

def load (m : String) (f : Nat) (s c : String) : Line :=
  ⟨m, [op 0x03, f3 f], [], [(["rs1", "I_imm12"], []), ([], ["rd"])], [own s, ext32 c], []⟩

def store (m : String) (f : Nat) (s : String) : Line :=
  ⟨m, [op 0x23, f3 f], [], [(["rs1", "S_imm12", "rs2"], [])], [own s], []⟩

def word (m : String) (v : Nat) (s : String) (dst : List String) : Line :=
  ⟨m, [(0, 32, v)], [], [([], dst)], [s], []⟩

def rv32i : List Line :=
  [⟨"lui", [op 0x37], [], [(["U_imm20"], ["rd"])], [ext32 "RiscVILui"], [rd 0]⟩,
   ⟨"auipc", [op 0x17], [], [(["U_imm20"], ["rd"])], [ext32 "RiscVIAuipc"], [rd 0]⟩,
   ⟨"jal", [op 0x6f], [], [(["J_imm20"], ["next_pc", "rd"])], [ext32 "RiscVIJal"], []⟩,
   ⟨"jalr", [op 0x67, f3 0], [], [(["rs1", "J_imm12"], ["next_pc", "rd"])], [ext32 "RiscVIJalr"], []⟩,
   branch "beq" 0 "RiscVIBeq", branch "bne" 1 "RiscVIBne", branch "blt" 4 "RiscVIBlt", branch "bge" 5 "RiscVIBge",
   branch "bltu" 6 "RiscVIBltu", branch "bgeu" 7 "RiscVIBgeu",
   load "lb" 0 "Lb" "RiscVILbChild", load "lh" 1 "Lh" "RiscVILhChild", load "lw" 2 "Lw" "RiscVILwChild",
   load "lbu" 4 "Lbu" "RiscVILbuChild", load "lhu" 5 "Lhu" "RiscVILhuChild",
   store "sb" 0 "Sb", store "sh" 1 "Sh", store "sw" 2 "Sw",
   opImm "addi" 0 "RiscVIAdd", opImm "slti" 2 "RiscVISlt", opImm "sltiu" 3 "RiscVISltu", opImm "xori" 4 "RiscVIXor",
   opImm "ori" 6 "RiscVIOr", opImm "andi" 7 "RiscVIAnd",
   opShift "slli" 1 0 "RiscVISll", opShift "srli" 5 0 "RiscVISrl", opShift "srai" 5 0x20 "RiscVISra",
   opReg "add" 0 0 "RiscVIAdd", opReg "sub" 0 0x20 "RiscVISub", opReg "sll" 1 0 "RiscVISll", opReg "slt" 2 0 "RiscVISlt",
   opReg "sltu" 3 0 "RiscVISltu", opReg "xor" 4 0 "RiscVIXor", opReg "srl" 5 0 "RiscVISrl", opReg "sra" 5 0x20 "RiscVISra",
   opReg "or" 6 0 "RiscVIOr", opReg "and" 7 0 "RiscVIAnd",
   -- "base implementations shall ignore" rd and rs1 "and treat all reserved configurations as normal fences"
   ⟨"fence", [op 0x0f, f3 0], [(20, 12, 0x833)], [(["pred", "succ"], [])], [ext "RiscVIFence"], [(24, 4, 0), (20, 4, 0)]⟩,
   ⟨"fence.tso", [op 0x0f, f3 0, (20, 12, 0x833)], [], [([], [])], [ext "RiscVIFenceTso"], []⟩,
   word "ecall" 0x73 (ext "RiscVIEcall") [], word "ebreak" 0x100073 (ext "RiscVIEbreak") []]

/-- `csrrw` with `rd` = x0 does not read, the others with `rs1` = x0 or a zero immediate do not write. -/
def zicsr : List Line :=
  [("csrrw", 1, "rs1"), ("csrrwi", 5, "CSR_uimm5")].flatMap (fun (m, f, s) =>
    [⟨m, [op 0x73, f3 f], [rd 0], [([s, "csr"], ["rd", "csr"])], [ext32 "RiscVZiCsrrw"], []⟩,
     ⟨m, [op 0x73, f3 f, rd 0], [], [([s, "csr"], ["csr"])], [ext32 "RiscVZiCsrrwNr"], []⟩]) ++
  [("csrrs", 2, "rs1", "RiscVZiCsrrs"), ("csrrc", 3, "rs1", "RiscVZiCsrrc"), ("csrrsi", 6, "CSR_uimm5", "RiscVZiCsrrs"),
    ("csrrci", 7, "CSR_uimm5", "RiscVZiCsrrc")].flatMap (fun (m, f, s, g) =>
    [⟨m, [op 0x73, f3 f], [rs1 0], [([s, "csr"], ["rd", "csr"])], [ext32 g], []⟩,
     ⟨m, [op 0x73, f3 f, rs1 0], [], [(["csr"], ["rd"])], [ext32 "RiscVZiCsrrNw"], []⟩])

def rv32m : List Line :=
  [opReg "mul" 0 1 "MMul", opReg "mulh" 1 1 "MMulh", opReg "mulhsu" 2 1 "MMulhsu", opReg "mulhu" 3 1 "MMulhu",
   opReg "div" 4 1 "MDiv", opReg "divu" 5 1 "MDivu", opReg "rem" 6 1 "MRem", opReg "remu" 7 1 "MRemu"]

def fpFma (m : String) (o : Nat) (s : String) : Line :=
  ⟨m, [op o, (25, 2, 0)], [], [(["frs1", "frs2", "frs3", "rm"], ["frd"])], [ext s], []⟩

def fpBin (m : String) (g : Nat) (s : String) : Line :=
  ⟨m, [op 0x53, f7 g], [], [(["frs1", "frs2", "rm"], ["frd"])], [ext s], []⟩

def fpSel (m : String) (g f : Nat) (s : String) : Line :=
  ⟨m, [op 0x53, f7 g, f3 f], [], [(["frs1", "frs2"], ["frd"])], [ext s], []⟩

def fpCmp (m : String) (f : Nat) (s : String) : Line :=
  ⟨m, [op 0x53, f7 0x50, f3 f], [], [(["frs1", "frs2"], ["rd"])], [ext32 s], []⟩

/-- Accrued exception flags are left out. -/
def rv32f : List Line :=
  [⟨"flw", [op 0x07, f3 2], [], [(["rs1", "I_imm12"], []), ([], ["frd"])], [own "Lw", ext "RiscVIFlwChild"], []⟩,
   ⟨"fsw", [op 0x27, f3 2], [], [(["rs1", "S_imm12", "frs2"], [])], [own "Fsw"], []⟩,
   fpFma "fmadd.s" 0x43 "RiscVFMadd", fpFma "fmsub.s" 0x47 "RiscVFMsub", fpFma "fnmsub.s" 0x4b "RiscVFNmsub",
   fpFma "fnmadd.s" 0x4f "RiscVFNmadd", fpBin "fadd.s" 0 "RiscVFAdd", fpBin "fsub.s" 4 "RiscVFSub",
   fpBin "fmul.s" 8 "RiscVFMul", fpBin "fdiv.s" 0xc "RiscVFDiv",
   ⟨"fsqrt.s", [op 0x53, f7 0x2c, rs2 0], [], [(["frs1", "rm"], ["frd"])], [ext "RiscVFSqrt"], []⟩,
   fpSel "fsgnj.s" 0x10 0 "RiscVFSgnj", fpSel "fsgnjn.s" 0x10 1 "RiscVFSgnjn", fpSel "fsgnjx.s" 0x10 2 "RiscVFSgnjx",
   fpSel "fmin.s" 0x14 0 "RiscVFMin", fpSel "fmax.s" 0x14 1 "RiscVFMax",
   ⟨"fcvt.w.s", [op 0x53, f7 0x60, rs2 0], [], [(["frs1", "rm"], ["rd"])], [ext32 "RiscVFCvtWs"], []⟩,
   ⟨"fcvt.wu.s", [op 0x53, f7 0x60, rs2 1], [], [(["frs1", "rm"], ["rd"])], [ext32 "RiscVFCvtWus"], []⟩,
   ⟨"fmv.x.w", [op 0x53, f7 0x70, rs2 0, f3 0], [], [(["frs1"], ["rd"])], [ext32 "RiscVFMvxw"], []⟩,
   fpCmp "feq.s" 2 "RiscVFCmpeq", fpCmp "flt.s" 1 "RiscVFCmplt", fpCmp "fle.s" 0 "RiscVFCmple",
   ⟨"fclass.s", [op 0x53, f7 0x70, rs2 0, f3 1], [], [(["frs1"], ["rd"])], [ext32 "RiscVFClass"], []⟩,
   ⟨"fcvt.s.w", [op 0x53, f7 0x68, rs2 0], [], [(["rs1", "rm"], ["frd"])], [ext "RiscVFCvtSw"], []⟩,
   ⟨"fcvt.s.wu", [op 0x53, f7 0x68, rs2 1], [], [(["rs1", "rm"], ["frd"])], [ext "RiscVFCvtSwu"], []⟩,
   ⟨"fmv.w.x", [op 0x53, f7 0x78, rs2 0, f3 0], [], [(["rs1"], ["frd"])], [ext "RiscVFMvwx"], []⟩]

def zbb : List Line :=
  [opReg "andn" 7 0x20 "RiscVAndn", opReg "orn" 6 0x20 "RiscVOrn", opReg "xnor" 4 0x20 "RiscVXnor",
   opUn "clz" 0x13 1 0x600 "RiscVClz", opUn "ctz" 0x13 1 0x601 "RiscVCtz", opUn "cpop" 0x13 1 0x602 "RiscVCpop",
   opReg "max" 6 5 "RiscVMax", opReg "maxu" 7 5 "RiscVMaxu", opReg "min" 4 5 "RiscVMin", opReg "minu" 5 5 "RiscVMinu",
   opUn "sext.b" 0x13 1 0x604 "RiscVSextB", opUn "sext.h" 0x13 1 0x605 "RiscVSextH", opUn "zext.h" 0x33 4 0x080 "RiscVZextH",
   opReg "rol" 1 0x30 "RiscVRol", opReg "ror" 5 0x30 "RiscVRor", opShift "rori" 5 0x30 "RiscVRor",
   opUn "orc.b" 0x13 5 0x287 "RiscVOrcb", opUn "rev8" 0x13 5 0x698 "RiscVRev8"]

/-- `fence.i`, the machine-mode instructions and `mpause`. -/
def system : List Line :=
  [⟨"fence.i", [op 0x0f, f3 1], [], [(["I_imm12"], [])], [ext "RiscVZFencei"], []⟩,
   word "mret" 0x30200073 (ext32 "RiscVPrivMRet") ["next_pc"], word "wfi" 0x10500073 (ext "RiscVPrivWfi") [],
   word "mpause" 0x08000073 (own "Mpause") []]

def scalar : List Line := rv32i ++ zicsr ++ rv32m ++ rv32f ++ zbb ++ system

/-! ### Vector configuration and memory -/

def vset (m : String) (fixed : List Bits) (src : String) : List Line :=
  [⟨m, op 0x57 :: f3 7 :: fixed, [rs1 0], [(["rs1", src], ["rd"])], [bind "Vsetvl" ",false,false"], []⟩,
   ⟨m, op 0x57 :: f3 7 :: rs1 0 :: fixed, [rd 0], [(["rs1", src], ["rd"])], [bind "Vsetvl" ",false,true"], []⟩,
   ⟨m, op 0x57 :: f3 7 :: rs1 0 :: rd 0 :: fixed, [], [(["rs1", src], ["rd"])], [bind "Vsetvl" ",true,true"], []⟩]

def config : List Line :=
  vset "vsetvli" [(31, 1, 0)] "zimm11" ++ vset "vsetvl" [f7 0x40] "rs2" ++
  [⟨"vsetivli", [op 0x57, f3 7, (30, 2, 3)], [], [(["uimm5", "zimm10"], ["rd"])], [bind "Vsetvl" ",false,false"], []⟩]

/-- Element widths: the `width` field, the bits and the bytes. -/
def eews : List (Nat × String × String) := [(0, "8", "1"), (5, "16", "2"), (6, "32", "4")]

def vload (m : String) (b : List Bits) (o : List Bits) (src : List String) (s : String) : Line :=
  ⟨m, op 0x07 :: mew 0 :: b, o, [(src, []), ([], ["vd"])], [s, ext "VlChild"], []⟩

def vloadSeg (m : String) (b : List Bits) (o : List Bits) (src : List String) (s n : String) : Line :=
  ⟨m, op 0x07 :: mew 0 :: b, nf 0 :: o, [(src ++ ["nf"], []), (["nf"], ["vd"])],
    [bind s ("," ++ n), bind "VlSegmentChild" ("," ++ n)], []⟩

def vstore (m : String) (b : List Bits) (o : List Bits) (src : List String) (s : String) : Line :=
  ⟨m, op 0x27 :: mew 0 :: b, o, [("vs3" :: src, [])], [s], []⟩

def vloads : List Line :=
  eews.flatMap fun (w, bits, n) =>
    [vload ("vle" ++ bits ++ ".v") [f3 w, nf 0, mop 0, rs2 0, vm 0] [] ["rs1", "const" ++ n, "vmask"] (bind "VlStrided" ("," ++ n)),
     vload ("vle" ++ bits ++ ".v") [f3 w, nf 0, mop 0, rs2 0, vm 1] [] ["rs1", "const" ++ n, "vmask_true"] (bind "VlStrided" ("," ++ n)),
     vload ("vlse" ++ bits ++ ".v") [f3 w, nf 0, mop 2] [] ["rs1", "rs2", "vmask"] (bind "VlStrided" ("," ++ n)),
     vload ("vluxei" ++ bits ++ ".v") [f3 w, nf 0, mop 1] [] ["rs1", "vs2", "vmask"] (bind "VlIndexed" ("," ++ n)),
     vload ("vloxei" ++ bits ++ ".v") [f3 w, nf 0, mop 3] [] ["rs1", "vs2", "vmask"] (bind "VlIndexed" ("," ++ n)),
     vloadSeg ("vlseg%nf\\\\e" ++ bits ++ ".v") [f3 w, mop 0, rs2 0] [] ["rs1", "vmask"] "VlSegment" n,
     vloadSeg ("vlsseg%nf\\\\e" ++ bits ++ ".v") [f3 w, mop 2] [] ["rs1", "rs2", "vmask"] "VlSegmentStrided" n,
     vloadSeg ("vluxseg%nf\\\\ei" ++ bits ++ ".v") [f3 w, mop 1] [] ["rs1", "vs2", "vmask"] "VlSegmentIndexed" n,
     vloadSeg ("vloxseg%nf\\\\ei" ++ bits ++ ".v") [f3 w, mop 3] [] ["rs1", "vs2", "vmask"] "VlSegmentIndexed" n] ++
    [("1", 0), ("2", 1), ("4", 3), ("8", 7)].map fun (k, f) =>
      vload ("vl" ++ k ++ "re" ++ bits ++ ".v") [f3 w, nf f, mop 0, rs2 8, vm 1] [] ["rs1"]
        (bind "VlRegister" ("," ++ k ++ "," ++ n))

/-- Fault-only-first loads. The loads without segments are performed by the function of the plain loads: vector accesses
of the simulator do not fault. -/
def vloadsFf : List Line :=
  eews.flatMap fun (w, bits, n) =>
    [vload ("vle" ++ bits ++ "ff.v") [f3 w, nf 0, mop 0, rs2 16] [] ["rs1", "const" ++ n, "vmask"] (bind "VlStrided" ("," ++ n)),
     vloadSeg ("vlseg%nf\\\\e" ++ bits ++ "ff.v") [f3 w, mop 0, rs2 16] [] ["rs1", "vmask"] "VlSegment" n]

def vstores : List Line :=
  (eews.flatMap fun (w, bits, n) =>
    let seg (m : String) (b : List Bits) (src : List String) (s : String) : Line :=
      vstore m b [nf 0] (src ++ ["nf"]) (bind s ("," ++ n))
    [vstore ("vse" ++ bits ++ ".v") [f3 w, nf 0, mop 0, rs2 0] [] ["rs1", "const" ++ n, "vmask"] (bind "VsStrided" ("," ++ n)),
     vstore ("vsse" ++ bits ++ ".v") [f3 w, nf 0, mop 2] [] ["rs1", "rs2", "vmask"] (bind "VsStrided" ("," ++ n)),
     vstore ("vsuxei" ++ bits ++ ".v") [f3 w, nf 0, mop 1] [] ["rs1", "vs2", "vmask"] (bind "VsIndexed" ("," ++ n)),
     vstore ("vsoxei" ++ bits ++ ".v") [f3 w, nf 0, mop 3] [] ["rs1", "vs2", "vmask"] (bind "VsIndexed" ("," ++ n)),
     seg ("vsseg%nf\\\\e" ++ bits ++ ".v") [f3 w, mop 0, rs2 0] ["rs1", "vmask"] "VsSegment",
     seg ("vssseg%nf\\\\e" ++ bits ++ ".v") [f3 w, mop 2] ["rs1", "rs2", "vmask"] "VsSegmentStrided",
     seg ("vsuxseg%nf\\\\ei" ++ bits ++ ".v") [f3 w, mop 1] ["rs1", "vs2", "vmask"] "VsSegmentIndexed",
     seg ("vsoxseg%nf\\\\ei" ++ bits ++ ".v") [f3 w, mop 3] ["rs1", "vs2", "vmask"] "VsSegmentIndexed"]) ++
  [("1", 0), ("2", 1), ("4", 3), ("8", 7)].map (fun (k, f) =>
    vstore ("vs" ++ k ++ "r.v") [f3 0, nf f, mop 0, rs2 8, vm 1] [] ["rs1"] (bind "VsRegister" ("," ++ k)))

/-- Mask loads and stores are not masked. -/
def vmasks : List Line :=
  [vload "vlm.v" [f3 0, nf 0, mop 0, rs2 11, vm 1] [] ["rs1", "const1", "vmask_true"] (ext "Vlm"),
   vstore "vsm.v" [f3 0, nf 0, mop 0, rs2 11, vm 1] [] ["rs1", "const1", "vmask_true"] (bind "Vsm" "")]

/-! ### Vector arithmetic -/

/-- Operand forms: vector, scalar register, signed and unsigned immediate. -/
inductive Form where
  | v | x | i | u
deriving DecidableEq

def Form.src : Form → String
  | .v => "vs1" | .x => "rs1" | .i => "simm5" | .u => "uimm5"

/-- `funct3` of the integer (`OPI`) encodings. -/
def Form.opi : Form → Nat
  | .v => 0 | .x => 4 | .i => 3 | .u => 3

/-- `funct3` of the multiply (`OPM`) encodings. -/
def Form.opm : Form → Nat
  | .v => 2 | .x => 6 | .i => 0 | .u => 0

def Form.suffix : Form → String
  | .v => ".vv" | .x => ".vx" | .i => ".vi" | .u => ".vi"

/-- The suffix when the first operand is wide. -/
def Form.wide : Form → String
  | .v => ".wv" | .x => ".wx" | .i => ".wi" | .u => ".wi"

def varith (m : String) (g f : Nat) (src : List String) (s : String) : Line :=
  ⟨m, [op 0x57, f6 g, f3 f], [], [(src, ["vd"])], [ext s], []⟩

def opi (m : String) (g : Nat) (s : String) (fs : List Form) : List Line :=
  fs.map fun f => varith (m ++ f.suffix) g f.opi ["vs2", f.src, "vmask"] s

def opiW (m : String) (g : Nat) (s : String) (fs : List Form) : List Line :=
  fs.map fun f => varith (m ++ f.wide) g f.opi ["vs2", f.src, "vmask"] s

def opm (m : String) (g : Nat) (s : String) (fs : List Form) : List Line :=
  fs.map fun f => varith (m ++ f.suffix) g f.opm ["vs2", f.src, "vmask"] s

def opmW (m : String) (g : Nat) (s : String) (fs : List Form) : List Line :=
  fs.map fun f => varith (m ++ f.wide) g f.opm ["vs2", f.src, "vmask"] s

/-- Multiply-add instructions, which also read the destination. -/
def opmAcc (m : String) (g : Nat) (s : String) (fs : List Form) : List Line :=
  fs.map fun f => varith (m ++ f.suffix) g f.opm ["vs2", f.src, "vd", "vmask"] s

def red (m : String) (g : Nat) (s : String) : Line := varith (m ++ ".vs") g 2 ["vs2", "vs1", "vmask"] s

def mm (m : String) (g : Nat) (s : String) : Line :=
  ⟨m ++ ".mm", [op 0x57, f6 g, f3 2, vm 1], [], [(["vs2", "vs1"], ["vd"])], [ext s], []⟩

def unary (m : String) (g k : Nat) (s : String) : Line :=
  ⟨m, [op 0x57, f6 g, f3 2, rs1 k], [], [(["vs2", "vmask"], ["vd"])], [ext s], []⟩

/-- Add and subtract with carry read v0 and may not write it. -/
def carry (m : String) (g : Nat) (s : String) (fs : List Form) : List Line :=
  fs.map fun f => ⟨m ++ f.suffix ++ "m", [op 0x57, f6 g, f3 f.opi, vm 0], [rd 0], [(["vs2", f.src, "vmask"], ["vd"])], [ext s], []⟩

/-- The carry out, with (`vm` = 0) and without carry in. -/
def carryOut (m : String) (g : Nat) (s : String) (fs : List Form) : List Line :=
  fs.flatMap fun f =>
    [⟨m ++ f.suffix ++ "m", [op 0x57, f6 g, f3 f.opi, vm 0], [], [(["vs2", f.src, "vmask", "vm"], ["vd"])], [ext s], []⟩,
     ⟨m ++ f.suffix, [op 0x57, f6 g, f3 f.opi, vm 1], [], [(["vs2", f.src, "vmask", "vm"], ["vd"])], [ext s], []⟩]

def merge (fs : List Form) : List Line :=
  fs.flatMap fun f =>
    [⟨"vmerge" ++ f.suffix ++ "m", [op 0x57, f6 23, f3 f.opi, vm 0], [], [(["vs2", f.src, "vmask"], ["vd"])], [ext "Vmerge"], []⟩,
     ⟨"vmv.v" ++ (match f with | .v => ".v" | .x => ".x" | _ => ".i"), [op 0x57, f6 23, f3 f.opi, vm 1, rs2 0], [],
       [(["vs2", f.src, "vmask_true"], ["vd"])], [ext "Vmerge"], []⟩]

def vopi : List Line :=
  opi "vadd" 0 "Vadd" [.v, .x, .i] ++ opi "vsub" 2 "Vsub" [.v, .x] ++ opi "vrsub" 3 "Vrsub" [.x, .i] ++
  opi "vminu" 4 "Vminu" [.v, .x] ++ opi "vmin" 5 "Vmin" [.v, .x] ++ opi "vmaxu" 6 "Vmaxu" [.v, .x] ++
  opi "vmax" 7 "Vmax" [.v, .x] ++ opi "vand" 9 "Vand" [.v, .x, .i] ++ opi "vor" 10 "Vor" [.v, .x, .i] ++
  opi "vxor" 11 "Vxor" [.v, .x, .i] ++ opi "vrgather" 12 "Vrgather" [.v, .x, .u] ++
  opi "vslideup" 14 "Vslideup" [.x, .u] ++ opi "vrgatherei16" 14 "Vrgatherei16" [.v] ++
  opi "vslidedown" 15 "Vslidedown" [.x, .u] ++
  carry "vadc" 16 "Vadc" [.v, .x, .i] ++ carryOut "vmadc" 17 "Vmadc" [.v, .x, .i] ++
  carry "vsbc" 18 "Vsbc" [.v, .x] ++ carryOut "vmsbc" 19 "Vmsbc" [.v, .x] ++ merge [.v, .x, .i] ++
  opi "vmseq" 24 "Vmseq" [.v, .x, .i] ++ opi "vmsne" 25 "Vmsne" [.v, .x, .i] ++ opi "vmsltu" 26 "Vmsltu" [.v, .x] ++
  opi "vmslt" 27 "Vmslt" [.v, .x] ++ opi "vmsleu" 28 "Vmsleu" [.v, .x, .i] ++ opi "vmsle" 29 "Vmsle" [.v, .x, .i] ++
  opi "vmsgtu" 30 "Vmsgtu" [.x, .i] ++ opi "vmsgt" 31 "Vmsgt" [.x, .i] ++
  opi "vsaddu" 32 "Vsaddu" [.v, .x, .i] ++ opi "vsadd" 33 "Vsadd" [.v, .x, .i] ++ opi "vssubu" 34 "Vssubu" [.v, .x] ++
  opi "vssub" 35 "Vssub" [.v, .x] ++ opi "vsll" 37 "Vsll" [.v, .x, .u] ++ opi "vsmul" 39 "Vsmul" [.v, .x] ++
  [("vmv1r.v", 0, "1"), ("vmv2r.v", 1, "2"), ("vmv4r.v", 3, "4"), ("vmv8r.v", 7, "8")].map (fun (m, k, n) =>
    ⟨m, [op 0x57, f6 39, f3 3, rs1 k, vm 1], [], [(["vs2"], ["vd"])], [bind "Vmvr" ("," ++ n)], []⟩) ++
  opi "vsrl" 40 "Vsrl" [.v, .x, .u] ++ opi "vsra" 41 "Vsra" [.v, .x, .u] ++ opi "vssrl" 42 "Vssrl" [.v, .x, .u] ++
  opi "vssra" 43 "Vssra" [.v, .x, .u] ++ opiW "vnsrl" 44 "Vnsrl" [.v, .x, .u] ++ opiW "vnsra" 45 "Vnsra" [.v, .x, .u] ++
  opiW "vnclipu" 46 "Vnclipu" [.v, .x, .u] ++ opiW "vnclip" 47 "Vnclip" [.v, .x, .u] ++
  [varith "vwredsumu.vs" 48 0 ["vs2", "vs1", "vmask"] "Vwredsumu", varith "vwredsum.vs" 49 0 ["vs2", "vs1", "vmask"] "Vwredsum"]

def vopm : List Line :=
  [red "vredsum" 0 "Vredsum", red "vredand" 1 "Vredand", red "vredor" 2 "Vredor", red "vredxor" 3 "Vredxor",
   red "vredminu" 4 "Vredminu", red "vredmin" 5 "Vredmin", red "vredmaxu" 6 "Vredmaxu", red "vredmax" 7 "Vredmax"] ++
  opm "vaaddu" 8 "Vaaddu" [.v, .x] ++ opm "vaadd" 9 "Vaadd" [.v, .x] ++ opm "vasubu" 10 "Vasubu" [.v, .x] ++
  opm "vasub" 11 "Vasub" [.v, .x] ++ opm "vslide1up" 14 "Vslide1up" [.x] ++ opm "vslide1down" 15 "Vslide1down" [.x] ++
  [⟨"vmv.x.s", [op 0x57, f6 16, f3 2, rs1 0, vm 1], [], [(["vs2"], ["rd"])], [ext "VmvToScalar"], []⟩,
   ⟨"vcpop.m", [op 0x57, f6 16, f3 2, rs1 16], [], [(["vs2", "vmask"], ["rd"])], [ext "Vcpop"], []⟩,
   ⟨"vfirst.m", [op 0x57, f6 16, f3 2, rs1 17], [], [(["vs2", "vmask"], ["rd"])], [ext "Vfirst"], []⟩,
   ⟨"vmv.s.x", [op 0x57, f6 16, f3 6, rs2 0, vm 1], [], [(["rs1"], ["vd"])], [ext "VmvFromScalar"], []⟩,
   unary "vzext.vf4" 18 4 "Vzext4", unary "vsext.vf4" 18 5 "Vsext4", unary "vzext.vf2" 18 6 "Vzext2",
   unary "vsext.vf2" 18 7 "Vsext2", unary "vmsbf.m" 20 1 "Vmsbf", unary "vmsof.m" 20 2 "Vmsof",
   unary "vmsif.m" 20 3 "Vmsif", unary "viota.m" 20 16 "Viota",
   ⟨"vid.v", [op 0x57, f6 20, f3 2, rs1 17, rs2 0], [], [(["vmask"], ["vd"])], [ext "Vid"], []⟩,
   ⟨"vcompress.vm", [op 0x57, f6 23, f3 2, vm 1], [], [(["vs2", "vs1"], ["vd"])], [ext "Vcompress"], []⟩,
   mm "vmandn" 24 "Vmandnot", mm "vmand" 25 "Vmand", mm "vmor" 26 "Vmor", mm "vmxor" 27 "Vmxor",
   mm "vmorn" 28 "Vmornot", mm "vmnand" 29 "Vmnand", mm "vmnor" 30 "Vmnor", mm "vmxnor" 31 "Vmxnor"] ++
  opm "vdivu" 32 "Vdivu" [.v, .x] ++ opm "vdiv" 33 "Vdiv" [.v, .x] ++ opm "vremu" 34 "Vremu" [.v, .x] ++
  opm "vrem" 35 "Vrem" [.v, .x] ++ opm "vmulhu" 36 "Vmulhu" [.v, .x] ++ opm "vmul" 37 "Vmul" [.v, .x] ++
  opm "vmulhsu" 38 "Vmulhsu" [.v, .x] ++ opm "vmulh" 39 "Vmulh" [.v, .x] ++
  opmAcc "vmadd" 41 "Vmadd" [.v, .x] ++ opmAcc "vnmsub" 43 "Vnmsub" [.v, .x] ++ opmAcc "vmacc" 45 "Vmacc" [.v, .x] ++
  opmAcc "vnmsac" 47 "Vnmsac" [.v, .x] ++
  opm "vwaddu" 48 "Vwaddu" [.v, .x] ++ opm "vwadd" 49 "Vwadd" [.v, .x] ++ opm "vwsubu" 50 "Vwsubu" [.v, .x] ++
  opm "vwsub" 51 "Vwsub" [.v, .x] ++ opmW "vwaddu" 52 "Vwadduw" [.v, .x] ++ opmW "vwadd" 53 "Vwaddw" [.v, .x] ++
  opmW "vwsubu" 54 "Vwsubuw" [.v, .x] ++ opmW "vwsub" 55 "Vwsubw" [.v, .x] ++
  opm "vwmulu" 56 "Vwmulu" [.v, .x] ++ opm "vwmulsu" 58 "Vwmulsu" [.v, .x] ++ opm "vwmul" 59 "Vwmul" [.v, .x] ++
  opmAcc "vwmaccu" 60 "Vwmaccu" [.v, .x] ++ opmAcc "vwmacc" 61 "Vwmacc" [.v, .x] ++ opmAcc "vwmaccus" 62 "Vwmaccus" [.x] ++
  opmAcc "vwmaccsu" 63 "Vwmaccsu" [.v, .x]

def vector : List Line := config ++ vloads ++ vloadsFf ++ vstores ++ vmasks ++ vopi ++ vopm

def listing : List Line := scalar ++ vector

end Verif.Spec.V2Isa
