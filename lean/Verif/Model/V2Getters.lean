import Verif.Model.V2Isa

/-!
# Operands of the second core

`/repo/sim/coralnpu_v2_getters.h` and `coralnpu_v2_encoding.cc` lines 33-62, with the formats of `coralnpu_v2.bin_fmt`
lines 40-268. A getter makes an operand from the instruction word. `Extractors::Inst32Format::ExtractX` is the extractor of
the one derived format that has the field `X` (the code generated by mpact-sim is not in the repository). Register operands
are reduced to the register file and number; names used only for printing are left out.
-/

namespace Verif.Model.V2Isa
open Verif Verif.Model

/-- Source operands: a 32-bit value, a register, the mask register, the mask of ones. -/
inductive Src where
  | imm (v : BitVec 32)
  | xreg (n : Nat)
  | freg (n : Nat)
  | vreg (n : Nat)
  | mask (n : Nat)
  | allTrue
deriving DecidableEq, Repr

/-- Destination operands; `x0` is the register `X0Dest`, which is never read. -/
inductive Dst where
  | csr
  | fflags
  | pc
  | x0
  | xreg (n : Nat)
  | freg (n : Nat)
  | vreg (n : Nat)
deriving DecidableEq, Repr

/-- An unsigned field. -/
def uns (w : BitVec 32) (p n : Nat) : BitVec 32 := (w.extractLsb' p n).setWidth 32

/-- A signed field. -/
def sgn (w : BitVec 32) (p n : Nat) : BitVec 32 := (w.extractLsb' p n).signExtend 32

/-- `s_imm[12] = imm7, imm5`, lines 96-106. -/
def sImm (w : BitVec 32) : BitVec 12 := w.extractLsb' 25 7 ++ w.extractLsb' 7 5

/-- `b_imm[13] = imm7[6], imm5[0], imm7[5..0], imm5[4..1], 0b0`, lines 108-118. -/
def bImm (w : BitVec 32) : BitVec 13 :=
  let imm7 := w.extractLsb' 25 7
  let imm5 := w.extractLsb' 7 5
  imm7.extractLsb' 6 1 ++ imm5.extractLsb' 0 1 ++ imm7.extractLsb' 0 6 ++ imm5.extractLsb' 1 4 ++ 0#1

/-- `u_imm[32] = imm20, 0b0000'0000'0000`, lines 120-127. -/
def uImm (w : BitVec 32) : BitVec 32 := w.extractLsb' 12 20 ++ 0#12

/-- `j_imm[21] = imm20[19, 7..0, 8, 18..9], 0b0`, lines 129-136. -/
def jImm (w : BitVec 32) : BitVec 21 :=
  let imm20 := w.extractLsb' 12 20
  imm20.extractLsb' 19 1 ++ imm20.extractLsb' 0 8 ++ imm20.extractLsb' 8 1 ++ imm20.extractLsb' 9 10 ++ 0#1

/-- An integer register as a source: x0 is the literal 0, lines 176-191. -/
def xsrc (n : Nat) : Src := if n = 0 then .imm 0 else .xreg n

/-- `GetSource` (`coralnpu_v2_encoding.cc` lines 50-55) with the getters of lines 61-268 of `coralnpu_v2_getters.h`; no
operand without a getter. -/
def getSource (op : String) (w : BitVec 32) : Option Src :=
  match op with
  | "B_imm12" => some (.imm ((bImm w).signExtend 32))
  | "CSR_uimm5" => some (.imm (uns w 15 5))
  | "const1" => some (.imm 1)
  | "const2" => some (.imm 2)
  | "const4" => some (.imm 4)
  | "csr" => some (.imm (uns w 20 12))
  | "frs1" => some (.freg (field w 15 5))
  | "frs2" => some (.freg (field w 20 5))
  | "frs3" => some (.freg (field w 27 5))
  | "I_imm12" => some (.imm (sgn w 20 12))
  | "I_uimm5" => some (.imm (uns w 15 5))
  | "J_imm12" => some (.imm (sgn w 20 12))
  | "J_imm20" => some (.imm ((jImm w).signExtend 32))
  | "nf" => some (.imm (uns w 29 3))
  | "pred" => some (.imm (uns w 24 4))
  | "r_uimm5" => some (.imm (uns w 20 5))
  | "rm" => some (.imm (uns w 12 3))
  | "rs1" => some (xsrc (field w 15 5))
  | "rs2" => some (xsrc (field w 20 5))
  | "S_imm12" => some (.imm ((sImm w).signExtend 32))
  | "simm5" => some (.imm (sgn w 15 5))
  | "succ" => some (.imm (uns w 20 4))
  | "U_imm20" => some (.imm (uImm w))
  | "uimm5" => some (.imm (uns w 15 5))
  | "vd" => some (.vreg (field w 7 5))
  | "vm" => some (.imm (uns w 25 1))
  | "vmask" => some (if field w 25 1 = 0 then .mask 0 else .allTrue)
  | "vmask_true" => some .allTrue
  | "vs1" => some (.vreg (field w 15 5))
  | "vs2" => some (.vreg (field w 20 5))
  | "vs3" => some (.vreg (field w 7 5))
  | "zimm10" => some (.imm (sgn w 20 10))
  | "zimm11" => some (.imm (sgn w 20 11))
  | _ => none

/-- `GetDestination` (`coralnpu_v2_encoding.cc` lines 57-62) with the getters of lines 270-314. -/
def getDest (op : String) (w : BitVec 32) : Option Dst :=
  match op with
  | "csr" => some .csr
  | "fflags" => some .fflags
  | "frd" => some (.freg (field w 7 5))
  | "next_pc" => some .pc
  | "rd" => some (if field w 7 5 = 0 then .x0 else .xreg (field w 7 5))
  | "vd" => some (.vreg (field w 7 5))
  | _ => none

end Verif.Model.V2Isa
