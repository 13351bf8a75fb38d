import Verif.Model.V2Getters

/-!
# Scalar operands of the first core

The getters of `/repo/sim/coralnpu_encoding.cc` for scalar operands (`InitializeSourceOperandGetters`, lines 131-212, and
`InitializeDestinationOperandGetters`, lines 297-321), with the formats of `coralnpu_format.bin_fmt` lines 1-75, which are
the same as those of the second core. `inst32_format::ExtractX` is the extractor of the one derived format that has the
field `X`. The vector operands are in `Verif.Model.Decode`.
-/

namespace Verif.Model.V1Scalar
open Verif Verif.Model
open Verif.Model.V2Isa (uns sgn sImm bImm uImm jImm xsrc)

/-- `GetSource`, lines 396-409; no operand without a getter. -/
def getSource (op : String) (w : BitVec 32) : Option V2Isa.Src :=
  match op with
  | "B_imm12" => some (.imm ((bImm w).signExtend 32))
  | "CSR_uimm5" => some (.imm (uns w 15 5))
  | "csr" => some (.imm (uns w 20 12))
  | "I_imm12" => some (.imm (sgn w 20 12))
  | "I_uimm5" => some (.imm (uns w 20 5))
  | "r_uimm5" => some (.imm (uns w 20 5))
  | "J_imm12" => some (.imm (sgn w 20 12))
  | "J_imm20" => some (.imm ((jImm w).signExtend 32))
  | "rs1" => some (xsrc (field w 15 5))
  | "rs2" => some (xsrc (field w 20 5))
  | "S_imm12" => some (.imm ((sImm w).signExtend 32))
  | "U_imm20" => some (.imm (uImm w))
  | _ => none

/-- `GetDestination`, lines 383-394. -/
def getDest (op : String) (w : BitVec 32) : Option V2Isa.Dst :=
  match op with
  | "csr" => some .csr
  | "next_pc" => some .pc
  | "rd" => some (if field w 7 5 = 0 then .x0 else .xreg (field w 7 5))
  | _ => none

end Verif.Model.V1Scalar
