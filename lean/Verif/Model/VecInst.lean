import Verif.Model.VecFrame
import Verif.Spec.Vector

/-!
# Vector instructions with the operand groups built by the decoder

`coralnpu_encoding.cc`: `GetVRegGroup` (40-50) gives `(m ? 4 : 1) * widen_factor` consecutive
registers; `IsWidenDestinationRegisterOp` (411-447) and `GetSrc1WidenFactor` (449-481) give the
factors.  Here the factors are per operation; `Verif.Props.Decode` proves that they agree with the
bit tests of the decoder for every encoding.
-/

namespace Verif.Model
open Verif

/-- Operand fields of a vector instruction. `op2` is the second operand (vector or scalar value). -/
structure VInst where
  vd : Nat
  vs1 : Nat
  op2 : Spec.Operand
  strip : Bool

/-- Destination registers per operation (coralnpu_encoding.cc 411-447). -/
def VOp.dstFactor : VOp → Nat
  | .wid .. | .acc .. | .mvp .. | .evnodd .. | .zip .. => 2
  | _ => 1

/-- First-source registers per operation (coralnpu_encoding.cc 449-481). -/
def VOp.src1Factor : VOp → Nat
  | .acc .. => 2
  | .srans _ Td Ts => if Ts.size = 4 * Td.size then 4 else 2
  | _ => 1

/-- The `scalar` flag of the semantic function: set for the `.vx` encodings. -/
def VInst.scalar (i : VInst) : Bool := match i.op2 with | .vreg _ => false | .scalar _ => true

/-- Number of registers of a group with factor 1. -/
def VInst.n (i : VInst) : Nat := numOpsOf i.strip

/-- Operands built by the decoder. -/
def VInst.operands (i : VInst) (v : VOp) : Operands where
  vd := i.vd
  vdLen := i.n * v.dstFactor
  src0 := .vec i.vs1 (i.n * v.src1Factor)
  src1 := match i.op2 with | .vreg b => .vec b i.n | .scalar x => .scalar x

/-- Execution of a decoded vector instruction. -/
def VOp.run (v : VOp) (i : VInst) (rf : VRF) : Outcome VRF :=
  v.exec i.scalar i.strip (i.operands v) rf

/-- The single-register instruction for register `j` of the groups of `i`. -/
def regInst (i : VInst) (j : Nat) : VInst where
  vd := i.vd + j
  vs1 := i.vs1 + j
  op2 := match i.op2 with | .vreg b => .vreg (b + j) | .scalar x => .scalar x
  strip := false

end Verif.Model
