import Verif.Model.VecFrame
import Verif.Gen.Tok

/-!
# Instruction tables

The row type of the encoding and instruction tables of `/repo/sim` (`coralnpu_*.bin_fmt`,
`coralnpu_*.isa`). The rows themselves are in `Verif.Gen`, generated by `tools/gen_rows.py`.
-/

namespace Verif.Model
open Verif

/-- A bit field of the instruction word compared with a constant. -/
structure Fld where
  pos : Nat
  width : Nat
  val : Nat
deriving DecidableEq, Repr

/-- Operand names of the `.isa` files. -/
inductive Opd where
  | vs1 | vs2 | vs3 | vd | rs1 | rs2 | rd | csr | nextPc
  | iImm12 | jImm12 | jImm20 | sImm12 | bImm12 | uImm20 | iUimm5 | csrUimm5
deriving DecidableEq, Repr

/-- The semantic function bound to an opcode (`semfunc` in the `.isa` files), with its template and
bound arguments. `scalar` stands for every opcode of coralnpu_base.isa and for `flushat`/`flushall`. -/
inductive Sem where
  | scalar
  | vec (op : VOp) (isScalar strip : Bool)
  | vld (T : CTy) (hasLength hasStride strip hasXs2 postInc : Bool)
  | vst (T : CTy) (hasLength hasStride strip hasXs2 postInc : Bool)
  | vstq (T : CTy) (strip postInc : Bool)
  | vdup (T : CTy) (strip : Bool)
  | getvl (T : CTy) (strip isRs1 isRs2 : Bool)
  | vcget
  | acset (transpose : Bool)
  | adwinit
  | aconv
  | dwconv (writeAcc : Bool)
deriving DecidableEq, Repr

/-- One encoding row with the opcode it selects. -/
structure Row where
  name : List Tok
  disasm : List Tok
  group : Nat
  eq : List Fld
  ne : List Fld
  src : List Opd
  dst : List Opd
  sem : Sem
deriving DecidableEq, Repr

end Verif.Model
