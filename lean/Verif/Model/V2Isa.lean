import Verif.Model.Isa
import Verif.Model.Conv

/-!
# Instruction table of the second core

The row type of `/repo/sim/coralnpu_v2.bin_fmt` and `coralnpu_v2.isa`. The rows are in `Verif.Gen.V2Rows`, generated by
`tools/gen_v2.py`. `DecodeCoralNPUV2Inst32` (generated by mpact-sim from the `.bin_fmt` file) returns an opcode whose
constraints all hold of the word; where several do, which one depends on the generator and is left open here.
-/

namespace Verif.Model.V2Isa
open Verif Verif.Model

/-- One encoding row with its opcode. `eq`, `ne`, `gt`, `lt` are the constraints of the `.bin_fmt` file; `mnem` and
`args` the `disasm` strings, `parts` the source and destination operand names of the instruction and of its children,
and `sems` their semantic functions (white space and comments removed), from the `.isa` file. -/
structure Row where
  name : String
  eq : List Fld
  ne : List Fld
  gt : List Fld
  lt : List Fld
  mnem : String
  args : List String
  parts : List (List String × List String)
  sems : List String
deriving DecidableEq, Repr

/-- All constraints of the row hold of the word. -/
def Row.matches (r : Row) (w : BitVec 32) : Bool :=
  r.eq.all (fun f => field w f.pos f.width == f.val) && r.ne.all (fun f => field w f.pos f.width != f.val) &&
  r.gt.all (fun f => decide (field w f.pos f.width > f.val)) && r.lt.all (fun f => decide (field w f.pos f.width < f.val))

/-- The operands without the accrued exception flags. -/
def Row.operands (r : Row) : List (List String × List String) :=
  r.parts.map fun p => (p.1, p.2.filter (· != "fflags"))

end Verif.Model.V2Isa
