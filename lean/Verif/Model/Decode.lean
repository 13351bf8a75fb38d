import Verif.Model.VecInst
import Verif.Model.VecMem
import Verif.Model.Conv
import Verif.Gen.Rows0
import Verif.Gen.Rows1
import Verif.Gen.Rows2
import Verif.Gen.Rows3
import Verif.Gen.Rows4
import Verif.Gen.Rows5

/-!
# Instruction decoding and operand construction

Model of `/repo/sim/coralnpu_encoding.cc` (line numbers refer to it) over the tables of the
`.bin_fmt` and `.isa` files.

Assumptions about code outside `/repo`:
* the decode function generated from an instruction group returns an opcode whose constraints all
  hold, or none if there is no such opcode. When several opcodes of the group qualify, the model
  allows any of them.
* `Extract<Field>` functions return the bits of the field.
* `state->GetRegister(name)` returns the register of that name, creating it if necessary.

Not modelled: the `RiscVZbb*` groups, tried after all the groups of /repo (373-375).
-/

namespace Verif.Model
open Verif

/-- All the rows, in the order in which `ParseInstruction` tries the groups (364-372). -/
def allRows : List Row :=
  Gen.group0 ++ Gen.group1 ++ Gen.group2 ++ Gen.group3 ++ Gen.group4 ++ Gen.group5

/-- The constraint holds of the word. -/
def Fld.holds (f : Fld) (w : BitVec 32) : Bool := field w f.pos f.width == f.val

/-- All constraints of the row hold. -/
def Row.matches (r : Row) (w : BitVec 32) : Bool :=
  r.eq.all (·.holds w) && r.ne.all (!·.holds w)

/-- `ParseInstruction` (360-381) may select row `r` for the word `w`: the row matches, and no row of
an earlier group does. -/
def Decodes (w : BitVec 32) (r : Row) : Prop :=
  r ∈ allRows ∧ r.matches w = true ∧ ∀ r' ∈ allRows, r'.group < r.group → r'.matches w = false

/-! ## Fields of the formats `CoralNPUV2ArgsType`, `CoralNPUV3ArgsType` and `RType`
(coralnpu_format.bin_fmt) -/

def fFunc2 (w : BitVec 32) : Nat := field w 26 6
def fVs3 (w : BitVec 32) : Nat := field w 26 6
def fVs2 (w : BitVec 32) : Nat := field w 20 6
def fVs1 (w : BitVec 32) : Nat := field w 14 6
def fSz (w : BitVec 32) : Nat := field w 12 2
def fVd (w : BitVec 32) : Nat := field w 6 6
def fM (w : BitVec 32) : Bool := field w 5 1 == 1
def fFunc1 (w : BitVec 32) : Nat := field w 2 3
def fForm (w : BitVec 32) : Nat := field w 0 2
def fRs1 (w : BitVec 32) : Nat := field w 15 5
def fRs2 (w : BitVec 32) : Nat := field w 20 5
def fRd (w : BitVec 32) : Nat := field w 7 5

/-! ## Opcodes tested by name in the operand getters -/

def Row.isAconv (r : Row) : Bool := r.name == [.aconv, .vxv]
def Row.isDw (r : Row) : Bool := r.name == [.adwconv, .vxv] || r.name == [.vdwconv, .vxv]
def Row.isVdwconv (r : Row) : Bool := r.name == [.vdwconv, .vxv]
def Row.isAdwinit (r : Row) : Bool := r.name == [.adwinit]
def Row.isVcget (r : Row) : Bool := r.name == [.vcget]
def Row.isAcset (r : Row) : Bool := r.name == [.acset] || r.name == [.actr]

/-- The tests of `IsWidenDestinationRegisterOp` on `func1` and `func2` (411-439).
`func2 & ~1` is `2 * (func2 / 2)`. -/
def widenBits (func1 func2 : Nat) : Bool :=
  let f := 2 * (func2 / 2)
  (func1 == 4 && (f == 4 || f == 6)) || (func1 == 4 && f == 10) || (func1 == 1 && func2 == 13) ||
    (func1 == 3 && f == 4) || (func1 == 6 && (func2 == 28 || func2 == 26))

/-- `IsWidenDestinationRegisterOp` (411-447). -/
def isWidenDst (r : Row) (w : BitVec 32) : Bool := widenBits (fFunc1 w) (fFunc2 w) || r.isVcget

/-- The tests of `GetSrc1WidenFactor` on the instruction word (449-473); 0 if none applies. -/
def src1Bits (func1 func2 sz : Nat) : Nat :=
  let f := 2 * (func2 / 2)
  if func1 == 4 && f == 10 then 2
  else if func1 == 2 && (sz == 0 || sz == 1) && (f == 16 || f == 18) then 2
  else if func1 == 2 && sz == 0 && (f == 24 || f == 26) then 4
  else 0

/-- `GetSrc1WidenFactor` (449-481). -/
def src1Factor (r : Row) (w : BitVec 32) : Nat :=
  let k := src1Bits (fFunc1 w) (fFunc2 w) (fSz w)
  if k ≠ 0 then k else if r.isAconv || r.isAcset then 8 else 1

/-- A source operand: the literal zero, a scalar register (by the number in its name), or a group of
vector registers. -/
inductive SrcOpd where
  | zero
  | xreg (n : Nat)
  | vgroup (base len : Nat)
deriving DecidableEq, Repr

/-- Getter of the source operand `vs1` (213-246). -/
def srcVs1 (r : Row) (w : BitVec 32) : SrcOpd :=
  if fForm w = 3 then if fVs1 w = 0 then .zero else .xreg (fVs1 w / 2)
  else if r.isDw then .vgroup (fVs1 w) 9
  else .vgroup (fVs1 w) (numOpsOf (fM w || r.isAdwinit) * src1Factor r w)

/-- Getter of the source operand `vs2` (247-271). -/
def srcVs2 (r : Row) (w : BitVec 32) : SrcOpd :=
  if fForm w = 2 ∨ fForm w = 3 ∨ r.isAconv then if fVs2 w = 0 then .zero else .xreg (fVs2 w % 32)
  else .vgroup (fVs2 w) (numOpsOf (fM w))

/-- Getter of the source operand `vd` (272-282). -/
def srcVd (w : BitVec 32) : SrcOpd := .vgroup (fVd w) (numOpsOf (fM w))

/-- Getter of the source operand `vs3` (283-292). -/
def srcVs3 (r : Row) (w : BitVec 32) : SrcOpd := .vgroup (fVs3 w) (if r.isAconv then 8 else 4)

/-- Getters of `rs1` and `rs2` (177-204). -/
def srcRs (n : Nat) : SrcOpd := if n = 0 then .zero else .xreg n

/-- Size of the destination group `vd` (322-339). -/
def dstVdLen (r : Row) (w : BitVec 32) : Nat :=
  numOpsOf (fM w || r.isVcget || r.isAdwinit || r.isVdwconv) * if isWidenDst r w then 2 else 1

/-- A source operand by name; immediates, csr numbers and operands that are destinations only are not
represented. -/
def srcOpd (r : Row) (w : BitVec 32) : Opd → Option SrcOpd
  | .vs1 => some (srcVs1 r w)
  | .vs2 => some (srcVs2 r w)
  | .vs3 => some (srcVs3 r w)
  | .vd => some (srcVd w)
  | .rs1 => some (srcRs (fRs1 w))
  | .rs2 => some (srcRs (fRs2 w))
  | _ => none

/-- `inst->Source(k)`, `none` when the operand does not exist. -/
def source (r : Row) (w : BitVec 32) (k : Nat) : Option SrcOpd := do srcOpd r w (← r.src[k]?)

/-! ## Execution -/

/-- The state used by the vector instructions. `x n` is the register object named `x<n>`, including
the object `x0`; the register `X0Dest` is never read and is left out. -/
structure Arch where
  x : Nat → BitVec 32
  v : VRF
  mem : Mem
  acc : Acc
  dw : DwAcc

/-- Value of a scalar source operand; a vector operand is not usable as a scalar. -/
def SrcOpd.scalarVal (s : Arch) : Option SrcOpd → Outcome (BitVec 32)
  | some .zero => .ok 0
  | some (.xreg n) => .ok (s.x n)
  | _ => .ub

/-- A source of a vector semantic function. An operand that does not exist is an empty group: every
access to it is out of bounds. -/
def SrcOpd.toSrc (s : Arch) : Option SrcOpd → Src
  | some .zero => .scalar 0
  | some (.xreg n) => .scalar (s.x n)
  | some (.vgroup b n) => .vec b n
  | none => .vec 0 0

/-- The group of a vector source operand. A scalar operand is `ub`: it is cast to a vector operand. -/
def SrcOpd.group : Option SrcOpd → Outcome (Nat × Nat)
  | some (.vgroup b n) => .ok (b, n)
  | _ => .ub

/-- Number given to a scalar operand in `VMemInst`: 0 is the literal zero (or `X0Dest`), `n + 1` is the
register object `x<n>`. -/
def scalarIdx : SrcOpd → Nat
  | .xreg n => n + 1
  | _ => 0

/-- A vector memory instruction with the numbering of `scalarIdx`. The address operand is the operand
named `vs1`, `inst->Source(1)` or `Source(0)`; the second scalar is the one named `vs2`. -/
def memInst (r : Row) (w : BitVec 32) (T : CTy) (len stride strip xs2 postInc : Bool) : VMemInst where
  T := T
  vd := fVd w
  rs1 := scalarIdx (srcVs1 r w)
  rs2 := if xs2 then some (scalarIdx (srcVs2 r w)) else none
  hasLength := len
  hasStride := stride
  strip := strip
  postInc := postInc

/-- The state seen by a vector memory instruction. -/
def memState (s : Arch) : MState := { x := fun k => s.x (k - 1), v := s.v, mem := s.mem }

/-- The state after a vector memory instruction. -/
def memBack (s : Arch) (m : MState) : Arch := { s with x := fun n => m.x (n + 1), v := m.v, mem := m.mem }

/-- Execution of the semantic function of row `r` on the operands built from the word `w`.
`maxPhys` is the largest physical address, `fresh` the previous content of allocated buffers.
The `Bool` is true when an illegal-instruction trap was raised. Base instructions are not executed
here (`none`). -/
def execRow (maxPhys : Nat) (fresh : Nat → VReg) (r : Row) (w : BitVec 32) (s : Arch) :
    Option (Outcome (Bool × Arch)) :=
  match r.sem with
  | .scalar => none
  | .vec op sc st => some do
    let o : Operands := { vd := fVd w, vdLen := dstVdLen r w, src0 := SrcOpd.toSrc s (source r w 0),
                          src1 := SrcOpd.toSrc s (source r w 1) }
    let v ← op.exec sc st o s.v
    .ok (false, { s with v := v })
  | .vld T len stride strip xs2 postInc => some do
    if fForm w = 3 ∧ dstVdLen r w = numOpsOf strip then
      let m ← (memInst r w T len stride strip xs2 postInc).vld maxPhys (memState s)
      .ok (false, memBack s m)
    else .ub
  | .vst T len stride strip xs2 postInc => some do
    if fForm w = 3 ∧ srcVd w = .vgroup (fVd w) (numOpsOf strip) then
      let m ← (memInst r w T len stride strip xs2 postInc).vst maxPhys (memState s)
      .ok (false, memBack s m)
    else .ub
  | .vstq T strip postInc => some do
    if fForm w = 3 ∧ srcVd w = .vgroup (fVd w) (numOpsOf strip) then
      let m ← (memInst r w T false true strip true postInc).vstq maxPhys (memState s)
      .ok (false, memBack s m)
    else .ub
  | .vdup T strip => some do
    let x ← SrcOpd.scalarVal s (source r w 0)
    let v ← vdup T strip (fVd w) (dstVdLen r w) x s.v
    .ok (false, { s with v := v })
  | .getvl T strip isRs1 isRs2 => some do
    let a ← if isRs1 then Option.some <$> SrcOpd.scalarVal s (source r w 0) else .ok none
    let b ← if isRs2 then Option.some <$> SrcOpd.scalarVal s (source r w 1) else .ok none
    .ok (false, { s with x := writeX s.x (fRd w) (getVl T strip a b) })
  | .vcget => some do
    let p ← vcget (fVd w) (dstVdLen r w) s.v s.acc
    .ok (false, { s with v := p.1, acc := p.2 })
  | .acset t => some do
    let g ← SrcOpd.group (source r w 0)
    let a ← acset t g.1 g.2 s.v s.acc
    .ok (false, { s with acc := a })
  | .adwinit => some do
    let g ← SrcOpd.group (source r w 0)
    let p ← adwinit g.1 g.2 (fVd w) (dstVdLen r w) fresh s.v s.dw
    .ok (false, { s with v := p.1, dw := p.2 })
  | .aconv => some do
    let g1 ← SrcOpd.group (source r w 0)
    let c ← SrcOpd.scalarVal s (source r w 1)
    let g3 ← SrcOpd.group (source r w 2)
    let p ← vconv c g1.1 g1.2 g3.1 g3.2 s.v s.acc
    .ok (p.1, { s with acc := p.2 })
  | .dwconv wr => some do
    let g1 ← SrcOpd.group (source r w 0)
    let c ← SrcOpd.scalarVal s (source r w 1)
    let g3 ← SrcOpd.group (source r w 2)
    let p ← vdwconv wr c g1.1 g1.2 g3.1 g3.2 (fVd w) (dstVdLen r w) s.v s.dw
    .ok (p.1, { s with v := p.2.1, dw := p.2.2 })

end Verif.Model
