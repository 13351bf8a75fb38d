import Verif.Model.VecElem

/-!
# The vector operation framework

Model of `CoralNPUBinaryVectorOp` / `CoralNPUUnaryVectorOp`
(`/repo/sim/coralnpu_vector_instructions.cc` 40-165) and of the element getters of that file.

Assumptions about code outside `/repo` (mpact-sim, mpact-riscv):
* `GetInstructionSource<T>(inst, k, i)` on a vector operand reads element `i` of the concatenation
  of the registers of the operand's group; an index beyond the group is out of bounds (`ub`).
* on a scalar register operand only index 0 exists, and the 32-bit value is converted to `T`.
* `AllocateDataBuffer(i)`/`CopyDataBuffer(i)` name register `i` of the destination group, beyond the
  group is out of bounds, and `Submit()` stores the buffer at once (latency 0).
-/

namespace Verif.Model
open Verif CVal

/-- `kVectorLengthInBits = 256` (coralnpu_state.h 48, 100; no code of /repo changes it): a vector register is 256 bits. -/
abbrev VReg := BitVec 256

/-- The vector register file; register names are `v<n>`. -/
abbrev VRF := Nat → VReg

/-- `vector_size_in_bytes / sizeof(T)`. -/
def lanesOf (T : CTy) : Nat := 256 / 8 / T.size

/-- A source operand: a group of `len` registers starting at `base`, or a scalar register's value. -/
inductive Src where
  | vec (base len : Nat)
  | scalar (x : BitVec 32)
deriving DecidableEq, Repr

/-- Element `i` (of type `T`) of one register. -/
def regElt (T : CTy) (r : VReg) (i : Nat) : CVal := ofBits T (r.extractLsb' (i * T.bits) T.bits)

/-- `GetInstructionSource<T>(inst, k, i)` (mpact; see the file header). -/
def readElt (T : CTy) (rf : VRF) (s : Src) (i : Nat) : Outcome CVal :=
  match s with
  | .vec base len =>
    if i / lanesOf T < len then .ok (regElt T (rf (base + i / lanesOf T)) (i % lanesOf T)) else .ub
  | .scalar x => if i = 0 then .ok (ofBits T x) else .ub

/-- Operands of one decoded vector instruction. -/
structure Operands where
  vd : Nat
  vdLen : Nat
  src0 : Src
  src1 : Src
deriving DecidableEq, Repr

/-- A `SourceArgGetter`: `(op_index, dst_element_index, dst_reg_index)` to a value
(coralnpu_vector_instructions.cc 81-84). -/
abbrev Getter := VRF → Nat → Nat → Nat → Outcome CVal

/-- Concatenation of lanes, lane 0 in the low bits. -/
def packLanes (w : Nat) : List (BitVec w) → Nat
  | [] => 0
  | x :: xs => x.toNat ||| (packLanes w xs <<< w)

/-- The buffer of a destination register after all its elements have been assigned. -/
def packReg (T : CTy) (l : List CVal) : VReg :=
  BitVec.ofNat 256 (packLanes T.bits (l.map fun c => BitVec.ofInt T.bits c.v))

/-- Successive `Submit()`s to registers `first`, `first+step`, … (cc 133-135). -/
def submitAll (rf : VRF) (first step : Nat) : List VReg → VRF
  | [] => rf
  | b :: bs => submitAll (fun q => if q = first then b else rf q) (first + step) step bs

/-- The elements of destination register `r` computed by iteration `op`
(cc 120-131; the two inner loops are exchanged, their iterations are independent). -/
def opReg (Td : CTy) (vd numOps : Nat) (g1 g2 : Getter) (f : CVal → CVal → CVal → Outcome CVal)
    (rf : VRF) (op r : Nat) : Outcome VReg := do
  let l ← (List.range (lanesOf Td)).mapM fun e => do
    let a1 ← g1 rf op e r
    let a2 ← g2 rf op e r
    f (regElt Td (rf (vd + (op + r * numOps))) e) a1 a2
  .ok (packReg Td l)

/-- One iteration of the loop over `op_index` (cc 109-136). -/
def opStep (Td : CTy) (o : Operands) (numOps regsPerOp : Nat) (g1 g2 : Getter)
    (f : CVal → CVal → CVal → Outcome CVal) (rf : VRF) (op : Nat) : Outcome VRF :=
  if op + (regsPerOp - 1) * numOps < o.vdLen then do
    let bufs ← (List.range regsPerOp).mapM (opReg Td o.vd numOps g1 g2 f rf op)
    .ok (submitAll rf (o.vd + op) numOps bufs)
  else .ub

/-- `CoralNPUBinaryVectorOp` (cc 86-137).  `f` receives the old destination element first; it is
ignored by the operations that do not read the destination. -/
def binOp (Td : CTy) (o : Operands) (numOps regsPerOp : Nat) (g1 g2 : Getter)
    (f : CVal → CVal → CVal → Outcome CVal) (rf : VRF) : Outcome VRF :=
  (List.range numOps).foldlM (opStep Td o numOps regsPerOp g1 g2 f) rf

/-- `strip_mine ? 4 : 1` (cc 100). -/
def numOpsOf (strip : Bool) : Nat := if strip then 4 else 1

/-- `is_widen_op ? 2 : 1` (cc 101-104). -/
def regsPerOpOf (halftype widenDst : Bool) (Td T2 : CTy) : Nat :=
  if (decide (Td.size > T2.size) && !halftype) || widenDst then 2 else 1

/-! ## Getters -/

/-- `CommonBinaryOpGetArg1` (cc 49-66). -/
def commonArg1 (Td T1 T2 : CTy) (o : Operands) (numOps : Nat) : Getter := fun rf op e r =>
  readElt T1 rf o.src0 (op * lanesOf T1 + e * Td.size / T1.size +
    if Td.size = T1.size ∧ T1.size = 2 * T2.size then numOps * lanesOf T1 * r else r)

/-- `CommonBinaryOpGetArg2` (cc 68-79). -/
def commonArg2 (Td T2 : CTy) (o : Operands) (scalar : Bool) : Getter := fun rf op e r =>
  readElt T2 rf o.src1 (if scalar then 0 else op * lanesOf T2 + e * Td.size / T2.size + r)

/-- `PackedBinaryOpGetArg1` (cc 493-503). -/
def packedArg1 (Td T1 : CTy) (o : Operands) : Getter := fun rf op e _ =>
  readElt T1 rf o.src0 (op * lanesOf T1 + e * Td.size / T1.size)

/-- `PackedBinaryOpGetArg2` (cc 505-515). -/
def packedArg2 (Td T2 : CTy) (o : Operands) : Getter := fun rf op e _ =>
  readElt T2 rf o.src0 (op * lanesOf T2 + e * Td.size / T2.size + 1)

/-- `VMvpOpGetArg1` (cc 666-675). -/
def mvpArg (T : CTy) (o : Operands) (scalar : Bool) (numOps : Nat) : Getter := fun rf op e r =>
  if r = 0 then commonArg1 T T T o numOps rf op e 0 else commonArg2 T T o scalar rf op e 0

/-- `VSransOpGetArg1` (cc 857-878). -/
def sransArg1 (Td T1 : CTy) (o : Operands) (numOps : Nat) : Getter := fun rf op e _ =>
  readElt T1 rf o.src0 (op * lanesOf T1 + e * Td.size / T1.size +
    if T1.size / Td.size = 2 then (if e % 2 = 1 then numOps * lanesOf T1 else 0)
    else [0, 2, 1, 3].getD (e % 4) 0 * numOps * lanesOf T1)

/-- Source operand 0 or 1. -/
def Operands.src (o : Operands) (k : Nat) : Src := if k = 0 then o.src0 else o.src1

/-- `VSlidenOpGetArg1` (cc 1061-1107): `(register_num, source_arg)` tables. -/
def slidenArg1 (T : CTy) (o : Operands) (horizontal : Bool) (index : Nat) : Getter := fun rf op e _ =>
  if e + index < lanesOf T then
    let p := [(0, 0), (1, 0), (2, 0), (3, 0)].getD op (0, 0)
    readElt T rf (o.src p.2) (p.1 * lanesOf T + e + index)
  else
    let p := (if horizontal then [(1, 0), (2, 0), (3, 0), (0, 1)]
              else [(0, 1), (1, 1), (2, 1), (3, 1)]).getD op (0, 0)
    readElt T rf (o.src p.2) (p.1 * lanesOf T + e + index - lanesOf T)

/-- `VSlidepOpGetArg1` (cc 1135-1181). -/
def slidepArg1 (T : CTy) (o : Operands) (horizontal : Bool) (index : Nat) : Getter := fun rf op e _ =>
  if e < index then
    let p := (if horizontal then [(3, 0), (0, 1), (1, 1), (2, 1)]
              else [(0, 0), (1, 0), (2, 0), (3, 0)]).getD op (0, 0)
    readElt T rf (o.src p.2) (p.1 * lanesOf T + e + lanesOf T - index)
  else
    let p := [(0, 1), (1, 1), (2, 1), (3, 1)].getD op (0, 0)
    readElt T rf (o.src p.2) (p.1 * lanesOf T + e - index)

/-- `VEvnOpGetArg1` (`odd = 0`) and `VOddOpGetArg1` (`odd = 1`) (cc 1225-1243, 1257-1275). -/
def evnOddArg (T : CTy) (o : Operands) (scalar : Bool) (numOps odd : Nat) : Getter := fun rf op e _ =>
  if op * lanesOf T * 2 + e * 2 + odd < lanesOf T * numOps then
    readElt T rf o.src0 (op * lanesOf T * 2 + e * 2 + odd)
  else
    readElt T rf o.src1 (if scalar then 0 else op * lanesOf T * 2 + e * 2 + odd - lanesOf T * numOps)

/-- `VEvnoddOpGetArg1` (cc 1289-1298). -/
def evnoddArg (T : CTy) (o : Operands) (scalar : Bool) (numOps : Nat) : Getter := fun rf op e r =>
  if r = 0 then evnOddArg T o scalar numOps 0 rf op e r else evnOddArg T o scalar numOps 1 rf op e r

/-- `VZipOpGetArg1` (cc 1312-1333). -/
def zipArg (T : CTy) (o : Operands) (scalar : Bool) (numOps : Nat) : Getter := fun rf op e r =>
  let idx := op * (lanesOf T / 2) + e / 2 + r * (lanesOf T / 2) * numOps
  if e % 2 = 1 then readElt T rf o.src1 (if scalar then 0 else idx) else readElt T rf o.src0 idx

/-! ## The instructions -/

/-- Lane-by-lane operations with two source elements of one type. -/
inductive BinK where
  | add | sub | rsub | eq | ne | lt | le | gt | ge | absd | max | min
  | adds | addsu | subs | subsu | hadd (round : Bool) | hsub (round : Bool)
  | and | or | xor | rev | ror | sll | sra | srl | shift (round : Bool)
  | mul | muls | mulh (round : Bool) | dmulh (round roundNeg : Bool)
deriving DecidableEq, Repr

/-- The element function of each operation (lines cited at the element functions). -/
def BinK.fn : BinK → CTy → CVal → CVal → Outcome CVal
  | .add, T => vAdd T | .sub, T => vSub T | .rsub, T => vRSub T
  | .eq, T => vEq T | .ne, T => vNe T | .lt, T => vLt T | .le, T => vLe T | .gt, T => vGt T
  | .ge, T => vGe T | .absd, T => vAbsd T | .max, T => vMax T | .min, T => vMin T
  | .adds, T => vAdds T | .addsu, T => vAddsu T | .subs, T => vSubs T | .subsu, T => vSubsu T
  | .hadd r, T => vHadd r T | .hsub r, T => vHsub r T
  | .and, T => vAnd T | .or, T => vOr T | .xor, T => vXor T | .rev, T => vRev T | .ror, T => vRor T
  | .sll, T => vSll T | .sra, T => vSrx T | .srl, T => vSrx T | .shift r, T => vShift r T
  | .mul, T => vMul T | .muls, T => vMuls T | .mulh r, T => vMulh r T
  | .dmulh r rn, T => vDmulh r rn T

/-- Destination element type: `make_unsigned<T>` for `VAbsd` (cc 300-301), `T` otherwise. -/
def BinK.dstTy : BinK → CTy → CTy
  | .absd, T => T.toU
  | _, T => T

/-- Operations that also read the destination. -/
inductive TerK where
  | add3 | macc | madd | sel
deriving DecidableEq, Repr

def TerK.fn : TerK → CTy → CVal → CVal → CVal → Outcome CVal
  | .add3, T => vAdd3 T | .macc, T => vMacc T | .madd, T => vMadd T | .sel, T => vSel T

/-- One-operand operations. -/
inductive UnK where
  | not | clb | clz | cpop | mv
deriving DecidableEq, Repr

def UnK.fn : UnK → CTy → CVal → Outcome CVal
  | .not, T => vNot T | .clb, T => vClb T | .clz, T => vClz T | .cpop, T => vCpop T | .mv, T => vMv T

/-- Widening and packed operations. -/
inductive WidK where
  | addw | subw | mulw
deriving DecidableEq, Repr

def WidK.fn : WidK → CTy → CVal → CVal → Outcome CVal
  | .addw, Td => vAddw Td | .subw, Td => vSubw Td | .mulw, Td => vMulw Td

/-- The vector register instructions of coralnpu_vector_instructions.cc. -/
inductive VOp where
  | bin (k : BinK) (T : CTy)
  | ter (k : TerK) (T : CTy)
  | un (k : UnK) (T : CTy)
  | wid (k : WidK) (Td Ts : CTy)
  | acc (Td Ts : CTy)
  | packed (k : WidK) (Td Ts : CTy)
  | srans (round : Bool) (Td Ts : CTy)
  | mvp (T : CTy)
  | sliden (horizontal : Bool) (index : Nat) (T : CTy)
  | slidep (horizontal : Bool) (index : Nat) (T : CTy)
  | evn (T : CTy) | odd (T : CTy) | evnodd (T : CTy) | zip (T : CTy)
deriving DecidableEq, Repr

/-- Drop the unused old destination element (`BinaryOpInvoke`, cc 40-47). -/
def noDest (f : CVal → CVal → Outcome CVal) : CVal → CVal → CVal → Outcome CVal := fun _ => f

/-- Execution of a vector instruction: the semantic function bodies of
coralnpu_vector_instructions.cc, with the `scalar` and `strip_mine` flags bound by the ISA file.
The unary framework (cc 139-165) is the binary one with the second argument ignored; it reads the
first argument only. -/
def VOp.exec (scalar strip : Bool) (o : Operands) (rf : VRF) : VOp → Outcome VRF
  | .bin k T =>
    binOp (k.dstTy T) o (numOpsOf strip) (regsPerOpOf false false (k.dstTy T) T)
      (commonArg1 (k.dstTy T) T T o (numOpsOf strip)) (commonArg2 (k.dstTy T) T o scalar)
      (noDest (k.fn T)) rf
  | .ter k T =>
    binOp T o (numOpsOf strip) (regsPerOpOf false false T T)
      (commonArg1 T T T o (numOpsOf strip)) (commonArg2 T T o scalar) (k.fn T) rf
  | .un k T =>
    binOp T o (numOpsOf strip) 1
      (commonArg1 T T T o (numOpsOf strip)) (commonArg1 T T T o (numOpsOf strip))
      (fun _ a _ => k.fn T a) rf
  | .wid k Td Ts =>
    binOp Td o (numOpsOf strip) (regsPerOpOf false false Td Ts)
      (commonArg1 Td Ts Ts o (numOpsOf strip)) (commonArg2 Td Ts o scalar) (noDest (k.fn Td)) rf
  | .acc Td Ts =>
    binOp Td o (numOpsOf strip) (regsPerOpOf false false Td Ts)
      (commonArg1 Td Td Ts o (numOpsOf strip)) (commonArg2 Td Ts o scalar) (noDest (vAcc Td)) rf
  | .packed k Td Ts =>
    binOp Td o (numOpsOf strip) (regsPerOpOf true false Td Ts)
      (packedArg1 Td Ts o) (packedArg2 Td Ts o) (noDest (k.fn Td)) rf
  | .srans round Td Ts =>
    binOp Td o (numOpsOf strip) (regsPerOpOf false false Td Td)
      (sransArg1 Td Ts o (numOpsOf strip)) (commonArg2 Td Td o scalar) (noDest (vSrans round Td Ts)) rf
  | .mvp T =>
    binOp T o (numOpsOf strip) (regsPerOpOf false true T T)
      (mvpArg T o scalar (numOpsOf strip)) (mvpArg T o scalar (numOpsOf strip)) (noDest vFst) rf
  | .sliden h index T =>
    binOp T o (numOpsOf (strip || h)) (regsPerOpOf false false T T)
      (slidenArg1 T o h index) (commonArg2 T T o false) (noDest vFst) rf
  | .slidep h index T =>
    binOp T o (numOpsOf (strip || h)) (regsPerOpOf false false T T)
      (slidepArg1 T o h index) (commonArg2 T T o false) (noDest vFst) rf
  | .evn T =>
    binOp T o (numOpsOf strip) (regsPerOpOf false false T T)
      (evnOddArg T o scalar (numOpsOf strip) 0) (evnOddArg T o scalar (numOpsOf strip) 0) (noDest vFst) rf
  | .odd T =>
    binOp T o (numOpsOf strip) (regsPerOpOf false false T T)
      (evnOddArg T o scalar (numOpsOf strip) 1) (evnOddArg T o scalar (numOpsOf strip) 1) (noDest vFst) rf
  | .evnodd T =>
    binOp T o (numOpsOf strip) (regsPerOpOf false true T T)
      (evnoddArg T o scalar (numOpsOf strip)) (evnoddArg T o scalar (numOpsOf strip)) (noDest vFst) rf
  | .zip T =>
    binOp T o (numOpsOf strip) (regsPerOpOf false true T T)
      (zipArg T o scalar (numOpsOf strip)) (zipArg T o scalar (numOpsOf strip)) (noDest vFst) rf

end Verif.Model
