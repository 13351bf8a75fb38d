import Verif.Spec.VecOracle
import Verif.Spec.Vector

/-!
# The harness of the repository's vector instruction test

`/repo/sim/test/coralnpu_vector_instructions_test_base.h` sets up registers, executes one instruction
and compares every destination element with an expected value.  The expected value is computed from
the operand values by an *arguments getter* (which operand elements) and an *operation* (what to do with
them, `Verif.Spec.VecOracle`).  Both are transcribed here; nothing is taken from the model of the
implementation.
-/

namespace Verif.Spec.VecTest
open Verif CVal

/-- A `std::vector` of `n` values; an index beyond its end is undefined. -/
abbrev Values := Nat → Outcome CVal
def values (n : Nat) (f : Nat → CVal) : Values := fun i => if i < n then .ok (f i) else .ub

/-- `vector_length_in_bytes / sizeof(T)` (test_base.h 193, 209, 239). -/
def sizeIn (T : CTy) : Nat := 256 / 8 / T.size

/-- The arguments of an arguments getter (test_base.h 115-121). -/
structure Call where
  numOps : Nat
  opNum : Nat
  sub : Nat
  elem : Nat
  vdSize : Nat
  widenDst : Bool
  factor : Nat
  vs1Size : Nat
  vs1 : Values
  vs2Size : Nat
  scalar : Bool
  vs2 : Values
  rs2 : CVal
  halftype : Bool
  vmvp : Bool

abbrev ArgsGetter := Call → Outcome (CVal × CVal)

/-- `src1_element_index` (test_base.h 122-136). -/
def commonIdx1 (Vd Vs1 : CTy) (c : Call) : Nat :=
  c.opNum * c.vs1Size + c.elem * Vd.size / Vs1.size +
    (if c.vmvp then 0
     else if c.widenDst then (if c.factor > 1 then c.numOps * c.vs1Size else 1) * c.sub
     else if c.factor = 2 then (if c.elem % 2 = 1 then c.numOps * c.vs1Size else 0)
     else if c.factor = 4 then [0, 2, 1, 3].getD (c.elem % 4) 0 * c.numOps * c.vs1Size
     else 0)

/-- `src2_element_index` (test_base.h 137-139). -/
def commonIdx2 (c : Call) : Nat :=
  c.opNum * c.vs2Size + c.elem * (if c.widenDst && !c.vmvp then 2 else 1) + (if c.vmvp then 0 else 1) * c.sub

/-- `CommonBinaryOpArgsGetter` (test_base.h 115-149). -/
def commonArgs (Vd Vs1 Vs2 : CTy) : ArgsGetter := fun c => do
  let a1 ← c.vs1 (commonIdx1 Vd Vs1 c)
  let b ← (if c.halftype then c.vs1 (commonIdx1 Vd Vs1 c + 1) else c.vs2 (commonIdx2 c))
  let a2 := if c.scalar then c.rs2 else cast Vs2 b
  .ok (if c.vmvp && c.sub == 1 then cast Vs1 a2 else a1, a2)

/-- The single argument of `UnaryOpTestHelper` (test_base.h 356-360), paired with itself. -/
def unaryArgs (Vd Vs : CTy) : ArgsGetter := fun c => do
  let a ← c.vs1 (c.opNum * c.vs1Size + c.elem * Vd.size / Vs.size)
  .ok (a, a)

/-- The table entry `source_arg ? vs2_value[i] : vs1_value[i]` (test.cc 1445-1447). -/
def pick (c : Call) (sourceArg i : Nat) : Outcome CVal := if sourceArg = 0 then c.vs1 i else c.vs2 i

/-- `SlidenArgsGetter` (test.cc 1423-1459); the tables are indexed by `horizontal` and `op_num`. -/
def slidenArgs (T : CTy) (horizontal : Bool) (index : Nat) : ArgsGetter := fun c =>
  let start := [(0, 0), (1, 0), (2, 0), (3, 0)].getD c.opNum (0, 0)
  let fin := (if horizontal then [(1, 0), (2, 0), (3, 0), (0, 1)] else [(0, 1), (1, 1), (2, 1), (3, 1)]).getD c.opNum (0, 0)
  if c.elem + index < c.vdSize then do
    let a ← pick c start.2 (start.1 * c.vdSize + c.elem + index)
    .ok (a, ⟨T, 0⟩)
  else do
    let a ← pick c fin.2 (fin.1 * c.vdSize + c.elem + index - c.vdSize)
    .ok (a, ⟨T, 0⟩)

/-- `SlidepArgsGetter` (test.cc 1497-1533). -/
def slidepArgs (T : CTy) (horizontal : Bool) (index : Nat) : ArgsGetter := fun c =>
  let start := (if horizontal then [(3, 0), (0, 1), (1, 1), (2, 1)] else [(0, 0), (1, 0), (2, 0), (3, 0)]).getD c.opNum (0, 0)
  let fin := [(0, 1), (1, 1), (2, 1), (3, 1)].getD c.opNum (0, 0)
  if c.elem < index then do
    -- `register_num * vd_size + element_index - index + vd_size`
    let a ← pick c start.2 (start.1 * c.vdSize + c.elem + c.vdSize - index)
    .ok (a, ⟨T, 0⟩)
  else do
    let a ← pick c fin.2 (fin.1 * c.vdSize + c.elem - index)
    .ok (a, ⟨T, 0⟩)

/-- `s2_scalar ? rs2_value : vs2_value[i]`. -/
def second (c : Call) (i : Nat) : Outcome CVal := if c.scalar then .ok c.rs2 else c.vs2 i

/-- `EvnOddOpArgsGetter` (test.cc 1583-1604). -/
def evnOddArgs : ArgsGetter := fun c =>
  let combined := (c.opNum * c.vs1Size + c.elem) * 2
  let per := c.numOps * c.vs1Size
  if combined < per then do
    let even ← c.vs1 combined
    let odd ← c.vs1 (combined + 1)
    .ok (if c.sub = 0 then even else odd, odd)
  else do
    let even ← second c (combined - per)
    let odd ← second c (combined - per + 1)
    .ok (if c.sub = 0 then even else odd, odd)

/-- `ZipOpArgsGetter` (test.cc 1645-1662). -/
def zipArgs (T : CTy) : ArgsGetter := fun c =>
  let src := (c.opNum * c.vs1Size + c.elem + c.sub * c.vs1Size * c.numOps) / 2
  if c.elem % 2 = 1 then do
    let a ← second c src
    .ok (a, ⟨T, 0⟩)
  else do
    let a ← c.vs1 src
    .ok (a, ⟨T, 0⟩)

/-- One instantiation of the test helpers: types, operation (the old destination element first),
getter and flags. -/
structure Test where
  Vd : CTy
  Vs1 : CTy
  Vs2 : CTy
  operation : CVal → CVal → CVal → Outcome CVal
  getter : ArgsGetter
  halftype : Bool
  vmvp : Bool
  widenDst : Bool

/-- The overload without a getter (test_base.h 283-295): the common getter, and two destination
registers per operation when the destination type is wider than `Ts2`. -/
def Test.common (Vd Vs1 Vs2 : CTy) (operation : CVal → CVal → CVal → Outcome CVal)
    (halftype vmvp : Bool) : Test where
  Vd := Vd
  Vs1 := Vs1
  Vs2 := Vs2
  operation := operation
  getter := commonArgs Vd Vs1 Vs2
  halftype := halftype
  vmvp := vmvp
  widenDst := (decide (Vd.size > Vs2.size) && !halftype) || vmvp

/-- Slides and shuffles: one type, a getter of their own (test.cc 231-246, 254-271). -/
def Test.moved (T : CTy) (operation : CVal → CVal → CVal → Outcome CVal) (getter : ArgsGetter)
    (widenDst : Bool) : Test where
  Vd := T
  Vs1 := T
  Vs2 := T
  operation := operation
  getter := getter
  halftype := false
  vmvp := false
  widenDst := widenDst

/-- `UnaryOpTestHelper` (test_base.h 306-366). -/
def Test.unary (T : CTy) (operation : CVal → Outcome CVal) : Test where
  Vd := T
  Vs1 := T
  Vs2 := T
  operation := fun _ a _ => operation a
  getter := unaryArgs T T
  halftype := false
  vmvp := false
  widenDst := false

/-- `kVd`, `kVs1`, `kVs2` (test_base.h 64-66). -/
def kVd : Nat := 32
def kVs1 : Nat := 8
def kVs2 : Nat := 24

/-- `num_ops` (test_base.h 166). -/
def numOps (strip : Bool) : Nat := if strip then 4 else 1

/-- `dest_regs_per_op` (test_base.h 238). -/
def Test.regsPerOp (t : Test) : Nat := if t.widenDst then 2 else 1

/-- `rs2_value` (test_base.h 211-222): the register's 32 bits taken with the signedness of `Ts2`, then
converted to `Ts2`; 0 when the second operand is a vector. -/
def rs2Value (Vs2 : CTy) : Option (BitVec 32) → CVal
  | some x => cast Vs2 (cast (if Vs2.signed then .i32 else .u32) ⟨.u32, x.toNat⟩)
  | none => ⟨Vs2, 0⟩

/-- `vs1_value` (test_base.h 193-207): the elements of registers `v8`, `v9`, … in order. -/
def Test.vs1Values (t : Test) (strip : Bool) (rf : Nat → BitVec 256) : Values :=
  values (sizeIn t.Vs1 * (numOps strip * (t.Vs1.size / t.Vs2.size)))
    (fun i => ⟨t.Vs1, groupElem t.Vs1.signed t.Vs1.bits rf kVs1 i⟩)

/-- `vs2_value` (test_base.h 209-236): the elements of `v24`, …; all zero for a scalar operand. -/
def Test.vs2Values (t : Test) (scalar : Option (BitVec 32)) (strip : Bool) (rf : Nat → BitVec 256) : Values :=
  values (sizeIn t.Vs2 * numOps strip)
    (fun i => if scalar.isSome then ⟨t.Vs2, 0⟩ else ⟨t.Vs2, groupElem t.Vs2.signed t.Vs2.bits rf kVs2 i⟩)

/-- The getter's arguments for one destination element (test_base.h 267-270). -/
def Test.call (t : Test) (scalar : Option (BitVec 32)) (strip : Bool) (rf : Nat → BitVec 256) (op sub e : Nat) : Call where
  numOps := numOps strip
  opNum := op
  sub := sub
  elem := e
  vdSize := sizeIn t.Vd
  widenDst := t.widenDst
  factor := t.Vs1.size / t.Vs2.size
  vs1Size := sizeIn t.Vs1
  vs1 := t.vs1Values strip rf
  vs2Size := sizeIn t.Vs2
  scalar := scalar.isSome
  vs2 := t.vs2Values scalar strip rf
  rs2 := rs2Value t.Vs2 scalar
  halftype := t.halftype
  vmvp := t.vmvp

/-- `dest_vreg_num` (test_base.h 261-262). -/
def destReg (strip : Bool) (op sub : Nat) : Nat := kVd + (sub * numOps strip + op)

/-- `expected_value` (test_base.h 267-274): the operation on the old destination element and the two
arguments.  `rf` is the register file before the instruction. -/
def Test.expected (t : Test) (scalar : Option (BitVec 32)) (strip : Bool) (rf : Nat → BitVec 256)
    (op sub e : Nat) : Outcome CVal := do
  let args ← t.getter (t.call scalar strip rf op sub e)
  t.operation ⟨t.Vd, lane t.Vd.signed t.Vd.bits (rf (destReg strip op sub)) e⟩ args.1 args.2

/-- The test's own computation is defined (no out-of-range index, no undefined arithmetic). -/
def Test.Defined (t : Test) (scalar : Option (BitVec 32)) (strip : Bool) (rf : Nat → BitVec 256) : Prop :=
  ∀ op < numOps strip, ∀ sub < t.regsPerOp, ∀ e < sizeIn t.Vd, ∃ c, t.expected scalar strip rf op sub e = .ok c

/-- Every `EXPECT_EQ(expected_value, dest_span[element_index])` holds (test_base.h 257-280); `rf'` is the
register file after the instruction. -/
def Test.Passes (t : Test) (scalar : Option (BitVec 32)) (strip : Bool) (rf rf' : Nat → BitVec 256) : Prop :=
  ∀ op < numOps strip, ∀ sub < t.regsPerOp, ∀ e < sizeIn t.Vd,
    t.expected scalar strip rf op sub e =
      .ok ⟨t.Vd, lane t.Vd.signed t.Vd.bits (rf' (destReg strip op sub)) e⟩

end Verif.Spec.VecTest
