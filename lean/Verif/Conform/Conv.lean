import Verif.Conform.ConvCases
import Verif.Props.Conv

/-!
# Agreement with the convolution test of the repository

The expectations of `/repo/sim/test/coralnpu_vector_convolution_instructions_test.cc`, evaluated in the model. `VConv` goes
by way of C31, whose specification is what is evaluated on the data of the test. `VDwconvSparsity3` expects a trap, which the
code does raise; the model says that it then reads words that were never written (`C32_dwconv_reserved_ub`), which the
test cannot see. Of the 64 calls of `VDwconvRegbase` the 16 with unsigned data and a written accumulator are evaluated
and of the others those with bases 0, 7, 8 and 12, one for each rule of the table of bases.
-/

namespace Verif.Conform.Conv
open Verif Verif.Model

/-- The register file with the registers of the list, zero elsewhere. -/
def rfOf (l : List (Nat × VReg)) : VRF := fun q =>
  match l.find? (·.1 = q) with
  | some p => p.2
  | none => 0

/-! ## VConv -/

def rf0 : VRF := fun q => if q < 8 then in1.getD q 0 else if 16 ≤ q ∧ q < 24 then in2.getD (q - 16) 0 else 0

/-- The command word of a `vconv_cmd_t` with the biases 86 and 188 of the test, unsigned data and signed filter. -/
def cmdOf (mode start stop : Nat) : BitVec 32 :=
  BitVec.ofNat 32 (mode + start * 2 ^ 2 + stop * 2 ^ 7 + 86 * 2 ^ 12 + 0 * 2 ^ 21 + 188 * 2 ^ 22 + 1 * 2 ^ 31)

/-- What the specification of C31 adds in the first call and in the second, which has the operands swapped. -/
def dots (i w : Nat) : BitVec 32 × BitVec 32 :=
  let cmd := cmdOf 0 0 7
  let d := fun vs1 vs3 => BitVec.ofInt 32 (Spec.convDot (decide (Spec.bitsAt cmd 21 1 = 1)) (decide (Spec.bitsAt cmd 31 1 = 1))
    (Spec.sbitsAt cmd 12 9) (Spec.sbitsAt cmd 22 9) (Spec.bitsAt cmd 2 5)
    (Spec.bitsAt cmd 7 5 + 1 - Spec.bitsAt cmd 2 5) (fun i => rf0 (vs1 + i)) (fun k => rf0 (vs3 + k)) i w)
  (d 0 16, d 16 0)

theorem dots_ref : (List.range 8).all (fun i => (List.range 8).all fun w =>
    (dots i w).1 + (dots i w).2 == (outRef.getD (Spec.cellRow i w) []).getD (Spec.cellCol i w) 0) = true := by
  decide +kernel

/-- `VConv`: the accumulators are cleared, the instruction is executed twice, with the operands swapped the second time,
and the result is the reference. -/
theorem conform_vconv : ∃ acc1 acc2, vconv (cmdOf 0 0 7) 0 8 16 8 rf0 (fun _ _ => 0) = .ok (false, acc1) ∧
    vconv (cmdOf 0 0 7) 16 8 0 8 rf0 acc1 = .ok (false, acc2) ∧
    ∀ i < 8, ∀ j < 8, acc2 i j = (outRef.getD i []).getD j 0 := by
  have hl : Props.ConvLegal (cmdOf 0 0 7) := by unfold Props.ConvLegal; decide +kernel
  obtain ⟨acc1, h1, e1⟩ := Props.C31_aconv (cmdOf 0 0 7) hl 0 16 rf0 (fun _ _ => 0)
  obtain ⟨acc2, h2, e2⟩ := Props.C31_aconv (cmdOf 0 0 7) hl 16 0 rf0 acc1
  refine ⟨acc1, acc2, h1, h2, fun r hr c hc => ?_⟩
  obtain ⟨i, w, ⟨hi, hw, rfl, rfl⟩, -⟩ := Props.C31_cells r c hr hc
  rw [e2 i hi w hw, e1 i hi w hw]
  have h := List.all_eq_true.1 (List.all_eq_true.1 dots_ref i (List.mem_range.2 hi)) w (List.mem_range.2 hw)
  rw [beq_iff_eq] at h
  rw [← h, dots]
  exact congrArg (· + _) (BitVec.zero_add _)

/-- `VConvWrongMode`, `VConvTooLargeStop`, `VConvWrongStop`. -/
theorem conform_vconvBad : ∀ cmd ∈ [cmdOf 1 0 7, cmdOf 0 0 8, cmdOf 0 7 5],
    vconv cmd 0 8 16 8 rf0 (fun _ _ => 0) = .ok (true, fun _ _ => 0) := by
  have h : ¬ Props.ConvLegal (cmdOf 1 0 7) ∧ ¬ Props.ConvLegal (cmdOf 0 0 8) ∧ ¬ Props.ConvLegal (cmdOf 0 7 5) := by
    unfold Props.ConvLegal; decide +kernel
  intro cmd hc
  simp only [List.mem_cons, List.not_mem_nil, or_false] at hc
  rcases hc with rfl | rfl | rfl
  · exact Props.C32_aconv _ h.1 ..
  · exact Props.C32_aconv _ h.2.1 ..
  · exact Props.C32_aconv _ h.2.2 ..

/-! ## VDwconv -/

/-- `SetRegisterAscending`: the bytes from the offset on, in the order of the accumulators. -/
def ascending (off : Int) : VReg :=
  BitVec.ofNat 256 (((List.range 32).map fun (i : Nat) =>
    (((i : Int) + off) % 256).toNat * 256 ^ (i % 8 * 4 + [0, 2, 1, 3].getD (i / 8) 0)).sum)

/-- `SetRegisterConstant`. -/
def constant (v : Int) : VReg := BitVec.ofNat 256 (((List.range 32).map fun i => (v % 256).toNat * 256 ^ i).sum)

/-- `ExecuteDwconv` with cleared accumulators, and `TestAccumulatorAndRegisters`. -/
def test (writeAcc : Bool) (cmd : BitVec 32) (regs : List (Nat × VReg)) (f : Nat → Int) : Bool :=
  match vdwconv writeAcc cmd 0 9 16 3 48 4 (rfOf regs) (fun _ => some 0) with
  | .ok (false, rf', acc') =>
    (List.range 32).all fun i => (acc' i).map (·.toInt) == some (f i) &&
      (!writeAcc || ((rf' (48 + i / 8)).extractLsb' (i % 8 * 32) 32).toInt == f i)
  | _ => false

/-- The command word of a `vdwconv_u8_t`. -/
def dwCmd (sparsity regbase sbias1 sdata1 sbias2 sdata2 : Nat) : BitVec 32 :=
  BitVec.ofNat 32 (sparsity * 2 ^ 2 + regbase * 2 ^ 4 + sbias1 * 2 ^ 12 + sdata1 * 2 ^ 21 + sbias2 * 2 ^ 22 + sdata2 * 2 ^ 31)

/-- Six registers: three of data, three of the filter. -/
def regs6 (idx : List Nat) (d : List VReg) (k0 k1 k2 : Int) : List (Nat × VReg) :=
  idx.zip d ++ [(16, constant k0), (17, constant k1), (18, constant k2)]

/-- `DepthwiseConvolutionRegbaseTestHelper`. -/
def regbase (c : Bool × Bool × Nat × List Nat) : Bool :=
  let s := if c.1 then 1 else 0
  let z := constant 0
  test c.2.1 (dwCmd 0 c.2.2.1 0 s 0 s) (regs6 c.2.2.2 [ascending 1, z, z] 1 0 0) (fun i => i + 1) &&
  test c.2.1 (dwCmd 0 c.2.2.1 0 s 0 s) (regs6 c.2.2.2 [z, ascending 1, z] 0 2 0) (fun i => 2 * (i + 1)) &&
  test c.2.1 (dwCmd 0 c.2.2.1 0 s 0 s) (regs6 c.2.2.2 [z, z, ascending 1] 0 0 3) (fun i => 3 * (i + 1))

/-- `VDwconvRegbase`, in parts: unsigned data with the accumulator written, then the others. -/
theorem conform_regbase0 : ((regbases.drop 0).take 2).all regbase = true := by decide +kernel
theorem conform_regbase1 : ((regbases.drop 2).take 2).all regbase = true := by decide +kernel
theorem conform_regbase2 : ((regbases.drop 4).take 2).all regbase = true := by decide +kernel
theorem conform_regbase3 : ((regbases.drop 6).take 2).all regbase = true := by decide +kernel
theorem conform_regbase4 : ((regbases.drop 8).take 2).all regbase = true := by decide +kernel
theorem conform_regbase5 : ((regbases.drop 10).take 2).all regbase = true := by decide +kernel
theorem conform_regbase6 : ((regbases.drop 12).take 2).all regbase = true := by decide +kernel
theorem conform_regbase7 : ((regbases.drop 14).take 2).all regbase = true := by decide +kernel

theorem conform_regbase16_0 : regbase (regbases.getD 16 (true, true, 0, [])) = true := by decide +kernel
theorem conform_regbase16_7 : regbase (regbases.getD 23 (true, true, 0, [])) = true := by decide +kernel
theorem conform_regbase16_8 : regbase (regbases.getD 24 (true, true, 0, [])) = true := by decide +kernel
theorem conform_regbase16_12 : regbase (regbases.getD 28 (true, true, 0, [])) = true := by decide +kernel
theorem conform_regbase32_0 : regbase (regbases.getD 32 (true, true, 0, [])) = true := by decide +kernel
theorem conform_regbase32_7 : regbase (regbases.getD 39 (true, true, 0, [])) = true := by decide +kernel
theorem conform_regbase32_8 : regbase (regbases.getD 40 (true, true, 0, [])) = true := by decide +kernel
theorem conform_regbase32_12 : regbase (regbases.getD 44 (true, true, 0, [])) = true := by decide +kernel
theorem conform_regbase48_0 : regbase (regbases.getD 48 (true, true, 0, [])) = true := by decide +kernel
theorem conform_regbase48_7 : regbase (regbases.getD 55 (true, true, 0, [])) = true := by decide +kernel
theorem conform_regbase48_8 : regbase (regbases.getD 56 (true, true, 0, [])) = true := by decide +kernel
theorem conform_regbase48_12 : regbase (regbases.getD 60 (true, true, 0, [])) = true := by decide +kernel

/-- `DepthwiseConvolutionBiasTestHelper`. -/
def bias (b1 b2 : Nat) : Bool :=
  test true (dwCmd 0 0 b1 1 b2 1) [(0, ascending (1 - b1)), (1, constant (-b1)), (2, constant (-b1)),
    (16, constant (1 - b2)), (17, constant (-b2)), (18, constant (-b2))] (fun i => i + 1)

/-- `VDwconvSignBiases`. -/
theorem conform_bias : (bias 2 0 && bias 0 3 && bias 5 5) = true := by decide +kernel

/-- `VDwconvSparsity1`. -/
theorem conform_sparsity1 :
    (test true (dwCmd 1 0 0 0 0 0) (regs6 [0, 1, 2] [constant 42, ascending 1, constant 0] 1 0 0)
        (fun i => if i % 8 = 0 then 42 else i) &&
      test true (dwCmd 1 0 0 0 0 0) (regs6 [0, 1, 2] [constant 0, ascending 1, constant 0] 0 1 0) (fun i => i + 1) &&
      test true (dwCmd 1 0 0 0 0 0) (regs6 [0, 1, 2] [constant 0, ascending 0, constant 42] 0 0 1)
        (fun i => if i % 8 = 7 then 42 else i + 1)) = true := by decide +kernel

/-- `VDwconvSparsity2`. -/
theorem conform_sparsity2 :
    (test true (dwCmd 2 0 0 0 0 0) (regs6 [0, 1, 2] [ascending 1, constant 0, constant 0] 1 0 0) (fun i => i + 1) &&
      test true (dwCmd 2 0 0 0 0 0) (regs6 [0, 1, 2] [ascending 0, constant 42, constant 0] 0 1 0)
        (fun i => if i % 8 = 7 then 42 else i + 1) &&
      test true (dwCmd 2 0 0 0 0 0) (regs6 [0, 1, 2] [ascending 0, constant 42, constant 0] 0 0 1)
        (fun i => if i % 8 ≥ 6 then 42 else i + 2)) = true := by decide +kernel

end Verif.Conform.Conv
