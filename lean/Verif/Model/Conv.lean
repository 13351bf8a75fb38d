import Verif.Model.VecFrame

/-!
# Convolution and accumulator instructions

Model of `/repo/sim/coralnpu_vector_convolution_instructions.{h,cc}` (`conv.cc` below) and of
`CoralNPUVcGet`, `CoralNPUAcSet`, `CoralNPUADwInit` in
`/repo/sim/coralnpu_vector_memory_instructions.cc` (`mem.cc` below).

Assumptions: bit fields are allocated from the least significant bit (little-endian x86/ARM ABI; the
`memcpy` of conv.cc 52, 142 depends on it); `state->Trap` (mpact-riscv) is an observable event;
`AllocateDataBuffer` returns a buffer with arbitrary contents.
-/

namespace Verif.Model
open Verif CVal

/-- `acc_register_`: 8 x 8 words (coralnpu_state.h 54-57, 115). -/
abbrev Acc := Nat → Nat → BitVec 32

/-- `depthwise_acc_register_`: 32 words (coralnpu_state.h 59, 118). The constructor does not
initialise it (coralnpu_state.cc 45-77): `none` is an indeterminate word. -/
abbrev DwAcc := Nat → Option (BitVec 32)

/-- Bits `lo .. lo+n-1` of a word. -/
def field (x : BitVec 32) (lo n : Nat) : Nat := (x.extractLsb' lo n).toNat

/-- `vconv_cmd_t` (conv.h 28-36). -/
structure ConvCmd where
  mode : Nat
  start : Nat
  stop : Nat
  sbias1 : Nat
  sdata1 : Nat
  sbias2 : Nat
  sdata2 : Nat

def ConvCmd.of (x : BitVec 32) : ConvCmd where
  mode := field x 0 2
  start := field x 2 5
  stop := field x 7 5
  sbias1 := field x 12 9
  sdata1 := field x 21 1
  sbias2 := field x 22 9
  sdata2 := field x 31 1

/-- `(static_cast<int32_t>(b) << 23) >> 23` (conv.cc 89-90). -/
def signExt9 (b : Nat) : Outcome CVal := do
  let s ← shl ⟨.i32, b⟩ (lit 23)
  shr s (lit 23)

/-- `flag ? static_cast<int8_t>(n) : n`, as an `int32_t` (conv.cc 111, 113, 227-230). -/
def extByte (flag : Nat) (n : BitVec 8) : CVal :=
  if flag ≠ 0 then ⟨.i32, (ofBits .i8 n).v⟩ else ⟨.i32, (ofBits .u8 n).v⟩

/-- Byte `i` of a register. -/
def regByte (r : VReg) (i : Nat) : BitVec 8 := r.extractLsb' (i * 8) 8

/-- `kInterleave` (conv.cc 101, 234). -/
def interleave (i : Nat) : Nat := [0, 2, 1, 3].getD i 0

/-- The loop body of `CoralNPUVConv` for `(k, i, j)` (conv.cc 109-120). `narrow i` and `wide k` are the
registers read; the array indices are checked. -/
def convBody (cmd : ConvCmd) (b1 b2 : CVal) (narrow wide : Nat → VReg) (acc : Acc) (k i j : Nat) : Outcome Acc :=
  let nidx := 4 * k + (j &&& 3)
  let word := j / 4
  let idxI := (i / 4) * 4 + interleave (word &&& 3)
  let idxJ := (i &&& 3) * 2 + word / 4
  if nidx < 32 ∧ idxI < 8 ∧ idxJ < 8 then do
    let a ← add (extByte cmd.sdata1 (regByte (narrow i) nidx)) b1
    let b ← add (extByte cmd.sdata2 (regByte (wide (k - cmd.start)) j)) b2
    let p ← mul a b
    .ok (fun r c => if r = idxI ∧ c = idxJ then acc r c + BitVec.ofInt 32 p.v else acc r c)
  else .ub

/-- `CoralNPUVConv` (conv.cc 47-130). `vs1` and `vs3` are groups of `len1` and `len3` registers. The `Bool`
says whether an illegal-instruction trap was raised. -/
def vconv (cmdWord : BitVec 32) (vs1 len1 vs3 len3 : Nat) (rf : VRF) (acc : Acc) : Outcome (Bool × Acc) :=
  let cmd := ConvCmd.of cmdWord
  if cmd.mode ≠ 0 then .ok (true, acc)
  else if cmd.start > cmd.stop then .ok (true, acc)
  else if cmd.start ≥ 8 ∨ cmd.stop ≥ 8 then .ok (true, acc)
  else if 8 ≤ len1 ∧ cmd.stop - cmd.start < len3 then do
    let b1 ← signExt9 cmd.sbias1
    let b2 ← signExt9 cmd.sbias2
    let acc' ← (List.range (cmd.stop + 1 - cmd.start)).foldlM (fun acc k' =>
      (List.range 8).foldlM (fun acc i =>
        (List.range 32).foldlM (fun acc j =>
          convBody cmd b1 b2 (fun i => rf (vs1 + i)) (fun k => rf (vs3 + k)) acc (cmd.start + k') i j) acc) acc) acc
    .ok (false, acc')
  else .ub

/-- `vdwconv_u8_t` (conv.h 39-48). -/
structure DwCmd where
  sparsity : Nat
  regbase : Nat
  sbias1 : Int
  sdata1 : Nat
  sbias2 : Int
  sdata2 : Nat

def DwCmd.of (x : BitVec 32) : DwCmd where
  sparsity := field x 2 2
  regbase := field x 4 4
  sbias1 := (x.extractLsb' 12 9).toInt
  sdata1 := field x 21 1
  sbias2 := (x.extractLsb' 22 9).toInt
  sdata2 := field x 31 1

/-- `vs1_idx` (conv.cc 144-178). -/
def dwIdx (regbase : Nat) : Nat × Nat × Nat :=
  if regbase ≤ 6 then (regbase, regbase + 1, regbase + 2)
  else if regbase = 7 then (1, 0, 2)
  else if regbase ≤ 11 then (2 * regbase - 15, 2 * regbase - 15 + 1, 0)
  else (2 * regbase - 22, 0, 1)

/-- `memcpy(a_data + off, span + so, n * sizeof(uint32_t))` or a single assignment (`n = 1`). -/
def copyWords (a : Nat → Option (BitVec 32)) (off n : Nat) (src : VReg) (so : Nat) : Nat → Option (BitVec 32) :=
  fun j => if off ≤ j ∧ j < off + n then some (src.extractLsb' ((so + (j - off)) * 32) 32) else a j

/-- The activation words `a_data` (conv.cc 187-214); sparsity 3 traps and leaves them uninitialised. -/
def dwData (sparsity : Nat) (v0 v1 v2 : VReg) : Nat → Option (BitVec 32) :=
  let u : Nat → Option (BitVec 32) := fun _ => none
  match sparsity with
  | 0 => copyWords (copyWords (copyWords u 0 8 v0 0) 8 8 v1 0) 16 8 v2 0
  | 1 => copyWords (copyWords (copyWords (copyWords (copyWords u 0 1 v0 7) 1 7 v1 0) 8 8 v1 0) 16 7 v1 1) 23 1 v2 0
  | 2 => copyWords (copyWords (copyWords (copyWords (copyWords (copyWords u 0 8 v0 0) 8 7 v0 1) 15 1 v1 0)
      16 6 v0 2) 22 1 v1 0) 23 1 v1 1
  | _ => u

/-- The loop body of `CoralNPUVDwconv` for product register `r` and lane `i` (conv.cc 227-237). -/
def dwBody (cmd : DwCmd) (a_data : Nat → Option (BitVec 32)) (vs3 : Nat → VReg) (r : Nat) (acc : DwAcc) (i : Nat) :
    Outcome DwAcc :=
  let cell := 8 * interleave (i &&& 3) + i / 4
  match a_data (r * 8 + i / 4), acc cell with
  | some w, some c => do
    let a ← add (extByte cmd.sdata1 (w.extractLsb' (i % 4 * 8) 8)) ⟨.i32, cmd.sbias1⟩
    let b ← add (extByte cmd.sdata2 (regByte (vs3 r) i)) ⟨.i32, cmd.sbias2⟩
    let p ← mul a b
    let s ← add (ofBits .i32 c) p
    .ok (fun q => if q = cell then some (BitVec.ofInt 32 s.v) else acc q)
  | _, _ => .ub

/-- Writing the accumulator to `vd` (conv.cc 245-253). -/
def dwWrite (vd vdLen : Nat) (acc : DwAcc) (rf : VRF) : Outcome VRF :=
  if 4 ≤ vdLen then do
    let regs ← (List.range 4).mapM fun i => do
      let ws ← (List.range 8).mapM fun j => match acc (i * 8 + j) with
        | some w => Outcome.ok (ofBits .u32 w)
        | none => .ub
      .ok (packReg .u32 ws)
    .ok (submitAll rf vd 1 regs)
  else .ub

/-- `CoralNPUVDwconv` (conv.cc 138-254). The `Bool` says whether an illegal-instruction trap was raised
(before the rest of the function, which is executed all the same). -/
def vdwconv (writeAcc : Bool) (cmdWord : BitVec 32) (vs1 len1 vs3 len3 vd vdLen : Nat) (rf : VRF) (acc : DwAcc) :
    Outcome (Bool × VRF × DwAcc) :=
  let cmd := DwCmd.of cmdWord
  let idx := dwIdx cmd.regbase
  if idx.1 < len1 ∧ idx.2.1 < len1 ∧ idx.2.2 < len1 ∧ 3 ≤ len3 then do
    let a := dwData cmd.sparsity (rf (vs1 + idx.1)) (rf (vs1 + idx.2.1)) (rf (vs1 + idx.2.2))
    let acc' ← (List.range 3).foldlM (fun acc r =>
      (List.range 32).foldlM (dwBody cmd a (fun r => rf (vs3 + r)) r) acc) acc
    let rf' ← if writeAcc then dwWrite vd vdLen acc' rf else .ok rf
    .ok (decide (cmd.sparsity = 3), rf', acc')
  else .ub

/-- `CoralNPUVcGet` (mem.cc 334-348). -/
def vcget (vd vdLen : Nat) (rf : VRF) (acc : Acc) : Outcome (VRF × Acc) :=
  if 8 ≤ vdLen then
    .ok (submitAll rf vd 1 ((List.range 8).map fun op =>
        packReg .u32 ((List.range 8).map fun i => ofBits .u32 (acc op i))),
      fun r c => if r < 8 ∧ c < 8 then 0 else acc r c)
  else .ub

/-- `CoralNPUAcSet` (mem.cc 353-371): `acset` and, transposed, `actr`. -/
def acset (transpose : Bool) (vs len : Nat) (rf : VRF) (acc : Acc) : Outcome Acc :=
  if 8 ≤ len then
    (List.range 8).foldlM (fun acc op =>
      (List.range 8).foldlM (fun (acc : Acc) i =>
        let w := (rf (vs + op)).extractLsb' (i * 32) 32
        Outcome.ok (if transpose then (fun r c => if r = i ∧ c = op then w else acc r c)
          else (fun r c => if r = op ∧ c = i then w else acc r c))) acc) acc
  else .ub

/-- `CoralNPUADwInit` (mem.cc 376-399). `fresh op` is the previous content of the buffer allocated for
destination register `op`, of which only the first 8 bytes are assigned. The byte loop over the
accumulator is a copy of 8 words. -/
def adwinit (vs vsLen vd vdLen : Nat) (fresh : Nat → VReg) (rf : VRF) (acc : DwAcc) : Outcome (VRF × DwAcc) :=
  if 4 ≤ vsLen ∧ 4 ≤ vdLen then
    (List.range 4).foldlM (fun (st : VRF × DwAcc) op =>
      let src := st.1 (vs + op)
      Outcome.ok
        (fun q => if q = vd + op then packReg .u8 ((List.range 32).map fun i =>
            if i < 8 then ofBits .u8 (regByte src i) else ofBits .u8 (regByte (fresh op) i)) else st.1 q,
          fun q => if 8 * op ≤ q ∧ q < 8 * op + 8 then some (src.extractLsb' ((q - 8 * op) * 32) 32) else st.2 q))
      (rf, acc)
  else .ub

end Verif.Model
