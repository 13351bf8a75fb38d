import Verif.Conform.EncodingCases
import Verif.Model.Decode

/-!
# Agreement with the encoding test of the repository

The expectations of `/repo/sim/test/coralnpu_encoding_test.cc`, evaluated in the model. These are not properties; they
check that the model answers as the repository says the code does. The expectations of `NoSourceDest` (null operands for
the names `none` and `pastMaxValue`, which the model does not have) are left out.
-/

namespace Verif.Conform.Encoding
open Verif Verif.Model

/-- The rows that a word matches, in all the groups. -/
def found (w : BitVec 32) : List Row := allRows.filter (·.matches w)

/-- The one row found for the word, if it has the name. -/
def the (w : BitVec 32) (name : List Tok) : Option Row :=
  match found w with
  | [r] => if r.name = name then some r else none
  | _ => none

/-- Every word of the test matches one row, that of the opcode expected. -/
theorem conform_opcodes : opcodes.all (fun c => (the c.1 c.2).isSome) = true := by decide +kernel

/-- The words expected not to decode match no row. -/
theorem conform_nones : nones.all (fun w => (found w).isEmpty) = true := by decide +kernel

/-- The Zbb words match no row of the groups of /repo, so that they reach the groups outside it. -/
theorem conform_zbb : zbb.all (fun w => (found w).isEmpty) = true := by decide +kernel

/-- Size of the vector source operand. -/
def srcSize (w : BitVec 32) (name : List Tok) (o : Opd) : Option Nat := do
  let r ← the w name
  if o ∈ r.src then match ← srcOpd r w o with
    | .vgroup _ n => some n
    | _ => none
  else none

theorem conform_srcSizes : srcSizes.all (fun c => srcSize c.1 c.2.1 c.2.2.1 == some c.2.2.2) = true := by
  decide +kernel

/-- First register of the vector source operand. -/
def srcBase (w : BitVec 32) (name : List Tok) (o : Opd) : Option Nat := do
  let r ← the w name
  if o ∈ r.src then match ← srcOpd r w o with
    | .vgroup b _ => some b
    | _ => none
  else none

theorem conform_srcFirst : srcFirst.all (fun c => srcBase c.1 c.2.1 c.2.2.1 == some c.2.2.2) = true := by
  decide +kernel

theorem conform_dstSizes :
    dstSizes.all (fun c => ((the c.1 c.2.1).map (dstVdLen · c.1)) == some c.2.2.2 && c.2.2.1 == .vd) = true := by
  decide +kernel

/-- Number of the scalar source register, 0 for the literal zero. -/
def srcScalar (w : BitVec 32) (name : List Tok) (o : Opd) : Option Nat := do
  let r ← the w name
  if o ∈ r.src then match ← srcOpd r w o with
    | .zero => some 0
    | .xreg n => some n
    | .vgroup _ _ => none
  else none

theorem conform_scalars : scalars.all (fun c => srcScalar c.1 c.2.1 c.2.2.1 == some c.2.2.2) = true := by
  decide +kernel

/-- The scalar destination `vs1` of the memory instructions is the register that the address comes from. -/
theorem conform_scalarDsts :
    scalarDsts.all (fun c => ((the c.1 c.2.1).map fun r => match srcVs1 r c.1 with
      | .zero => 0
      | .xreg n => n
      | .vgroup _ _ => 64) == some c.2.2.2) = true := by
  decide +kernel

end Verif.Conform.Encoding
