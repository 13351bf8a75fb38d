import Verif.Spec.Conv

/-!
# Operand values of the second core

From the immediate formats of the RISC-V Unprivileged ISA manual ("Immediate Encoding Variants") and the formats of the "V"
extension 1.0: the value of each immediate as a sum over the bits of the word.
-/

namespace Verif.Spec.V2Isa
open Verif.Spec

/-- A bit of the word. -/
def bit (w : BitVec 32) (i : Nat) : Int := bitsAt w i 1

/-- Immediates with a sign. Bit 31 is the sign of all formats, bit 19 that of the vector immediate. -/
def signedImms : List (String × (BitVec 32 → Int)) :=
  [("I_imm12", fun w => -2048 * bit w 31 + bitsAt w 20 11),
   ("J_imm12", fun w => -2048 * bit w 31 + bitsAt w 20 11),
   ("S_imm12", fun w => -2048 * bit w 31 + 32 * bitsAt w 25 6 + bitsAt w 7 5),
   ("B_imm12", fun w => -4096 * bit w 31 + 2048 * bit w 7 + 32 * bitsAt w 25 6 + 2 * bitsAt w 8 4),
   ("J_imm20", fun w => -1048576 * bit w 31 + 4096 * bitsAt w 12 8 + 2048 * bit w 20 + 2 * bitsAt w 21 10),
   ("simm5", fun w => -16 * bit w 19 + bitsAt w 15 4)]

/-- Immediates without a sign. -/
def unsignedImms : List (String × (BitVec 32 → Nat)) :=
  [("U_imm20", fun w => 4096 * bitsAt w 12 20), ("r_uimm5", fun w => bitsAt w 20 5), ("uimm5", fun w => bitsAt w 15 5),
   ("CSR_uimm5", fun w => bitsAt w 15 5), ("csr", fun w => bitsAt w 20 12), ("nf", fun w => bitsAt w 29 3),
   ("pred", fun w => bitsAt w 24 4), ("succ", fun w => bitsAt w 20 4), ("rm", fun w => bitsAt w 12 3),
   ("vm", fun w => bitsAt w 25 1), ("const1", fun _ => 1), ("const2", fun _ => 2), ("const4", fun _ => 4)]

end Verif.Spec.V2Isa
