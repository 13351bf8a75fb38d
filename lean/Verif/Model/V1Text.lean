import Verif.Model.Decode
import Verif.Gen.V1Text

/-!
# The printed form of the vector instructions of the first core

Model of the text that the generated decoder attaches to a decoded vector instruction: the mnemonic of the `disasm`
string of the opcode (`/repo/sim/coralnpu_{arith,memory,mul,shift}.isa`), padded on the right to the width given by
`disasm widths = {-18}` (line 5 of the files), followed by the operand template with every `%operand` replaced by the
name of the operand. The names are those given to the operand objects by `/repo/sim/coralnpu_encoding.cc` (line numbers
refer to it).

Assumptions about code outside `/repo`:
* the generated decoder formats the `disasm` string as described above, and `AsString` of an operand is its name;
* `kXRegisterAliases` is the list of ABI names of the RISC-V calling convention;
* `kVregPrefix` is `v`.

The scalar instructions are treated in `Verif.Model.V1Scalar`.
-/

namespace Verif.Model.Text
open Verif Verif.Model

/-- The vector opcodes. -/
def vecRows : List Row := allRows.filter fun r => r.sem != .scalar

/-- The vector opcodes with the operand part of their `disasm` strings. -/
def rows : List (Row × List Piece) := vecRows.zip (used.map fun k => templates.getD k [])

/-- The characters of a part of a mnemonic. -/
def tokChars (t : Tok) : List Char := (toks.lookup t).getD []

/-- Words separated by dots. -/
def join : List (List Char) → List Char
  | [] => []
  | [a] => a
  | a :: b :: l => a ++ '.' :: join (b :: l)

/-- The first field of the `disasm` string. -/
def mnemonic (r : Row) : List Char := join (r.disasm.map tokChars)

/-- `kXRegisterAliases`. -/
def aliases : List (List Char) := [
  ['z', 'e', 'r', 'o'], ['r', 'a'], ['s', 'p'], ['g', 'p'], ['t', 'p'], ['t', '0'], ['t', '1'], ['t', '2'],
  ['s', '0'], ['s', '1'], ['a', '0'], ['a', '1'], ['a', '2'], ['a', '3'], ['a', '4'], ['a', '5'],
  ['a', '6'], ['a', '7'], ['s', '2'], ['s', '3'], ['s', '4'], ['s', '5'], ['s', '6'], ['s', '7'],
  ['s', '8'], ['s', '9'], ['s', '1', '0'], ['s', '1', '1'], ['t', '3'], ['t', '4'], ['t', '5'], ['t', '6']]

/-- Name of the operand object of a scalar register (185-189, 197-201, 221-233, 257-268, 314-320). -/
def regName (n : Nat) : List Char := aliases.getD n []

/-- Name of a group of vector registers: that of its first register (59-62, 73-76). -/
def vName (n : Nat) : List Char := 'v' :: Nat.toDigits 10 n

/-- Name of a source operand object. The literal zero is named like register 0 (186, 198, 222, 258). -/
def opdName : SrcOpd → List Char
  | .zero => regName 0
  | .xreg n => regName n
  | .vgroup b _ => vName b

/-- The text substituted for an operand. Where an operand is both a source and a destination, both objects have the
same name: `vd` (272-282, 322-339) and `vs1` (213-246, 340-357). -/
def opText (r : Row) (w : BitVec 32) (o : Opd) : List Char :=
  if o = .rd then regName (fRd w) else ((srcOpd r w o).map opdName).getD []

/-- The operand part. -/
def argText (r : Row) (w : BitVec 32) (t : List Piece) : List Char :=
  t.flatMap fun
    | .lit cs => cs
    | .op o => opText r w o

/-- The printed form of the word `w` decoded as `p.1`. -/
def text (p : Row × List Piece) (w : BitVec 32) : List Char :=
  mnemonic p.1 ++ (List.replicate (18 - (mnemonic p.1).length) ' ' ++ argText p.1 w p.2)

end Verif.Model.Text
