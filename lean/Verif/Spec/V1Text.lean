/-!
# Assembler lines

The layout of a line of assembler text: a mnemonic of dot-separated parts in a column 18 characters wide, then the
operands, separated by a comma and a blank, the destination first.
-/

namespace Verif.Spec

/-- Operands separated by `, `. -/
def operandList : List (List Char) → List Char
  | [] => []
  | [a] => a
  | a :: l => a ++ [',', ' '] ++ operandList l

/-- A line of assembler text. -/
def asmLine (mnemonic : List Char) (operands : List (List Char)) : List Char :=
  mnemonic ++ List.replicate (18 - mnemonic.length) ' ' ++ operandList operands

/-- A decimal digit. -/
def digit (k : Nat) : Char := "0123456789".toList.getD k '?'

/-- A number below 100. -/
def decimal (n : Nat) : List Char := if n < 10 then [digit n] else [digit (n / 10), digit (n % 10)]

/-- A vector register. -/
def vectorName (n : Nat) : List Char := 'v' :: decimal n

/-- A scalar register by its name in the calling convention. -/
def abiName (n : Nat) : List Char :=
  if n < 5 then (["zero", "ra", "sp", "gp", "tp"].getD n "").toList
  else if n < 8 then 't' :: decimal (n - 5)
  else if n < 10 then 's' :: decimal (n - 8)
  else if n < 18 then 'a' :: decimal (n - 10)
  else if n < 28 then 's' :: decimal (n - 16)
  else 't' :: decimal (n - 25)

end Verif.Spec
