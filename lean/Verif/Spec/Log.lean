/-!
# What a log call prints

Formats, arguments and numerals for C56, C57 and C107, in terms of bytes. Uses no definition of the model.
-/

namespace Verif.Spec.Log

/-- An argument: a word or a text. -/
inductive Arg where
  | word (v : BitVec 32)
  | text (s : List (BitVec 8))
deriving DecidableEq, Repr

/-- A format is a sequence of texts and directives. -/
inductive Piece where
  | text (s : List (BitVec 8))
  | dir (d : BitVec 8)
deriving DecidableEq, Repr

/-- How a piece is written: 0x25 is the percent sign. -/
def Piece.source : Piece → List (BitVec 8)
  | .text s => s
  | .dir d => [0x25, d]

/-- How a format is written. -/
def source (ps : List Piece) : List (BitVec 8) := ps.flatMap Piece.source

/-- A text of a format holds neither NUL nor a percent sign. -/
def Piece.Plain : Piece → Prop
  | .text s => ∀ b ∈ s, b ≠ 0 ∧ b ≠ 0x25
  | .dir d => d ≠ 0

/-- The value of `0`-`9`, `a`-`f`. -/
def digitValue (b : BitVec 8) : Option Nat :=
  if 0x30 ≤ b.toNat ∧ b.toNat ≤ 0x39 then some (b.toNat - 0x30)
  else if 0x61 ≤ b.toNat ∧ b.toNat ≤ 0x66 then some (b.toNat - 0x57)
  else none

/-- The value of a digit string, most significant digit first. -/
def value (base : Nat) (s : List (BitVec 8)) : Nat := s.foldl (fun n b => n * base + (digitValue b).getD 0) 0

/-- `s` writes `n` in the given base without leading zeros. -/
structure Numeral (base : Nat) (s : List (BitVec 8)) (n : Nat) : Prop where
  nonempty : s ≠ []
  digits : ∀ b ∈ s, ∃ d, digitValue b = some d ∧ d < base
  value : value base s = n
  lead : s.head? = some 0x30 → s.length = 1

/-- The directive `d` writes the argument as `s`. -/
def Shows (d : BitVec 8) (a : Arg) (s : List (BitVec 8)) : Prop :=
  match a with
  | .word v =>
    (d = 0x75 ∧ Numeral 10 s v.toNat) ∨ (d = 0x78 ∧ Numeral 16 s v.toNat) ∨
    (d = 0x64 ∧ 0 ≤ v.toInt ∧ Numeral 10 s v.toInt.toNat) ∨
    (d = 0x64 ∧ v.toInt < 0 ∧ ∃ t, s = 0x2d :: t ∧ Numeral 10 t (-v.toInt).toNat)
  | .text t => d = 0x73 ∧ s = t

/-- A directive that suits an argument: `u`, `d`, `x` for words and `s` for texts. -/
def Suits (d : BitVec 8) : Arg → Prop
  | .word _ => d = 0x75 ∨ d = 0x64 ∨ d = 0x78
  | .text _ => d = 0x73

/-- The output of a format with the arguments in order; arguments left over are ignored. -/
inductive Prints : List Piece → List Arg → List (BitVec 8) → Prop where
  | nil (args : List Arg) : Prints [] args []
  | text (s : List (BitVec 8)) (ps : List Piece) (args : List Arg) (out : List (BitVec 8)) :
      Prints ps args out → Prints (.text s :: ps) args (s ++ out)
  | dir (d : BitVec 8) (a : Arg) (s : List (BitVec 8)) (ps : List Piece) (args : List Arg) (out : List (BitVec 8)) :
      Shows d a s → Prints ps args out → Prints (.dir d :: ps) (a :: args) (s ++ out)

/-- There is a suitable argument for every directive. -/
def Supplied : List Piece → List Arg → Prop
  | [], _ => True
  | .text _ :: ps, args => Supplied ps args
  | .dir _ :: _, [] => False
  | .dir d :: ps, a :: args => Suits d a ∧ Supplied ps args

/-- The directives of a format. -/
def directives : List Piece → Nat
  | [] => 0
  | .text _ :: ps => directives ps
  | .dir _ :: ps => directives ps + 1

/-- The output of a format with the arguments in order, where a directive that does not suit its argument writes nothing. -/
inductive Output : List Piece → List Arg → List (BitVec 8) → Prop where
  | nil (args : List Arg) : Output [] args []
  | text (s : List (BitVec 8)) (ps : List Piece) (args : List Arg) (out : List (BitVec 8)) :
      Output ps args out → Output (.text s :: ps) args (s ++ out)
  | dir (d : BitVec 8) (a : Arg) (s : List (BitVec 8)) (ps : List Piece) (args : List Arg) (out : List (BitVec 8)) :
      (Suits d a → Shows d a s) → (¬ Suits d a → s = []) → Output ps args out → Output (.dir d :: ps) (a :: args) (s ++ out)

/-- The four bytes of a word, least significant first. -/
def wordBytes (w : BitVec 32) : List (BitVec 8) :=
  [w.extractLsb' 0 8, w.extractLsb' 8 8, w.extractLsb' 16 8, w.extractLsb' 24 8]

/-- The text `s`, followed by NUL, is in memory at `a`. -/
def TextAt (mem : Nat → BitVec 8) (a : Nat) (s : List (BitVec 8)) : Prop :=
  (∀ i (h : i < s.length), mem (a + i) = s[i]) ∧ mem (a + s.length) = 0 ∧ ∀ b ∈ s, b ≠ 0

end Verif.Spec.Log
