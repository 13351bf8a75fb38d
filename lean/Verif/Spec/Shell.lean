import Verif.Base.CInt

/-!
# The register listings of the command shell

Texts are lists of characters.
-/

namespace Verif.Spec.Shell

/-- Blanks of a regular expression: `[\t\n\f\r ]`. -/
def blank (c : Char) : Bool := c == ' ' || c == '\t' || c == '\n' || c == '\x0c' || c == '\r'

/-- The command `w info`, with blanks around and at least one between. -/
def Command (w input : List Char) : Prop :=
  ∃ a b c, input = a ++ w ++ b ++ "info".toList ++ c ∧ a.all blank = true ∧ b.all blank = true ∧ b ≠ [] ∧ c.all blank = true

/-- A hexadecimal digit. -/
def hexDigit (d : Nat) : Char := Char.ofNat (if d < 10 then 48 + d else 87 + d)

/-- A 32-bit word in eight digits, the most significant first. -/
def word (v : BitVec 32) : List Char := (List.range 8).map fun i => hexDigit (v.toNat / 16 ^ (7 - i) % 16)

/-- One line for each scalar register. -/
def scalars (alias : Nat → String) (x : Nat → BitVec 32) : List Char :=
  (List.range 32).flatMap fun i => (alias i).toList ++ "\t = [".toList ++ word (x i) ++ "]\n".toList

/-- The words of a vector register from lane 0 on, with colons between. -/
def lanes (v : BitVec 256) : List Char :=
  (List.range 8).flatMap fun j => (if j = 0 then [] else [':']) ++ word (v.extractLsb' (32 * j) 32)

/-- One line for each vector register that exists. -/
def vectors (f : Nat → Option (BitVec 256)) : List Char :=
  (List.range 64).flatMap fun i => match f i with
    | none => []
    | some v => 'v' :: (toString i).toList ++ "\t = [".toList ++ lanes v ++ "]\n".toList

end Verif.Spec.Shell
