import Verif.Spec.Conv

/-!
# misa and memory instructions, from the manual

A word pattern is a list of fields, (position, width, value).
-/

namespace Verif.Spec.V2Sim
open Verif.Spec (bitsAt)

abbrev Pattern := List (Nat × Nat × Nat)

def Pattern.Is (p : Pattern) (w : BitVec 32) : Prop := ∀ f ∈ p, bitsAt w f.1 f.2.1 = f.2.2

/-- The bit of an extension in misa: A is bit 0. -/
def bit (c : Char) : Nat := c.toNat - 'A'.toNat

/-- Instructions that belong to an extension with a letter in misa (unprivileged and privileged manual): the extension is
implemented when one of them is. -/
def needs : List (Pattern × Nat) := [
  ([(0, 7, 0x2f)], bit 'A'),
  ([(0, 2, 0)], bit 'C'), ([(0, 2, 1)], bit 'C'), ([(0, 2, 2)], bit 'C'),
  ([(0, 7, 0x53), (25, 2, 0)], bit 'F'), ([(0, 7, 0x43), (25, 2, 0)], bit 'F'), ([(0, 7, 0x47), (25, 2, 0)], bit 'F'),
  ([(0, 7, 0x4b), (25, 2, 0)], bit 'F'), ([(0, 7, 0x4f), (25, 2, 0)], bit 'F'),
  ([(0, 7, 0x07), (12, 3, 2)], bit 'F'), ([(0, 7, 0x27), (12, 3, 2)], bit 'F'),
  ([(0, 7, 0x53), (25, 2, 1)], bit 'D'), ([(0, 7, 0x43), (25, 2, 1)], bit 'D'), ([(0, 7, 0x47), (25, 2, 1)], bit 'D'),
  ([(0, 7, 0x4b), (25, 2, 1)], bit 'D'), ([(0, 7, 0x4f), (25, 2, 1)], bit 'D'),
  ([(0, 7, 0x07), (12, 3, 3)], bit 'D'), ([(0, 7, 0x27), (12, 3, 3)], bit 'D'),
  ([(0, 7, 0x53), (25, 2, 3)], bit 'Q'), ([(0, 7, 0x43), (25, 2, 3)], bit 'Q'), ([(0, 7, 0x47), (25, 2, 3)], bit 'Q'),
  ([(0, 7, 0x4b), (25, 2, 3)], bit 'Q'), ([(0, 7, 0x4f), (25, 2, 3)], bit 'Q'),
  ([(0, 7, 0x07), (12, 3, 4)], bit 'Q'), ([(0, 7, 0x27), (12, 3, 4)], bit 'Q'),
  ([(0, 7, 0x33), (25, 7, 1)], bit 'M'),
  ([(0, 7, 0x57)], bit 'V'),
  ([(0, 7, 0x07), (12, 3, 0)], bit 'V'), ([(0, 7, 0x07), (12, 3, 5)], bit 'V'), ([(0, 7, 0x07), (12, 3, 6)], bit 'V'),
  ([(0, 7, 0x27), (12, 3, 0)], bit 'V'), ([(0, 7, 0x27), (12, 3, 5)], bit 'V'), ([(0, 7, 0x27), (12, 3, 6)], bit 'V'),
  ([(0, 7, 0x0b)], bit 'X'), ([(0, 7, 0x2b)], bit 'X'), ([(0, 7, 0x5b)], bit 'X'), ([(0, 7, 0x7b)], bit 'X'),
  ([(0, 15, 0x73), (25, 7, 0x11)], bit 'H'), ([(0, 15, 0x73), (25, 7, 0x31)], bit 'H'), ([(0, 15, 0x4073)], bit 'H'),
  ([(0, 7, 0x13)], bit 'I'), ([(0, 7, 0x37)], bit 'I'), ([(0, 7, 0x17)], bit 'I'), ([(0, 7, 0x6f)], bit 'I'),
  ([(0, 7, 0x63)], bit 'I'), ([(0, 7, 0x03)], bit 'I'), ([(0, 7, 0x23)], bit 'I')]

/-- The instructions of supervisor and user mode: `sret`, `sfence.vma` and `uret`. -/
def modes : List (Pattern × Nat) :=
  [([(0, 32, 0x10200073)], bit 'S'), ([(0, 15, 0x73), (25, 7, 9)], bit 'S'), ([(0, 32, 0x00200073)], bit 'N')]

end Verif.Spec.V2Sim
