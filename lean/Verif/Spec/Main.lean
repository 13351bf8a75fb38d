import Verif.Base.Attr

/-!
# What the command-line simulators should do (C77, C78)
-/

namespace Verif.Spec.Main

abbrev File := Option (List (BitVec 8))

/-- An ELF file starts with `\x7fELF`. -/
def IsElf (f : File) : Prop := ∃ rest, f = some (0x7f :: 0x45 :: 0x4c :: 0x46 :: rest)

/-- A file too short to tell. -/
def Short (f : File) : Prop := ∃ bytes, f = some bytes ∧ bytes.length < 4

/-- Address of the first instruction: the flag if given, else the 32-bit entry point of the file. -/
def startAt (flag : Option (BitVec 32)) (elf : BitVec 64) : Nat :=
  match flag with
  | some e => e.toNat
  | none => elf.toNat % 4294967296

end Verif.Spec.Main
