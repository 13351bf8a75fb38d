import Verif.Model.Log

/-!
# Agreement with the log instruction test of the repository

The five tests of `/repo/sim/test/coralnpu_log_instructions_test.cc`, evaluated in the model. The `max_physical_address`
is that of the fixture, `/repo/sim/test/coralnpu_vector_instructions_test_base.h`.
-/

namespace Verif.Conform.Log
open Verif Verif.Model.Log

/-- Memory that holds strings with their NUL, each at its address. -/
def memOf (l : List (Nat × List (BitVec 8))) (a : Nat) : BitVec 8 :=
  match l.find? (fun p => p.1 ≤ a ∧ a < p.1 + p.2.length) with
  | some (b, s) => s.getD (a - b) 0
  | none => 0

/-- The bytes of a string constant of the test (all characters are ASCII). -/
def str (s : String) : List (BitVec 8) := s.toList.map fun c => BitVec.ofNat 8 c.toNat

/-- What the instructions print. -/
def printed (mem : List (Nat × List (BitVec 8))) (is : List (Op × BitVec 32)) : Option (List (BitVec 8)) :=
  match execAll (memOf mem) 0x10fff 100 is ⟨[], [], []⟩ with
  | some (.ok s) => some s.out
  | _ => none

/-- `SimplePrint`. -/
theorem conform_simplePrint :
    printed [(0x1000, str "Hello World!\n")] [(.flog, 0x1000)] = some (str "Hello World!\n") := by decide +kernel

/-- `PrintUnsignedNumber`. -/
theorem conform_printUnsigned :
    printed [(0x1000, str "Hello %u\n")] [(.slog, 2200000000), (.flog, 0x1000)] =
      some (str "Hello 2200000000\n") := by decide +kernel

/-- `PrintSignedNumber`. -/
theorem conform_printSigned :
    printed [(0x1000, str "Hello %d\n")] [(.slog, BitVec.ofInt 32 (-1337)), (.flog, 0x1000)] =
      some (str "Hello -1337\n") := by decide +kernel

/-- `PrintCharacterStream`. -/
theorem conform_printChars :
    printed [(0x1000, str "%s World\n")] [(.clog, 0x6c6c6548), (.clog, 0x0000006f), (.flog, 0x1000)] =
      some (str "Hello World\n") := by decide +kernel

/-- `PrintTwoArguments`. -/
theorem conform_printTwo :
    printed [(0x1000, str "%s World %x\n"), (0x1014, [0x48, 0x69, 0, 0])]
        [(.sslog, 0x1014), (.slog, 0xbaddecaf), (.flog, 0x1000)] =
      some (str "Hi World baddecaf\n") := by decide +kernel

end Verif.Conform.Log
