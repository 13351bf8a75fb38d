import Verif.Model.RegNames
import Verif.Base.Outcome

/-!
# The custom commands of the interactive simulator

Transcription of `PrintRegisters` and `PrintVectorRegisters`, `/repo/sim/coralnpu_sim.cc` 65-123.

External behaviour assumed: `RE2::FullMatch` of the two patterns, written here as the matcher they denote (`\s` is one of
`[\t\n\f\r ]`); `absl::Hex(v, kZeroPad8)` and `%08x` write at least eight lower-case digits; a register of the map has a buffer, so
that the test of line 109 never succeeds.
-/

namespace Verif.Model.Shell
open Verif Verif.Model.RegNames

/-- `\s`. -/
def isBlank (c : Char) : Bool := [' ', '\t', '\n', '\x0c', '\r'].contains c

/-- What follows a given beginning. -/
def after : List Char → List Char → Option (List Char)
  | [], t => some t
  | a :: p, b :: t => if a = b then after p t else none
  | _ :: _, [] => none

/-- `\s*w\s+info\s*`, lines 70-73 and 94-97. -/
def isInfo (w input : List Char) : Bool :=
  match after w (input.dropWhile isBlank) with
  | some (c :: t) => isBlank c && match after "info".toList (t.dropWhile isBlank) with
    | some r => r.all isBlank
    | none => false
  | _ => false

/-- The digits of a number, without leading zeros. -/
def hexDigits (n : Nat) : List Char :=
  if _h : n < 16 then [Nat.digitChar n] else hexDigits (n / 16) ++ [Nat.digitChar (n % 16)]
termination_by n

/-- `absl::Hex(v, absl::kZeroPad8)` and `absl::StrFormat("%08x", v)`. -/
def hex8 (n : Nat) : List Char := List.replicate (8 - (hexDigits n).length) '0' ++ hexDigits n

variable {κ : Type}

/-- `PrintRegisters`, lines 66-88: whether the command was recognised, and the output. -/
def printRegisters (c : Csrs κ) (alias : Nat → String) (input : List Char) (s : St κ) (output : List Char) : Bool × List Char :=
  if isInfo "reg".toList input then
    (true, (List.range 32).foldl (fun out i => match readRegister c ("x" ++ toString i) s with
      | .error _ => out
      | .ok v => out ++ ((alias i).toList ++ "\t = [".toList ++ hex8 v.toNat ++ "]\n".toList)) [])
  else (false, output)

/-- `db->Get<uint32_t>(j)`: beyond the buffer it is undefined. -/
def getWord (d : List (BitVec 8)) (j : Nat) : Outcome Nat :=
  if 4 * j + 4 ≤ d.length then .ok (leNum ((d.drop (4 * j)).take 4)) else .ub

/-- The loop over the words, lines 113-119. -/
def dataText (d : List (BitVec 8)) : Outcome (List Char) := do
  let r ← (List.range 8).foldlM (fun (p : List Char × List Char) j => do
    let v ← getWord d j
    .ok (p.1 ++ (p.2 ++ hex8 v), [':'])) (([], []) : List Char × List Char)
  .ok r.1

/-- `PrintVectorRegisters`, lines 91-123. -/
def printVectorRegisters (input : List Char) (s : St κ) (output : List Char) : Outcome (Bool × List Char) :=
  if isInfo "vreg".toList input then do
    let out ← (List.range 64).foldlM (fun out i => match getBuffer ("v" ++ toString i) s with
      | .error _ => .ok out
      | .ok k => do
        let t ← dataText (s.data k)
        .ok (out ++ ("v".toList ++ (toString i).toList ++ "\t = [".toList ++ t ++ "]\n".toList))) []
    .ok (true, out)
  else .ok (false, output)

end Verif.Model.Shell
