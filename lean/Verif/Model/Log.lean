import Verif.Base.Outcome
import Verif.Spec.Log

/-!
# Log instructions

Transcription of `CoralNPULogInstruction` and its helpers in `/repo/sim/coralnpu_instructions.cc` (45-114) and of
`CoralNPUState::PrintLog` in `/repo/sim/coralnpu_state.cc` (92-135). Simplifications: `std::any` holds one of the two
types that are ever stored (`Spec.Log.Arg`); standard output is a list of bytes and the messages on standard error are
dropped; `absl::StrFormat` (external) writes numbers in the usual way; the memory is the flat array of `Verif/Model/VecMem.lean`,
in which an access fault of `LoadMemory` (external) does not occur.
-/

namespace Verif.Model.Log

open Verif
open Verif.Spec.Log (Arg)

/-- The character of a digit. -/
def digitChar (d : Nat) : BitVec 8 := BitVec.ofNat 8 (if d < 10 then 0x30 + d else 0x57 + d)

/-- `absl::StrFormat` of an unsigned number. -/
def formatNat (base n : Nat) : List (BitVec 8) :=
  if _h : n < base ∨ base < 2 then [digitChar n] else formatNat base (n / base) ++ [digitChar (n % base)]
termination_by n
decreasing_by exact Nat.div_lt_self (by omega) (by omega)

/-- `absl::StrFormat("%d", …)` of an `int32_t`. -/
def formatInt (v : BitVec 32) : List (BitVec 8) :=
  if v.toInt < 0 then 0x2d :: formatNat 10 (-v.toInt).toNat else formatNat 10 v.toInt.toNat

/-- The state, `coralnpu_state.h` 103-104, and standard output. -/
structure St where
  args : List Arg
  clog : List (BitVec 8)
  out : List (BitVec 8)
deriving DecidableEq, Repr

/-- What one argument adds to the log string, cc 99-123; a directive that does not suit adds nothing. -/
def formatArg (a : Arg) (d : BitVec 8) : List (BitVec 8) :=
  match a with
  | .word v => if d = 0x75 then formatNat 10 v.toNat else if d = 0x64 then formatInt v else
      if d = 0x78 then formatNat 16 v.toNat else []
  | .text s => if d = 0x73 then s else []

/-- The loop of `PrintLog`, cc 95-130. The first argument is the memory from `print_ptr` on: the rest of the format with
its NUL; reading beyond is `ub`. -/
def printLoop : List (BitVec 8) → List Arg → List (BitVec 8) → Outcome (List (BitVec 8))
  | [], _, _ => .ub
  | [c], args, log =>
    if c = 0 then .ok log else if c = 0x25 then (if args = [] then .abort else .ub) else .ub
  | c :: d :: rest, args, log =>
    if c = 0 then .ok log else
    if c = 0x25 then
      match args with
      | [] => .abort
      | a :: args => printLoop rest args (log ++ formatArg a d)
    else printLoop (d :: rest) args (log ++ [c])

/-- `PrintLog`, cc 92-135. -/
def printLog (fmt : List (BitVec 8)) (s : St) : Outcome St :=
  printLoop (fmt ++ [0]) s.args [] >>= fun log => .ok { s with args := [], out := s.out ++ log }

/-- `WordHasZero`, 45-48. -/
def wordHasZero (data : BitVec 32) : Bool :=
  (data >>> 24) &&& 0xff == 0 || (data >>> 16) &&& 0xff == 0 || (data >>> 8) &&& 0xff == 0 || data &&& 0xff == 0

/-- The bytes of a word as the host (little endian) stores it. -/
def chars (data : BitVec 32) : List (BitVec 8) :=
  [data.truncate 8, (data >>> 8).truncate 8, (data >>> 16).truncate 8, (data >>> 24).truncate 8]

/-- `s.resize(s.find('\0'))`; without a NUL `find` gives `npos` and `resize` throws `std::length_error`. -/
def trim (s : List (BitVec 8)) : Outcome (List (BitVec 8)) :=
  if 0 ∈ s then .ok (s.takeWhile (· ≠ 0)) else .abort

/-- A word of memory, little endian. -/
def loadWord (mem : Nat → BitVec 8) (a : Nat) : BitVec 32 :=
  BitVec.ofNat 32 ((mem a).toNat + 256 * (mem (a + 1)).toNat + 65536 * (mem (a + 2)).toNat +
    16777216 * (mem (a + 3)).toNat)

/-- The loop of `CoralNPUStringLoadHelper`, 58-64, with the `max_physical_address` of the state; `none` when it has not
ended within `fuel` rounds. -/
def loadLoop (mem : Nat → BitVec 8) (maxPhys : BitVec 64) : Nat → BitVec 32 → List (BitVec 8) → Option (List (BitVec 8))
  | 0, _, _ => none
  | fuel + 1, addr, s =>
    let data := loadWord mem addr.toNat
    let s := s ++ chars data
    let addr := addr + 4
    if !wordHasZero data && addr.toNat < maxPhys.toNat then loadLoop mem maxPhys fuel addr s else some s

/-- `CoralNPUStringLoadHelper`, 52-68. -/
def loadString (mem : Nat → BitVec 8) (maxPhys : BitVec 64) (fuel : Nat) (addr : BitVec 32) :
    Option (Outcome (List (BitVec 8))) :=
  (loadLoop mem maxPhys fuel addr []).map trim

inductive Op where
  | flog
  | slog
  | clog
  | sslog
deriving DecidableEq, Repr

/-- `CoralNPULogInstruction`, 71-114; `rs` is the source operand. -/
def exec (mem : Nat → BitVec 8) (maxPhys : BitVec 64) (fuel : Nat) (op : Op) (rs : BitVec 32) (s : St) :
    Option (Outcome St) :=
  match op with
  | .flog => (loadString mem maxPhys fuel rs).map fun r => r >>= fun f => printLog f s
  | .slog => some (.ok { s with args := s.args ++ [.word rs] })
  | .clog =>
    let c := s.clog ++ chars rs
    some (if wordHasZero rs then trim c >>= fun t => .ok { s with args := s.args ++ [.text t], clog := [] }
      else .ok { s with clog := c })
  | .sslog => (loadString mem maxPhys fuel rs).map fun r => r >>= fun t => .ok { s with args := s.args ++ [.text t] }

/-- A sequence of log instructions. -/
def execAll (mem : Nat → BitVec 8) (maxPhys : BitVec 64) (fuel : Nat) :
    List (Op × BitVec 32) → St → Option (Outcome St)
  | [], s => some (.ok s)
  | (op, rs) :: is, s =>
    match exec mem maxPhys fuel op rs s with
    | none => none
    | some .ub => some .ub
    | some .abort => some .abort
    | some (.ok s') => execAll mem maxPhys fuel is s'

end Verif.Model.Log
