import Verif.Model.Top

/-!
# Register access by name

Transcription of `ReadRegister`, `WriteRegister` and `GetRegisterDataBuffer`, `/repo/sim/coralnpu_top.cc` 533-632, and of the
registration of the register names in `Initialize`, cc 167-174. The operand getters of `/repo/sim/coralnpu_encoding.cc` 60-121
add registers when an instruction that names them is decoded.

A register is an object with a data buffer; the register map takes names to objects.

External behaviour assumed: `AddRegister` and `GetRegister` make a new register of zeros if the name is new and leave the map
alone otherwise; `AddRegisterAlias` adds a name for an existing register and refuses a name that exists; buffers hold numbers
in little-endian order. Control and status registers are parameters: the names they have and how they are read and written.
-/

namespace Verif.Model.RegNames
open Verif.Model.Top (RunStatus HaltReason)

/-- The control and status registers, `csr_set()`. -/
structure Csrs (κ : Type) where
  find : String → Option Nat
  get : Nat → κ → BitVec 32
  set : Nat → BitVec 32 → κ → κ

/-- The part of the core that is used here. `data k` is the buffer of object `k`, for `k < objs`. -/
structure St (κ : Type) where
  status : RunStatus
  reason : HaltReason
  names : String → Option Nat
  objs : Nat
  data : Nat → List (BitVec 8)
  csr : κ

inductive Err where
  | failedPrecondition | notFound | internal
deriving DecidableEq, Repr

variable {κ : Type}

/-- `AddRegister` and `GetRegister` (external) of a register of `size` bytes. -/
def addReg (n : String) (size : Nat) (s : St κ) : St κ :=
  match s.names n with
  | some _ => s
  | none => { s with
      names := fun m => if m = n then some s.objs else s.names m
      objs := s.objs + 1
      data := fun k => if k = s.objs then List.replicate size 0 else s.data k }

/-- `AddRegisterAlias` (external). -/
def addAlias (n a : String) (s : St κ) : St κ :=
  match s.names n, s.names a with
  | some k, none => { s with names := fun m => if m = a then some k else s.names m }
  | _, _ => s

/-- `StrCat(kXregPrefix, i)`. -/
def xName (i : Nat) : String := "x" ++ toString i

/-- The loop of `Initialize`, cc 167-174. `alias i` is `kXRegisterAliases[i]`. -/
def addNames (alias : Nat → String) (s : St κ) : St κ :=
  (List.range 32).foldl (fun s i => addAlias (xName i) (alias i) (addReg (xName i) 4 s)) s

/-- The number in a little-endian buffer. -/
def leNum : List (BitVec 8) → Nat
  | [] => 0
  | b :: d => b.toNat + 256 * leNum d

/-- `db->Get<T>(0)` for the `size` bytes of the buffer, cast to `uint64_t`. -/
def getNum (d : List (BitVec 8)) : BitVec 64 := BitVec.ofNat 64 (leNum d)

/-- `db->Set<T>(0, static_cast<T>(value))` on a buffer of `size` bytes. -/
def putNum (size : Nat) (v : BitVec 64) : List (BitVec 8) := (List.range size).map fun i => v.extractLsb' (8 * i) 8

/-- `ReadRegister`, cc 533-571. -/
def readRegister (c : Csrs κ) (n : String) (s : St κ) : Except Err (BitVec 64) :=
  if s.status ≠ .halted then .error .failedPrecondition
  else match s.names n with
    | none => match c.find n with
      | none => .error .notFound
      | some k => .ok ((c.get k s.csr).zeroExtend 64)
    | some k =>
      if (s.data k).length = 1 ∨ (s.data k).length = 2 ∨ (s.data k).length = 4 ∨ (s.data k).length = 8 then
        .ok (getNum (s.data k))
      else .error .internal

/-- `WriteRegister`, cc 573-617. -/
def writeRegister (c : Csrs κ) (n : String) (v : BitVec 64) (s : St κ) : Except Err Unit × St κ :=
  if s.status ≠ .halted then (.error .failedPrecondition, s)
  else match s.names n with
    | none => match c.find n with
      | none => (.error .notFound, s)
      | some k => (.ok (), { s with csr := c.set k (v.truncate 32) s.csr })
    | some k =>
      let s1 := if n = "pc" ∧ s.reason = .softwareBreakpoint then { s with reason := .none } else s
      if (s.data k).length = 1 ∨ (s.data k).length = 2 ∨ (s.data k).length = 4 ∨ (s.data k).length = 8 then
        (.ok (), { s1 with data := fun j => if j = k then putNum (s.data k).length v else s.data j })
      else (.error .internal, s1)

/-- `GetRegisterDataBuffer`, cc 619-632: the object whose buffer is returned. -/
def getBuffer (n : String) (s : St κ) : Except Err Nat :=
  if s.status ≠ .halted then .error .failedPrecondition
  else match s.names n with
    | none => .error .notFound
    | some k => .ok k

/-- What happens between two accesses. -/
inductive Op where
  | read (n : String)
  | write (n : String) (v : BitVec 64)
  /-- An instruction that names a register is decoded. -/
  | decode (n : String) (size : Nat)
  /-- The program assigns to registers: the new contents of all objects. -/
  | program (d : Nat → List (BitVec 8))
  /-- A buffer obtained by `GetRegisterDataBuffer` is written, with as many bytes as it holds. -/
  | poke (n : String) (d : List (BitVec 8))
  /-- `Run` starts, or the run ends with a reason. -/
  | status (r : RunStatus) (h : HaltReason)

inductive Reply where
  | value (v : Except Err (BitVec 64))
  | status (e : Except Err Unit)
  | silent

/-- One of them. Buffers keep their sizes. -/
def exec (c : Csrs κ) (s : St κ) : Op → Reply × St κ
  | .read n => (.value (readRegister c n s), s)
  | .write n v => let r := writeRegister c n v s; (.status r.1, r.2)
  | .decode n size => (.silent, addReg n size s)
  | .program d => (.silent, { s with data := fun k => if (d k).length = (s.data k).length then d k else s.data k })
  | .poke n d => match getBuffer n s with
    | .ok k => (.silent, { s with data := fun j => if j = k ∧ d.length = (s.data k).length then d else s.data j })
    | .error e => (.status (.error e), s)
  | .status r h => (.silent, { s with status := r, reason := h })

def execAll (c : Csrs κ) : St κ → List Op → List Reply × St κ
  | s, [] => ([], s)
  | s, o :: l => let r := exec c s o; let q := execAll c r.2 l; (r.1 :: q.1, q.2)

end Verif.Model.RegNames
