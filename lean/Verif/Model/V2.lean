import Verif.Base.Outcome

/-!
# The state of the V2 core

Transcription of `/repo/sim/coralnpu_v2_state.h`, `/repo/sim/coralnpu_v2_state.cc`, the access-checked loads and stores of
`/repo/sim/coralnpu_v2_instructions.cc`, `DecodeInstruction` of `/repo/sim/coralnpu_v2_user_decoder.cc`, and `MPause` of
`/repo/sim/coralnpu_state.cc`.

External behaviour assumed: `RVLoad`, `RVStore` and `RiscVFSw` of mpact-riscv access the bytes of their value type,
little-endian, at `(base + offset) mod 2^32` in a flat memory with 64-bit addresses, and loads extend by the signedness
of the type; `Trap` records its arguments. A write to x0 is dropped by the encoder's destination getter, so the
destination here is a register that can be written.
-/

namespace Verif.Model.V2

/-- `StretchMisa32`, h 33-39. -/
def stretchMisa32 (value : BitVec 32) : BitVec 64 :=
  let value64 : BitVec 64 := value.zeroExtend 64
  ((value64 &&& 0xc0000000#64) <<< 32) ||| (value64 &&& 0x03ffffff#64)

/-- `CoralNPUV2LsuAccessRange`, h 42-45. -/
structure Range where
  start : BitVec 32
  length : BitVec 32
deriving DecidableEq, Repr

/-- `IsLsuAccessValid`, cc 47-60. The sums are of `uint32_t`. -/
def isLsuAccessValid (ranges : List Range) (address size : BitVec 32) : Bool :=
  ranges.any fun r => decide (r.start.toNat ≤ address.toNat) && decide ((address + size).toNat ≤ (r.start + r.length).toNat)

/-- `IsAddressInItcmRange`, h 90-95: the `uint32_t` sum is converted to `size_t` before 4 is subtracted. -/
def isAddressInItcmRange (start length address : BitVec 32) : Bool :=
  decide (start.toNat ≤ address.toNat) &&
    decide (address.toNat ≤ (((start + length).zeroExtend 64 : BitVec 64) - 4#64).toNat)

/-- The arguments of `Trap(is_interrupt, trap_value, exception_code, epc, instruction)`. -/
structure Trap where
  interrupt : Bool
  value : BitVec 64
  code : BitVec 64
  epc : BitVec 64
deriving DecidableEq, Repr

/-- What `DecodeInstruction` returns: the instruction decoded from memory at an address, or the one that traps. -/
inductive Decoded where
  | fromMemory (address : BitVec 64)
  | invalid (address : BitVec 64)
deriving DecidableEq, Repr

/-- `CoralNPUV2UserDecoder::DecodeInstruction`, cc 62-78. The range check takes a `uint32_t`. -/
def decodeInstruction (start length : BitVec 32) (address : BitVec 64) : Decoded :=
  if isAddressInItcmRange start length (address.truncate 32) then .fromMemory address else .invalid address

/-- The trap of the instruction made for an invalid address, cc 69-73 (`kInstructionAccessFault` = 1). -/
def invalidTrap (address : BitVec 64) : Trap := ⟨false, 0, 1, address⟩

/-! ## mpause -/

/-- A handler: it may change anything in the simulator, and says whether it handled the instruction. -/
abbrev Handler (S : Type) := S → Bool × S

/-- `CoralNPUV2State::MPause`, cc 37-45; `inst` is the address of the instruction, if there is one. The trap, if any, is
returned. -/
def mpauseV2 {S : Type} (inst : Option (BitVec 64)) : List (Handler S) → S → Option Trap × S
  | [], s => (some ⟨false, 0, 3, inst.getD 0⟩, s)
  | h :: hs, s =>
    match h s with
    | (true, s') => (none, s')
    | (false, s') => mpauseV2 inst hs s'

/-- `CoralNPUState::MPause`, `coralnpu_state.cc` 81-89. -/
def mpauseV1 {S : Type} (inst : Option (BitVec 64)) : List (Handler S) → S → Option Trap × S
  | [], s => (some ⟨false, 0, 3, inst.getD 0⟩, s)
  | h :: hs, s =>
    let (res, s') := h s
    if res then (none, s') else mpauseV1 inst hs s'

/-! ## Checked loads and stores -/

inductive Op where
  | lw | lh | lhu | lb | lbu | sw | sh | sb | fsw
deriving DecidableEq, Repr

/-- `sizeof(ValueType)` in the instruction's `AccessCheck`, `coralnpu_v2_instructions.cc` 75-152. -/
def Op.checked : Op → BitVec 32
  | .lw => 4 | .lh => 2 | .lhu => 2 | .lb => 1 | .lbu => 1
  | .sw => 4 | .sh => 2 | .sb => 1 | .fsw => 8

/-- The size of the value type of the function that performs the access, same lines (`RiscVFSw` stores a word). -/
def Op.size : Op → Nat
  | .lw => 4 | .lh => 2 | .lhu => 2 | .lb => 1 | .lbu => 1
  | .sw => 4 | .sh => 2 | .sb => 1 | .fsw => 4

def Op.isLoad : Op → Bool
  | .lw | .lh | .lhu | .lb | .lbu => true
  | _ => false

def Op.signed : Op → Bool
  | .lw | .lh | .lb => true
  | _ => false

/-- `ExceptionCode::kLoadAccessFault` = 5, `kStoreAccessFault` = 7. -/
def Op.fault : Op → BitVec 64
  | op => if op.isLoad then 5 else 7

/-- The parts of the state a scalar access can touch: memory, the destination register, and the trap taken. -/
structure St where
  mem : Nat → BitVec 8
  rd : BitVec 32
  trap : Option Trap

/-- `n` bytes at `a`, little-endian. -/
def loadN (mem : Nat → BitVec 8) (a : Nat) : Nat → Nat
  | 0 => 0
  | n + 1 => (mem a).toNat + 256 * loadN mem (a + 1) n

def storeN (mem : Nat → BitVec 8) (a n : Nat) (v : BitVec 32) : Nat → BitVec 8 :=
  fun q => if a ≤ q ∧ q < a + n then v.extractLsb' (8 * (q - a)) 8 else mem q

/-- Two's complement value of `n` bytes, in a 32-bit register. -/
def extend (signed : Bool) (n x : Nat) : BitVec 32 :=
  if signed then (BitVec.ofNat (8 * n) x).signExtend 32 else BitVec.ofNat 32 x

/-- The load and store instructions, `coralnpu_v2_instructions.cc` 35-56 (`AccessCheck`) and 75-152: `base` and `src` are
register values, `offset` the immediate, `pc` the instruction's address. For `fsw` base and offset are read as 64-bit
values, of which `IsLsuAccessValid` takes the low 32 bits. -/
def exec (ranges : List Range) (op : Op) (base offset src : BitVec 32) (pc : BitVec 64) (s : St) : St :=
  let address : BitVec 32 :=
    if op = .fsw then ((base.zeroExtend 64 : BitVec 64) + offset.signExtend 64).truncate 32 else base + offset
  if isLsuAccessValid ranges address op.checked then
    let a := (base + offset).toNat
    if op.isLoad then { s with rd := extend op.signed op.size (loadN s.mem a op.size) }
    else { s with mem := storeN s.mem a op.size src }
  else { s with trap := some ⟨false, 0, op.fault, pc⟩ }

end Verif.Model.V2
