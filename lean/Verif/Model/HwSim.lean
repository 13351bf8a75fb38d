import Verif.Base.Outcome

/-!
# Scalar stores and the hardware-simulator wrapper

`CoralNPUIStore` of `/repo/sim/coralnpu_instructions.cc` (117-140) and `MpactSimulator` of
`/repo/sim/hw_sim/mpact_simulator.cc`. The memories of mpact-sim behind them are flat byte arrays; an access fault of the
external `StoreMemory` is not modelled. The RISC-V core of the wrapper (`RiscVTop`, external) is a parameter.
-/

namespace Verif.Model.HwSim

open Verif

abbrev Mem := Nat → BitVec 8

/-- The access sizes for which the template is instantiated (cc 138-140): `uint8_t`, `uint16_t`, `uint32_t`. -/
inductive Size where
  | b
  | h
  | w
deriving DecidableEq, Repr

def Size.bytes : Size → Nat
  | .b => 1
  | .h => 2
  | .w => 4

/-- `StoreMemory` (external) of a buffer of `n` bytes that holds `value` in host order. -/
def storeMemory (mem : Mem) (a n : Nat) (value : BitVec 32) : Mem := fun q =>
  if a ≤ q ∧ q < a + n then (value >>> (8 * (q - a))).truncate 8 else mem q

/-- `kCoralnpuMaxMemoryAddress` and `kMemMask`, coralnpu_state.h 44 and 52. -/
def maxMemoryAddress : BitVec 64 := 0x3fffff
def memMask : BitVec 64 := 0x7fffffff

/-- `CoralNPUIStore<T>`, cc 117-136: `uint32_t` addition; `address &= kMemMask` computes in 64 bits and truncates. -/
def istore (maxPhys : BitVec 64) (sz : Size) (base offset value : BitVec 32) (mem : Mem) : Mem :=
  let address := base + offset
  let address := if maxPhys.toNat ≤ maxMemoryAddress.toNat then (address.zeroExtend 64 &&& memMask).truncate 32 else address
  storeMemory mem address.toNat sz.bytes value

/-! ## The wrapper -/

/-- `RiscVTop` (external): its registers, of which the pc matters here, on a memory. `step1` is `Step(1)`, `none` for a
status that is not ok. -/
structure Core (ρ : Type) where
  pc : ρ → BitVec 32
  setPc : BitVec 32 → ρ → ρ
  step1 : ρ × Mem → Option Unit × ρ × Mem

/-- `CoralNPUMailbox`, coralnpu_simulator.h: `uint32_t message[4]`. -/
abbrev Mailbox := Fin 4 → BitVec 32

/-- The members of `MpactSimulator`, cc 62-69. -/
structure St (ρ : Type) where
  mailbox : Mailbox
  mem : Mem
  core : ρ

/-- `addr_mailbox`, cc 34. -/
def addrMailbox : Nat := 0x401fc000

variable {ρ : Type}

/-- `ReadTCM`, cc 72-78. -/
def readTcm (addr : BitVec 32) (size : Nat) (s : St ρ) : List (BitVec 8) :=
  (List.range size).map fun i => s.mem (addr.toNat + i)

/-- `WriteTCM`, cc 90-96. -/
def writeTcm (addr : BitVec 32) (data : List (BitVec 8)) (s : St ρ) : St ρ :=
  { s with mem := fun q => if addr.toNat ≤ q ∧ q < addr.toNat + data.length then (data[q - addr.toNat]?).getD 0
      else s.mem q }

/-- The bytes of an array of words on a little-endian host. -/
def mailboxBytes (m : Mailbox) : List (BitVec 8) :=
  (List.range 16).map fun i => (m ⟨i / 4 % 4, Nat.mod_lt _ (by decide)⟩ >>> (8 * (i % 4))).truncate 8

/-- Words from the bytes of an array. -/
def wordAt (mem : Mem) (a : Nat) : BitVec 32 :=
  BitVec.ofNat 32 ((mem a).toNat + 256 * (mem (a + 1)).toNat + 65536 * (mem (a + 2)).toNat +
    16777216 * (mem (a + 3)).toNat)

/-- The 16 bytes at the mailbox address copied into the member. -/
def fetchMailbox (s : St ρ) : St ρ := { s with mailbox := fun i => wordAt s.mem (addrMailbox + 4 * i.val) }

/-- `ReadMailbox`, cc 80-88. -/
def readMailbox (s : St ρ) : Mailbox × St ρ := ((fetchMailbox s).mailbox, fetchMailbox s)

/-- `WriteMailbox`, cc 98-105. -/
def writeMailbox (m : Mailbox) (s : St ρ) : St ρ := writeTcm 0x401fc000 (mailboxBytes m) { s with mailbox := m }

/-- `Run`, cc 107-110: the pc is set; nothing is executed. -/
def run (core : Core ρ) (start : BitVec 32) (s : St ρ) : St ρ := { s with core := core.setPc start s.core }

/-- The loop of `WaitForTermination`, cc 115-127; `none` when it has not ended within `fuel` rounds. The parameter
`timeout` is not used. -/
def waitLoop (core : Core ρ) : Nat → St ρ → Option (Bool × St ρ)
  | 0, _ => none
  | fuel + 1, s =>
    match core.step1 (s.core, s.mem) with
    | (none, r, m) => some (false, { s with core := r, mem := m })
    | (some _, r, m) =>
      let pc := core.pc r
      let inst := wordAt m pc.toNat
      if pc.toNat > 0x1fff || inst == 0x08000073#32 || inst == 0x10500073#32 then some (true, { s with core := r, mem := m })
      else waitLoop core fuel { s with core := r, mem := m }

/-- `WaitForTermination`, cc 111-132. -/
def waitForTermination (core : Core ρ) (fuel : Nat) (_timeout : BitVec 32) (s : St ρ) : Option (Bool × St ρ) :=
  (waitLoop core fuel s).map fun (ok, s) => if ok then (true, fetchMailbox s) else (false, s)

/-- The calls on memory between the two mailbox calls. -/
inductive Op where
  | readTcm (addr : BitVec 32) (size : Nat)
  | writeTcm (addr : BitVec 32) (data : List (BitVec 8))
  | readMailbox
  | run (start : BitVec 32)

def exec (core : Core ρ) (op : Op) (s : St ρ) : St ρ :=
  match op with
  | .readTcm _ _ => s
  | .writeTcm a d => writeTcm a d s
  | .readMailbox => (readMailbox s).2
  | .run a => run core a s

end Verif.Model.HwSim
