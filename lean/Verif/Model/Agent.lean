import Verif.Base.Outcome
import Verif.Model.Top
import Verif.Spec.Agent

/-!
# The Renode agent

Transcription of `/repo/sim/renode/renode_mpact.cc` and `.h` (class `RenodeAgent` and the C functions in front of it) and
of the register calls of `/repo/sim/renode/coralnpu_renode.cc` and `coralnpu_renode_reigster_info.cc`.

`int32_t` identifiers and codes are `BitVec 32`; the `uint32_t` keys of the maps are the same bits. The simulator behind
an instance is a parameter `Core δ`: a type of instance states with the calls of `RenodeDebugInterface`. Buffers passed
by the caller are assumed valid except where a call tests for null; `LOG` output is not modelled.
-/

namespace Verif.Model.Agent

open Verif.Model.Top (HaltReason)

/-- `RenodeCpuRegister`, `renode_debug_interface.h` 31-36. -/
structure RegInfo where
  index : Nat
  width : Nat
  isGeneral : Bool
  isReadOnly : Bool
deriving DecidableEq, Repr

/-- The calls of `RenodeDebugInterface` that the agent uses. `none` is a status that is not ok. `create` stands for the
two functions `CreateCoralNPUSim`, given the memory arguments if there are any and the number in the instance's name. -/
structure Core (δ : Type) where
  create : Option (Nat × Nat × Nat) → BitVec 32 → Option δ
  infoSize : δ → Nat
  regInfo : BitVec 32 → BitVec 32 → δ → Outcome (Option (List (BitVec 8) × RegInfo))
  readReg : BitVec 32 → δ → Option (BitVec 64)
  writeReg : BitVec 32 → BitVec 64 → δ → Option Unit × δ
  readMem : BitVec 64 → BitVec 64 → δ → Outcome (Option (List (BitVec 8)))
  writeMem : BitVec 64 → List (BitVec 8) → δ → Outcome (Option Nat × δ)
  loadElf : List (BitVec 8) → δ → Option (BitVec 64) × δ
  writePc : BitVec 64 → δ → Option Unit × δ
  loadImage : List (BitVec 8) → BitVec 64 → δ → Outcome (Option Unit × δ)
  step : Int → δ → Outcome (Option Int × δ)
  reason : δ → Option HaltReason
  halt : δ → Option Unit × δ

variable {δ : Type}

/-- `core_dbg_instances_`, `name_length_map_` and `count_`, h 127-132. -/
structure Agent (δ : Type) where
  inst : BitVec 32 → Option δ
  nameLen : BitVec 32 → Option (BitVec 32)
  count : BitVec 32

/-- No instance; cc 93-94. -/
def empty : Agent δ := ⟨fun _ => none, fun _ => none, 0⟩

/-- What a call gives back: the return value and what it wrote through its pointers. -/
structure Reply where
  ret : BitVec 64
  status : Option (BitVec 32) := none
  value : Option (BitVec 64) := none
  info : Option (List (BitVec 8) × RegInfo) := none
  bytes : Option (List (BitVec 8)) := none
deriving DecidableEq, Repr

/-- The int32 result -1, as the bits returned. -/
def err : Reply := { ret := 0xffffffff#64 }

/-- The int32 result 0, and the uint64 result 0. -/
def zero : Reply := { ret := 0 }

/-- `ExecutionResult`, h 78-86. -/
def kOk : BitVec 32 := 0
def kInterrupted : BitVec 32 := 1
def kStoppedAtBreakpoint : BitVec 32 := 3
def kAborted : BitVec 32 := 0xffffffff

def put (f : BitVec 32 → Option α) (k : BitVec 32) (v : Option α) : BitVec 32 → Option α :=
  fun k' => if k' = k then v else f k'

/-- `flat_hash_map::emplace`: an existing entry is kept. -/
def emplace (f : BitVec 32 → Option α) (k : BitVec 32) (v : α) : BitVec 32 → Option α :=
  match f k with
  | some _ => f
  | none => put f k (some v)

/-- `Construct`, cc 98-122, both versions. The counter is returned as an int32 and then incremented. -/
def construct (core : Core δ) (len : BitVec 32) (mem : Option (Nat × Nat × Nat)) (a : Agent δ) : Reply × Agent δ :=
  match core.create mem a.count with
  | none => (err, a)
  | some d => ({ ret := a.count.zeroExtend 64 },
      ⟨emplace a.inst a.count d, emplace a.nameLen a.count len, a.count + 1⟩)

/-- `Destroy`, cc 125-132. The entry of `name_length_map_` stays. -/
def destroy (id : BitVec 32) (a : Agent δ) : Reply × Agent δ :=
  match a.inst id with
  | none => (err, a)
  | some _ => (zero, { a with inst := put a.inst id none })

/-- `Reset`, cc 134-140. -/
def reset (id : BitVec 32) (a : Agent δ) : Reply × Agent δ :=
  match a.inst id with
  | none => (err, a)
  | some _ => (zero, a)

/-- `GetRegisterInfoSize`, cc 142-148. -/
def regInfoSize (core : Core δ) (id : BitVec 32) (a : Agent δ) : Reply × Agent δ :=
  match a.inst id with
  | none => (err, a)
  | some d => ({ ret := BitVec.ofNat 64 (core.infoSize d) }, a)

/-- `get_reg_info` and `GetRegisterInfo`, cc 59-63 and 150-162. `name_length_map_.at(id)` throws when there is no
entry. -/
def regInfo (core : Core δ) (id index : BitVec 32) (infoNull : Bool) (a : Agent δ) : Outcome (Reply × Agent δ) :=
  if infoNull then .ok (err, a) else
  match a.inst id with
  | none => .ok (err, a)
  | some d =>
    match a.nameLen id with
    | none => .abort
    | some len => core.regInfo index len d >>= fun r =>
      match r with
      | none => .ok (err, a)
      | some i => .ok ({ ret := 0, info := some i }, a)

/-- `ReadRegister`, cc 165-177. -/
def readRegister (core : Core δ) (id reg : BitVec 32) (valueNull : Bool) (a : Agent δ) : Reply × Agent δ :=
  if valueNull then (err, a) else
  match a.inst id with
  | none => (err, a)
  | some d =>
    match core.readReg reg d with
    | none => (err, a)
    | some v => ({ ret := 0, value := some v }, a)

/-- `WriteRegister`, cc 179-189. -/
def writeRegister (core : Core δ) (id reg : BitVec 32) (v : BitVec 64) (a : Agent δ) : Reply × Agent δ :=
  match a.inst id with
  | none => (err, a)
  | some d =>
    let (r, d') := core.writeReg reg v d
    (if r = none then err else zero, { a with inst := put a.inst id (some d') })

/-- `ReadMemory`, cc 191-203. -/
def readMemory (core : Core δ) (id : BitVec 32) (addr len : BitVec 64) (a : Agent δ) : Outcome (Reply × Agent δ) :=
  match a.inst id with
  | none => .ok (zero, a)
  | some d => core.readMem addr len d >>= fun r =>
    match r with
    | none => .ok (zero, a)
    | some b => .ok ({ ret := BitVec.ofNat 64 b.length, bytes := some b }, a)

/-- `WriteMemory`, cc 205-217. -/
def writeMemory (core : Core δ) (id : BitVec 32) (addr : BitVec 64) (b : List (BitVec 8)) (a : Agent δ) :
    Outcome (Reply × Agent δ) :=
  match a.inst id with
  | none => .ok (zero, a)
  | some d => core.writeMem addr b d >>= fun r =>
    .ok ({ ret := BitVec.ofNat 64 (r.1.getD 0) }, { a with inst := put a.inst id (some r.2) })

/-- `LoadExecutable`, cc 219-245. The status pointer is used without a test. -/
def loadExecutable (core : Core δ) (id : BitVec 32) (file : List (BitVec 8)) (statusNull : Bool) (a : Agent δ) :
    Outcome (Reply × Agent δ) :=
  if statusNull then .ub else
  match a.inst id with
  | none => .ok ({ ret := 0, status := some kAborted }, a)
  | some d =>
    match core.loadElf file d with
    | (none, d') => .ok ({ ret := 0, status := some kAborted }, { a with inst := put a.inst id (some d') })
    | (some entry, d') =>
      match core.writePc entry d' with
      | (none, d'') => .ok ({ ret := 0, status := some kAborted }, { a with inst := put a.inst id (some d'') })
      | (some _, d'') => .ok ({ ret := entry, status := some 0 }, { a with inst := put a.inst id (some d'') })

/-- `LoadImage`, cc 247-261. -/
def loadImage (core : Core δ) (id : BitVec 32) (file : List (BitVec 8)) (addr : BitVec 64) (a : Agent δ) :
    Outcome (Reply × Agent δ) :=
  match a.inst id with
  | none => .ok (err, a)
  | some d => core.loadImage file addr d >>= fun r =>
    .ok (if r.1 = none then err else zero, { a with inst := put a.inst id (some r.2) })

/-- `std::numeric_limits<int>::max()`. -/
def intMax : Nat := 2147483647

/-- The status stored by the `switch` of cc 314-344 when it returns, if it does. For a semihost halt the status keeps
its first value. -/
def stopStatus : HaltReason → Option (BitVec 32)
  | .semihostHaltRequest => some kAborted
  | .softwareBreakpoint => some kStoppedAtBreakpoint
  | .hardwareBreakpoint => some kStoppedAtBreakpoint
  | .userRequest => some kOk
  | .haltAbort => some kAborted
  | _ => none

/-- The loop of `Step`, cc 291-351: number left, `uint32_t` total, instance. The result is the total, the status and the
instance. The first argument bounds the number of rounds; the agent passes the number of steps asked for, and every
round that goes on has executed at least one. -/
def stepLoop (core : Core δ) : Nat → BitVec 64 → BitVec 32 → δ → Outcome (BitVec 32 × BitVec 32 × δ)
  | 0, left, total, d => if left = 0 then .ok (total, kOk, d) else .abort
  | fuel + 1, left, total, d =>
    if left = 0 then .ok (total, kOk, d) else
    let count : Nat := if left.toNat > intMax then intMax else left.toNat
    core.step count d >>= fun r =>
    match r with
    | (none, d') => .ok (total, kAborted, d')
    | (some e, d') =>
      let total' := total + BitVec.ofInt 32 e
      match core.reason d' with
      | none => .ok (total', kAborted, d')
      | some h =>
        match stopStatus h with
        | some st => .ok (total', st, d')
        | none =>
          if e < count then .ok (total', kOk, d')
          else stepLoop core fuel (left - BitVec.ofInt 64 e) total' d'

/-- `Step`, cc 263-357. -/
def step (core : Core δ) (id : BitVec 32) (n : BitVec 64) (statusNull : Bool) (a : Agent δ) :
    Outcome (Reply × Agent δ) :=
  let st (x : BitVec 32) : Option (BitVec 32) := if statusNull then none else some x
  match a.inst id with
  | none => .ok ({ ret := 0, status := st kAborted }, a)
  | some d =>
    if n = 0 then .ok ({ ret := 0, status := st kOk }, a) else
    match core.reason d with
    | none => .ok ({ ret := 0, status := st kAborted }, a)
    | some h =>
      if h = .semihostHaltRequest then .ok ({ ret := 0, status := st kAborted }, a) else
      stepLoop core n.toNat n 0 d >>= fun r =>
        .ok ({ ret := r.1.zeroExtend 64, status := st r.2.1 }, { a with inst := put a.inst id (some r.2.2) })

/-- The `switch` of `Halt`, cc 385-404; `none` leaves the status as it was. -/
def haltStatus : HaltReason → Option (BitVec 32)
  | .semihostHaltRequest => some kAborted
  | .softwareBreakpoint => some kStoppedAtBreakpoint
  | .userRequest => some kInterrupted
  | .none => some kOk
  | .haltAbort => some kAborted
  | _ => none

/-- `Halt`, cc 360-407. -/
def halt (core : Core δ) (id : BitVec 32) (statusNull : Bool) (a : Agent δ) : Reply × Agent δ :=
  match a.inst id with
  | none => (err, a)
  | some d =>
    let (r, d') := core.halt d
    let a' := { a with inst := put a.inst id (some d') }
    let st (x : Option (BitVec 32)) : Option (BitVec 32) := if statusNull then none else x
    match r with
    | none => ({ err with status := st (some kAborted) }, a')
    | some _ =>
      match core.reason d' with
      | none => ({ err with status := st (some kAborted) }, a')
      | some h => ({ ret := 0, status := st (haltStatus h) }, a')

/-- The C interface, cc 38-90. -/
inductive Call where
  | construct (len : BitVec 32) (mem : Option (Nat × Nat × Nat))
  | destruct (id : BitVec 32)
  | reset (id : BitVec 32)
  | regInfoSize (id : BitVec 32)
  | regInfo (id index : BitVec 32) (infoNull : Bool)
  | loadExecutable (id : BitVec 32) (file : List (BitVec 8)) (statusNull : Bool)
  | loadImage (id : BitVec 32) (file : List (BitVec 8)) (addr : BitVec 64)
  | readRegister (id reg : BitVec 32) (valueNull : Bool)
  | writeRegister (id reg : BitVec 32) (v : BitVec 64)
  | readMemory (id : BitVec 32) (addr len : BitVec 64)
  | writeMemory (id : BitVec 32) (addr : BitVec 64) (b : List (BitVec 8))
  | step (id : BitVec 32) (n : BitVec 64) (statusNull : Bool)
  | halt (id : BitVec 32) (statusNull : Bool)

def call (core : Core δ) (c : Call) (a : Agent δ) : Outcome (Reply × Agent δ) :=
  match c with
  | .construct len mem => .ok (construct core len mem a)
  | .destruct id => .ok (destroy id a)
  | .reset id => .ok (reset id a)
  | .regInfoSize id => .ok (regInfoSize core id a)
  | .regInfo id index nl => regInfo core id index nl a
  | .loadExecutable id f nl => loadExecutable core id f nl a
  | .loadImage id f ad => loadImage core id f ad a
  | .readRegister id r nl => .ok (readRegister core id r nl a)
  | .writeRegister id r v => .ok (writeRegister core id r v a)
  | .readMemory id ad l => readMemory core id ad l a
  | .writeMemory id ad b => writeMemory core id ad b a
  | .step id n nl => step core id n nl a
  | .halt id nl => .ok (halt core id nl a)

/-- The identifier a call is given. -/
def Call.id? : Call → Option (BitVec 32)
  | .construct _ _ => none
  | .destruct id | .reset id | .regInfoSize id | .regInfo id _ _ | .loadExecutable id _ _ | .loadImage id _ _
  | .readRegister id _ _ | .writeRegister id _ _ | .readMemory id _ _ | .writeMemory id _ _ | .step id _ _
  | .halt id _ => some id

/-- A history of calls with the replies. -/
def calls (core : Core δ) : List Call → Agent δ → Outcome (List (Call × Reply) × Agent δ)
  | [], a => .ok ([], a)
  | c :: cs, a => call core c a >>= fun r => calls core cs r.2 >>= fun r' => .ok ((c, r.1) :: r'.1, r'.2)

/-! ## Vocabulary of the properties -/

open Verif.Spec.Agent

/-- The event recorded for a call and its reply. -/
def event : Call × Reply → Option Event
  | (.construct _ _, r) => if r.ret = 0xffffffff#64 then none else some (.made (r.ret.truncate 32))
  | (.destruct id, r) => if r.ret = 0 then some (.gone id) else none
  | _ => none

def events (tr : List (Call × Reply)) : List Event := tr.filterMap event

def Call.isConstruct : Call → Bool
  | .construct _ _ => true
  | _ => false

/-- The number of `construct` calls. -/
def constructs (cs : List Call) : Nat := (cs.filter Call.isConstruct).length

/-- A core that keeps its contract: `Step(k)` is defined, executes at most `k` instructions and reports how many. -/
structure Honest (core : Core δ) (cnt : δ → Nat) : Prop where
  step : ∀ (k : Nat) (d : δ), 0 < k → k ≤ 2147483647 → ∃ r d', core.step k d = .ok (r, d') ∧
    (r = none → cnt d' = cnt d) ∧ ∀ e, r = some e → 0 ≤ e ∧ e ≤ k ∧ (cnt d' : Int) = cnt d + e

/-- How the loop can end: `res` is the answer of the last call of the core, which was asked for `k`. -/
structure Ends (core : Core δ) (cnt : δ → Nat) (n : Nat) (d d' : δ) (st : BitVec 32) : Prop where
  last : ∃ (k : Nat) (d1 : δ) (res : Option Int), 0 < k ∧ core.step k d1 = .ok (res, d') ∧
    ((res = none ∧ st = 0xffffffff#32) ∨ ∃ e, res = some e ∧
      ((core.reason d' = none ∧ st = 0xffffffff#32) ∨ ∃ h, core.reason d' = some h ∧
        ((h = .semihostHaltRequest ∧ st = 0xffffffff#32) ∨ (h = .haltAbort ∧ st = 0xffffffff#32) ∨
         ((h = .softwareBreakpoint ∨ h = .hardwareBreakpoint) ∧ st = 3#32) ∨ (h = .userRequest ∧ st = 0#32) ∨
         ((h = .none ∨ h = .actionPoint ∨ h = .simulatorError) ∧ st = 0#32 ∧
           (e < k ∨ cnt d' = cnt d + n)))))

/-! ## The registers of one instance -/

/-- The registers of the table: the pc and the scalar registers. -/
inductive Reg where
  | pc
  | x (i : Fin 32)
deriving DecidableEq, Repr

/-- The external register numbering (`DebugRegisterEnum`, `RiscVDebugInfo::debug_register_map()` of mpact-riscv): the
number of each register, its name, and the map back from numbers, which may contain further registers. -/
structure Numbering where
  num : Reg → BitVec 32
  name : Reg → List (BitVec 8)
  find : BitVec 32 → Option (Reg ⊕ Nat)
  find_num : ∀ r, find (num r) = some (.inl r)
  name_ne : ∀ r, 0 ∉ name r

/-- `InitializeRenodeRegisterInfo`, `coralnpu_renode_reigster_info.cc` 25-47. -/
def table (nb : Numbering) : List RegInfo :=
  ⟨(nb.num .pc).toNat, 32, true, false⟩ :: ⟨(nb.num (.x 0)).toNat, 32, true, true⟩ ::
    ([1, 2, 3, 4, 5, 6, 7, 8, 9, 10, 11, 12, 13, 14, 15, 16, 17, 18, 19, 20, 21, 22, 23, 24, 25, 26, 27, 28, 29, 30,
      31] : List (Fin 32)).map fun i => ⟨(nb.num (.x i)).toNat, 32, true, false⟩

/-- An instance as far as registers go: whether it is halted, the reason, and the 4-byte register values of the
registers of the table. -/
structure Regs where
  halted : Bool
  reason : HaltReason
  val : Reg → BitVec 32

/-- `ReadRegister(uint32_t)`, `coralnpu_renode.cc` 143-151, and `ReadRegister(name)`, `coralnpu_top.cc` 533-571, for a
register of the table; other names are answered by `other`. -/
def readReg (nb : Numbering) (other : Nat → Regs → Option (BitVec 64)) (id : BitVec 32) (s : Regs) :
    Option (BitVec 64) :=
  match nb.find id with
  | none => none
  | some (.inr n) => if s.halted then other n s else none
  | some (.inl r) => if s.halted then some ((s.val r).zeroExtend 64) else none

/-- `WriteRegister(uint32_t)`, `coralnpu_renode.cc` 153-161, and `WriteRegister(name)`, `coralnpu_top.cc` 573-617. -/
def writeReg (nb : Numbering) (other : Nat → BitVec 64 → Regs → Option Unit × Regs) (id : BitVec 32) (v : BitVec 64)
    (s : Regs) : Option Unit × Regs :=
  match nb.find id with
  | none => (none, s)
  | some (.inr n) => if s.halted then other n v s else (none, s)
  | some (.inl r) =>
    if s.halted then
      (some (), { s with
        reason := if r = .pc ∧ s.reason = .softwareBreakpoint then .none else s.reason
        val := fun r' => if r' = r then v.truncate 32 else s.val r' })
    else (none, s)

/-- `strncpy(name, src, max_len)` into a buffer of `cap` bytes: exactly `max_len` bytes are written, the source and then
zeros. -/
def strncpy (cap n : Nat) (src : List (BitVec 8)) : Outcome (List (BitVec 8)) :=
  if cap < n then .ub else .ok ((src ++ List.replicate (n - src.length) 0).take n)

/-- `GetRenodeRegisterInfo`, `coralnpu_renode.cc` 167-186, with a name buffer of `cap` bytes. `max_len` becomes a
`size_t`. The result is what was written to the name buffer, and the entry. -/
def getInfo (nb : Numbering) (cap : Nat) (index maxLen : BitVec 32) : Outcome (Option (List (BitVec 8) × RegInfo)) :=
  if index.toInt < 0 ∨ (table nb).length ≤ index.toInt then .ok none else
  match (table nb)[index.toNat]? with
  | none => .ub
  | some info =>
    match nb.find (BitVec.ofNat 32 info.index) with
    | some (.inl r) => strncpy cap (maxLen.signExtend 64).toNat (nb.name r) >>= fun s => .ok (some (s, info))
    | _ => if cap = 0 then .ub else .ok (some ([0], info))

end Verif.Model.Agent
