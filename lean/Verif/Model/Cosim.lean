import Verif.Base.Outcome

/-!
# The cosimulation interface

Transcription of `/repo/sim/cosim/coralnpu_cosim_dpi_wrapper.cc` (class `MpactHandle`, the global `g_mpact_handle` and the
DPI functions). The V2 core with its `RiscVTop` (external) is a parameter `Engine`, as is the memory that the handle
owns; `LOG` output is not modelled. Between calls the core is halted, as only `Step(1)` is used, so that its registers
are accessible.
-/

namespace Verif.Model.Cosim

/-- `sim_config_t`, `coralnpu_cosim_dpi.h` 31-37. -/
structure Config where
  itcmStart : BitVec 32
  itcmLength : BitVec 32
  misa : BitVec 32
  dtcmStart : BitVec 32
  dtcmLength : BitVec 32
deriving DecidableEq, Repr

/-- cc 68-78; the misa bits are those of RV32 with I, M, F and V. -/
def defaultConfig : Config := ⟨0, 0x2000, 0x40201120, 0x10000, 0x8000⟩

/-- The core (`ε`, with its registers) on the memory of the handle (`μ`). `none` is a status that is not ok; `step1` is
`Step(1)`: whether it succeeded and whether the `mpause` handler ran. -/
structure Engine (ε μ : Type) where
  blank : μ
  loadElf : List (BitVec 8) → μ → Option Unit × μ
  create : Config → μ → ε
  readReg : List (BitVec 8) → ε → Option (BitVec 64)
  writeReg : List (BitVec 8) → BitVec 64 → ε → Option Unit × ε
  regWords : List (BitVec 8) → ε → Option (List (BitVec 32))
  writeMem : BitVec 64 → BitVec 32 → ε × μ → Option Unit × ε × μ
  step1 : ε × μ → Option Unit × Bool × ε × μ

variable {ε μ : Type}

/-- `MpactHandle`, cc 80-219: `memory_`; the members made by `Init`, present when `is_initialized_` is set; and
`cosimulation_halted_`. -/
structure Handle (ε μ : Type) where
  mem : μ
  core : Option ε
  halted : Bool

/-- The register name "pc". -/
def pcName : List (BitVec 8) := [0x70, 0x63]

/-- `Init`, cc 87-118: a second call fails the `CHECK`; so does a pc that cannot be written. -/
def initHandle (eng : Engine ε μ) (config : Option Config) (h : Handle ε μ) : Outcome (Handle ε μ) :=
  match h.core with
  | some _ => .abort
  | none =>
    let c := config.getD defaultConfig
    match eng.writeReg pcName (c.itcmStart.zeroExtend 64) (eng.create c h.mem) with
    | (none, _) => .abort
    | (some _, e) => .ok { h with core := some e }

structure Reply where
  ret : Int
  value : Option (BitVec 32) := none
  words : Option (List (BitVec 32)) := none
  /-- Not returned to the caller: whether the `mpause` handler ran. -/
  paused : Bool := false
deriving DecidableEq, Repr

abbrev World (ε μ : Type) := Option (Handle ε μ)

/-- `mpact_init`, cc 222-230. -/
def init (eng : Engine ε μ) (g : World ε μ) : Reply × World ε μ :=
  match g with
  | some h => ({ ret := -1 }, some h)
  | none => ({ ret := 0 }, some ⟨eng.blank, none, false⟩)

/-- `mpact_config`, cc 232-243. -/
def config (eng : Engine ε μ) (c : Option Config) (g : World ε μ) : Outcome (Reply × World ε μ) :=
  match g with
  | none => .ok ({ ret := -1 }, none)
  | some h =>
    match c with
    | none => .ok ({ ret := -2 }, some h)
    | some c => initHandle eng (some c) h >>= fun h' => .ok ({ ret := 0 }, some h')

/-- `mpact_load_program`, cc 245-257. The handle is used without a test. -/
def loadProgram (eng : Engine ε μ) (elf : Option (List (BitVec 8))) (g : World ε μ) : Outcome (Reply × World ε μ) :=
  match elf with
  | none => .ok ({ ret := -1 }, g)
  | some f =>
    match g with
    | none => .ub
    | some h =>
      let (r, m) := eng.loadElf f h.mem
      .ok ({ ret := if r = none then -1 else 0 }, some { h with mem := m })

/-- `mpact_fini`, cc 404-412. -/
def fini (g : World ε μ) : Reply × World ε μ :=
  match g with
  | none => ({ ret := -1 }, none)
  | some _ => ({ ret := 0 }, none)

/-- `mpact_reset`, cc 259-264. -/
def reset (eng : Engine ε μ) (g : World ε μ) : Reply × World ε μ :=
  match g with
  | none => init eng none
  | some h => init eng (fini (some h)).2

/-- The lazy initialisation at the head of several calls. -/
def ready (eng : Engine ε μ) (h : Handle ε μ) : Outcome (Handle ε μ × ε) :=
  match h.core with
  | some e => .ok (h, e)
  | none => initHandle eng none h >>= fun h' =>
    match h'.core with
    | some e => .ok (h', e)
    | none => .ub

/-- `mpact_step`, cc 266-293; the instruction pointer is used without a test; `get_pc` (cc 130-134) checks its status. -/
def step (eng : Engine ε μ) (inst : Option (BitVec 32)) (g : World ε μ) : Outcome (Reply × World ε μ) :=
  match g with
  | none => .ok ({ ret := -1 }, none)
  | some h => ready eng h >>= fun (h, e) =>
    if h.halted then .ok ({ ret := 2 }, some h) else
    match inst with
    | none => .ub
    | some w =>
      match eng.readReg pcName e with
      | none => .abort
      | some pc =>
        match eng.writeMem ((pc.truncate 32 : BitVec 32).zeroExtend 64) w (e, h.mem) with
        | (none, e', m') => .ok ({ ret := 1 }, some { h with core := some e', mem := m' })
        | (some _, e', m') =>
          match eng.step1 (e', m') with
          | (r, p, e'', m'') =>
            .ok ({ ret := if r = none then 2 else 0, paused := p },
              some { core := some e'', mem := m'', halted := h.halted || p })

/-- `mpact_is_halted`, cc 295-307; `bool` as 0 or 1. -/
def isHalted (eng : Engine ε μ) (g : World ε μ) : Outcome (Reply × World ε μ) :=
  match g with
  | none => .ok ({ ret := 0 }, none)
  | some h => ready eng h >>= fun (h, _) => .ok ({ ret := 0 }, some h)

/-- `mpact_get_vector_register`, cc 309-344. -/
def getVector (eng : Engine ε μ) (name : Option (List (BitVec 8))) (valueNull : Bool) (g : World ε μ) :
    Outcome (Reply × World ε μ) :=
  if valueNull then .ok ({ ret := -1 }, g) else
  match name with
  | none => .ok ({ ret := -3 }, g)
  | some n =>
    match g with
    | none => .ok ({ ret := -2 }, none)
    | some h => ready eng h >>= fun (h, e) =>
      match eng.regWords n e with
      | none => .ok ({ ret := -4 }, some h)
      | some ws => .ok ({ ret := 0, words := some ws }, some h)

/-- `mpact_get_register`, cc 346-377. -/
def getRegister (eng : Engine ε μ) (name : Option (List (BitVec 8))) (valueNull : Bool) (g : World ε μ) :
    Outcome (Reply × World ε μ) :=
  if valueNull then .ok ({ ret := -1 }, g) else
  match name with
  | none => .ok ({ ret := -3 }, g)
  | some n =>
    match g with
    | none => .ok ({ ret := -2, value := some 0 }, none)
    | some h => ready eng h >>= fun (h, e) =>
      match eng.readReg n e with
      | none => .ok ({ ret := -4, value := some 0 }, some h)
      | some v => .ok ({ ret := 0, value := some (v.truncate 32) }, some h)

/-- `mpact_set_register`, cc 379-402. -/
def setRegister (eng : Engine ε μ) (name : Option (List (BitVec 8))) (v : BitVec 32) (g : World ε μ) :
    Outcome (Reply × World ε μ) :=
  match name with
  | none => .ok ({ ret := -3 }, g)
  | some n =>
    match g with
    | none => .ok ({ ret := -2 }, none)
    | some h => ready eng h >>= fun (h, e) =>
      match eng.writeReg n (v.zeroExtend 64) e with
      | (none, e') => .ok ({ ret := -4 }, some { h with core := some e' })
      | (some _, e') => .ok ({ ret := 0 }, some { h with core := some e' })

inductive Call where
  | init
  | config (c : Option Config)
  | loadProgram (elf : Option (List (BitVec 8)))
  | reset
  | step (inst : Option (BitVec 32))
  | isHalted
  | getVector (name : Option (List (BitVec 8))) (valueNull : Bool)
  | getRegister (name : Option (List (BitVec 8))) (valueNull : Bool)
  | setRegister (name : Option (List (BitVec 8))) (v : BitVec 32)
  | fini
deriving DecidableEq, Repr

def call (eng : Engine ε μ) (c : Call) (g : World ε μ) : Outcome (Reply × World ε μ) :=
  match c with
  | .init => .ok (init eng g)
  | .config c => config eng c g
  | .loadProgram f => loadProgram eng f g
  | .reset => .ok (reset eng g)
  | .step i => step eng i g
  | .isHalted => isHalted eng g
  | .getVector n nl => getVector eng n nl g
  | .getRegister n nl => getRegister eng n nl g
  | .setRegister n v => setRegister eng n v g
  | .fini => .ok (fini g)

def calls (eng : Engine ε μ) : List Call → World ε μ → Outcome (List (Call × Reply) × World ε μ)
  | [], g => .ok ([], g)
  | c :: cs, g => call eng c g >>= fun r => calls eng cs r.2 >>= fun r' => .ok ((c, r.1) :: r'.1, r'.2)

end Verif.Model.Cosim
