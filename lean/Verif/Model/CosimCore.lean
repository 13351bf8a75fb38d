import Verif.Model.Cosim
import Verif.Model.Session

/-!
# A core behind the cosimulation interface

`mpact_step` writes the instruction at the pc with `WriteMemory` and calls `Step(1)` of mpact-riscv's `RiscVTop`
(`/repo/sim/cosim/coralnpu_cosim_dpi_wrapper.cc` 281-291). That class is external; the run control of `CoralNPUTop`
(`/repo/sim/coralnpu_top.cc`, `Verif.Model.Top`), which has the same structure and the same decode cache of mpact-sim, is put in its
place. `WriteMemory` changes the memory and not the decode cache, as in `coralnpu_top.cc` 652-669. The memory is the
`FlatDemandMemory` of the handle, which has every address. The instruction semantics asks for a user halt for `mpause` (cc 106-111).

Parameters: registers other than the pc, the state that the factory makes, the ELF loader.
-/

namespace Verif.Model.CosimCore

open Verif.Model.Cosim Verif.Model.Top
open Verif.Spec.Program (Machine)

structure Params (σ : Type) where
  env : Env σ
  blank : Nat → BitVec 8
  elf : List (BitVec 8) → (Nat → BitVec 8) → Option Unit × (Nat → BitVec 8)
  start : Config → σ
  getReg : List (BitVec 8) → σ → Option (BitVec 64)
  setReg : List (BitVec 8) → BitVec 64 → σ → Option σ
  words : List (BitVec 8) → σ → Option (List (BitVec 32))

variable {σ : Type}

/-- The core on the memory of the handle. -/
def onMem (s : St σ) (mem : Nat → BitVec 8) : St σ := { s with m := { s.m with mem := mem } }

/-- `WriteRegister`, `coralnpu_top.cc` 573-617. -/
def writeReg (P : Params σ) (n : List (BitVec 8)) (v : BitVec 64) (s : St σ) : Option Unit × St σ :=
  if n = pcName then
    let r := Top.writePc v.toNat s
    (r.1.toOption, r.2)
  else
    match P.setReg n v s.m.regs with
    | none => (none, s)
    | some x => (some (), { s with m := { s.m with regs := x } })

/-- `Step(1)`, `coralnpu_top.cc` 313-391, and whether the `mpause` handler ran. -/
def step1 (P : Params σ) (s : St σ) (mem : Nat → BitVec 8) : Option Unit × Bool × St σ × (Nat → BitVec 8) :=
  match Top.step P.env 1 (onMem s mem) with
  | .ok (.ok _, s') => (some (), decide (s'.reason = .userRequest), s', s'.m.mem)
  | .ok (.error _, s') => (none, false, s', s'.m.mem)
  | _ => (none, false, s, mem)

def engine (P : Params σ) : Engine (St σ) (Nat → BitVec 8) where
  blank := P.blank
  loadElf := P.elf
  create c mem := fresh { pc := 0, mem := mem, regs := P.start c }
  readReg n s := if n = pcName then some (s.m.pc.zeroExtend 64) else P.getReg n s.m.regs
  writeReg := writeReg P
  regWords n s := P.words n s.m.regs
  writeMem a w s := (some (), s.1, putWord s.2 a.toNat w)
  step1 s := step1 P s.1 s.2

end Verif.Model.CosimCore
