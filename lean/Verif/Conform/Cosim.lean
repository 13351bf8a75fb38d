import Verif.Model.CosimCore

/-!
# The expectations of `/repo/sim/test/coralnpu_cosim_dpi_wrapper_test.cc`

Each test case is a sequence of calls and the replies it expects. The instructions the test supplies belong to mpact-riscv; the six
of them are given the meaning of the manual. `GetMcycleCsr` is left out, as the counters are not part of this model. After `mpause` the
pc is that of the instruction, as the test expects: the handler calls `Cease` of mpact-riscv.
-/

namespace Verif.Conform.Cosim
open Verif Verif.Model.Cosim Verif.Model.CosimCore
open Verif.Spec.Program (Machine)

structure Regs where
  x5 : BitVec 32
  f5 : BitVec 32
  vl : Nat
  v1 : List (BitVec 32)
  misa : BitVec 32

def name (s : String) : List (BitVec 8) := s.toList.map fun c => BitVec.ofNat 8 c.toNat

/-- Test file, 10-21. -/
def lui : BitVec 32 := 0b11011110101011011011001010110111
def fmv : BitVec 32 := 0b11110000000000101000001011010011
def vset : BitVec 32 := 0b11001101000001111111001101010111
def vmv : BitVec 32 := 0b01011110000000101100000011010111
def add2047 : BitVec 32 := 0b01111111111100101000001010010011
def add1776 : BitVec 32 := 0b01101111000000101000001010010011
def nop : BitVec 32 := 0x13
def mpause : BitVec 32 := 0b00001000000000000000000001110011

def sem : Spec.Program.Sem Regs where
  inst w a m :=
    if w = lui then ({ m with regs := { m.regs with x5 := w &&& 0xfffff000#32 } }, [])
    else if w = add2047 ∨ w = add1776 then
      ({ m with regs := { m.regs with x5 := m.regs.x5 + (w.extractLsb' 20 12).signExtend 32 } }, [])
    else if w = fmv then ({ m with regs := { m.regs with f5 := m.regs.x5 } }, [])
    else if w = vset then ({ m with regs := { m.regs with vl := min 4 (w.extractLsb' 15 5).toNat } }, [])
    else if w = vmv then ({ m with regs := { m.regs with v1 := List.replicate m.regs.vl m.regs.x5 } }, [])
    else if w = mpause then ({ m with pc := BitVec.ofNat 32 a }, [.userRequest])
    else (m, [])

def params : Params Regs where
  env := ⟨sem, fun _ _ => true⟩
  blank _ := 0
  elf _ m := (none, m)
  start c := ⟨0, 0, 0, [0, 0, 0, 0], c.misa⟩
  getReg n r :=
    if n = name "x5" then some (r.x5.zeroExtend 64) else if n = name "f5" then some (r.f5.zeroExtend 64)
    else if n = name "misa" then some (r.misa.zeroExtend 64) else none
  setReg _ _ _ := none
  words n r := if n = name "v1" then some r.v1 else none

/-- The replies of a sequence of calls: the result and the value. -/
def replies (cs : List Call) : Option (List (Int × Option (BitVec 32) × Option (List (BitVec 32)))) :=
  match calls (engine params) (.init :: cs) none with
  | .ok (tr, _) => some ((tr.map fun e => (e.2.ret, e.2.value, e.2.words)).tail)
  | _ => none

def get (n : String) : Call := .getRegister (some (name n)) false
def step (w : BitVec 32) : Call := .step (some w)

def ok : Int × Option (BitVec 32) × Option (List (BitVec 32)) := (0, none, none)
def val (v : BitVec 32) : Int × Option (BitVec 32) × Option (List (BitVec 32)) := (0, some v, none)

theorem conform_getPc : replies [get "pc"] = some [val 0] := by decide +kernel

theorem conform_getPcAfterStep : replies [step nop, get "pc"] = some [ok, val 4] := by decide +kernel

theorem conform_getPcAfterReset : replies [step nop, get "pc", .reset, get "pc"] = some [ok, val 4, ok, val 0] := by decide +kernel

theorem conform_getGpr : replies [get "x5", step lui, step add2047, step add1776, get "x5"] =
    some [val 0, ok, ok, ok, val 0xdeadbeef] := by decide +kernel

theorem conform_getFpr : replies [get "x5", get "f5", step lui, step add2047, step add1776, step fmv, get "f5"] =
    some [val 0, val 0, ok, ok, ok, ok, val 0xdeadbeef] := by decide +kernel

theorem conform_getMisa : replies [get "misa"] = some [val 0x40201120] := by decide +kernel

theorem conform_getVector :
    replies [step lui, step add2047, step add1776, get "x5", step vset, step vmv, .getVector (some (name "v1")) false] =
      some [ok, ok, ok, val 0xdeadbeef, ok, ok, (0, none, some (List.replicate 4 0xdeadbeef))] := by decide +kernel

theorem conform_getVectorErrors :
    (replies [.getVector (some (name "v1")) true]).map (·.map (·.1 = 0 : _ → Bool)) = some [false] ∧
    (replies [.getVector none false]).map (·.map (·.1 = 0 : _ → Bool)) = some [false] ∧
    (replies [.fini, .getVector (some (name "v1")) false]).map (·.map (·.1 = 0 : _ → Bool)) = some [true, false] := by
  decide +kernel

theorem conform_mpause :
    replies [step nop, get "pc", step mpause, get "pc"] = some [ok, val 4, ok, val 4] ∧
    (replies [step nop, step mpause, step nop, get "pc"]).map (·.map (·.1 = 0 : _ → Bool)) = some [true, true, false, true] ∧
    (replies [step nop, step mpause, step nop, get "pc"]).map (·.getLast?) = some (some (val 4)) := by decide +kernel

theorem conform_customConfig : replies [.config (some ⟨12345, 0x100000, 0, 0, 0⟩), get "pc"] = some [ok, val 12345] := by decide +kernel

end Verif.Conform.Cosim
