import Verif.Model.Kernel
import Verif.Model.Session

/-!
# The first core executing vector instructions

The instruction semantics of `Verif.Model.Decode` (decode table, operand getters, semantic functions) put into the run control
of `Verif.Model.Top`: the machine of `Verif.Spec.Program` with the scalar and vector registers and the accumulators.

Parameters: the row the decoder selects for a word (`dec`; the decoder is generated by code outside `/repo`), the base instructions (`base`, mpact-riscv), what a vector instruction with undefined behaviour does (`und`), the
largest physical address and the previous content of allocated buffers. `coralnpu_top.cc` 208-218: the illegal-instruction trap
asks for a halt.
-/

namespace Verif.Model
open Verif
open Verif.Spec.Program (Machine Ev)

/-- The registers. -/
structure VecRegs where
  x : Nat → BitVec 32
  v : VRF
  acc : Acc
  dw : DwAcc

/-- The state of the vector instructions inside the machine. -/
def archOf (m : Machine VecRegs) : Arch := { x := m.regs.x, v := m.regs.v, mem := m.mem, acc := m.regs.acc, dw := m.regs.dw }

/-- The machine with this state and pc. -/
def Arch.machine (s : Arch) (pc : BitVec 32) : Machine VecRegs :=
  { pc, mem := s.mem, regs := { x := s.x, v := s.v, acc := s.acc, dw := s.dw } }

structure VecParams where
  dec : BitVec 32 → Option Row
  base : Spec.Program.Sem VecRegs
  und : Spec.Program.Sem VecRegs
  maxPhys : Nat
  fresh : Nat → VReg

/-- Execution of a word. -/
def vecSem (P : VecParams) : Spec.Program.Sem VecRegs where
  inst w a m :=
    match (P.dec w).bind fun r => execRow P.maxPhys P.fresh r w (archOf m) with
    | some (.ok p) => (p.2.machine m.pc, if p.1 then [Ev.userRequest] else [])
    | some _ => P.und w a m
    | none => P.base w a m
  host := P.base.host

/-- The three base instructions around the body of a loop of `n` vector instructions: `sub rn, rn, rl`, `bne rn, x0, start` and
`mpause`, with the meaning they have in the RISC-V manual and (for `mpause`) `coralnpu_instructions.cc` 38-41, `coralnpu_state.cc` 81-88 and `coralnpu_top.cc` 197-205. -/
structure LoopBase (P : VecParams) (n rn rl : Nat) (sub bne mpause : BitVec 32) : Prop where
  rows : ∀ w ∈ [sub, bne, mpause], w ≠ Spec.Program.ebreak ∧ ∀ r, P.dec w = some r → r.sem = .scalar
  marks : ∀ w ∈ [sub, bne, mpause], w ≠ Spec.Program.semiEntry ∧ w ≠ Spec.Program.semiExit
  sub : ∀ a m, P.base sub a m =
    ({ m with regs := { m.regs with x := writeX m.regs.x rn (m.regs.x rn - m.regs.x rl) } }, [])
  bne : ∀ a m, P.base bne a m = (if m.regs.x rn = 0 then m else { m with pc := BitVec.ofNat 32 (a - 4 * (n + 1)) }, [])
  mpause : ∀ a m, P.base mpause a m = (m, [.userRequest])

end Verif.Model
