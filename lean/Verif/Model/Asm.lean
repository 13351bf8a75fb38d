import Verif.Model.VecCore

/-!
# Assembly programs

A program as an assembler sees it: a list of operations with a position in it, and no memory for the code. Vector instructions are
executed with `Inst.run` (`Verif.Model.Kernel`); of the base instructions (mpact-riscv, external) those that work on registers and
jump inside the program; `mpause` (`coralnpu_instructions.cc` 38-41) ends the program. `AsmOk` says that the core gives the words the
meaning the operations have.
-/

namespace Verif.Model
open Verif
open Verif.Spec.Program (ebreak semiEntry semiExit)

/-- A base instruction that works on registers and may jump to another position of the program. -/
structure RegOp where
  word : BitVec 32
  regs : VecRegs → VecRegs
  jump : VecRegs → Option Nat

inductive AsmOp where
  | vec (i : Inst)
  | reg (b : RegOp)
  | pause (w : BitVec 32)

def AsmOp.word : AsmOp → BitVec 32
  | vec i => i.word
  | reg b => b.word
  | pause w => w

def Arch.regs (s : Arch) : VecRegs := { x := s.x, v := s.v, acc := s.acc, dw := s.dw }

/-- One operation at the position. `mpause`, traps and positions outside the program have no successor. -/
def advance (maxPhys : Nat) (fresh : Nat → VReg) (code : List AsmOp) (c : Nat × Arch) : Outcome (Nat × Arch) :=
  match code[c.1]? with
  | some (.vec i) => i.run maxPhys fresh c.2 >>= fun t => .ok (c.1 + 1, t)
  | some (.reg b) => .ok ((b.jump c.2.regs).getD (c.1 + 1),
      { x := (b.regs c.2.regs).x, v := (b.regs c.2.regs).v, mem := c.2.mem, acc := (b.regs c.2.regs).acc, dw := (b.regs c.2.regs).dw })
  | _ => .abort

/-- `n` operations. -/
def walk (maxPhys : Nat) (fresh : Nat → VReg) (code : List AsmOp) : Nat → Nat × Arch → Outcome (Nat × Arch)
  | 0, c => .ok c
  | n + 1, c => walk maxPhys fresh code n c >>= advance maxPhys fresh code

/-- The core decodes the words as the operations of the program, which starts at `lo`. -/
structure AsmOk (P : VecParams) (code : List AsmOp) (lo : Nat) : Prop where
  vec : ∀ i, AsmOp.vec i ∈ code → i.Ok ∧ P.dec i.word = some i.row ∧ i.row.sem ≠ .scalar
  plain : ∀ w, (AsmOp.pause w ∈ code ∨ ∃ b, AsmOp.reg b ∈ code ∧ b.word = w) →
    w ≠ ebreak ∧ (w ≠ semiEntry ∧ w ≠ semiExit) ∧ ∀ r, P.dec w = some r → r.sem = .scalar
  reg : ∀ j b, code[j]? = some (.reg b) → ∀ m, P.base b.word (lo + 4 * j) m =
    ({ pc := (b.jump m.regs).elim m.pc fun k => BitVec.ofNat 32 (lo + 4 * k), mem := m.mem, regs := b.regs m.regs }, [])
  pause : ∀ w, AsmOp.pause w ∈ code → ∀ a m, P.base w a m = (m, [.userRequest])

end Verif.Model
