import Verif.Model.Decode
import Verif.Spec.Conv

/-!
# Loops of vector instructions

Programs made of words of the vector instruction set, executed one after the other with `execRow` (`Verif.Model.Decode`),
in the form in which the kernels of the core are written: `getvl` asks for the number of elements of the next piece, the
length forms of the loads and stores with post-increment (`.lp`) move one piece and advance the address registers, and
the base instruction `sub` takes the piece off the remaining count. The base instructions are external (mpact-riscv);
`sub` is the only one used, with its meaning in the RISC-V manual.
-/

namespace Verif.Model
open Verif

/-- An instruction word with the row selected for it. -/
structure Inst where
  row : Row
  word : BitVec 32

/-- The row is one that `ParseInstruction` may select for the word. -/
def Inst.Ok (i : Inst) : Prop := Decodes i.word i.row

/-- Execution of a vector instruction. A trap ends the program (`abort`). -/
def Inst.run (maxPhys : Nat) (fresh : Nat → VReg) (i : Inst) (s : Arch) : Outcome Arch :=
  match execRow maxPhys fresh i.row i.word s with
  | none => .abort
  | some o => o >>= fun p => if p.1 then .abort else .ok p.2

/-- Execution of a sequence of vector instructions. -/
def runAll (maxPhys : Nat) (fresh : Nat → VReg) : List Inst → Arch → Outcome Arch
  | [], s => .ok s
  | i :: is, s => i.run maxPhys fresh s >>= runAll maxPhys fresh is

/-- The body of the loop: the vector instructions, then `sub rn, rn, rl`. -/
def loopBody (maxPhys : Nat) (fresh : Nat → VReg) (is : List Inst) (rn rl : Nat) (s : Arch) : Outcome Arch :=
  runAll maxPhys fresh is s >>= fun s => .ok { s with x := writeX s.x rn (s.x rn - s.x rl) }

/-- `k` executions of the body of the loop. -/
def times (f : Arch → Outcome Arch) : Nat → Arch → Outcome Arch
  | 0, s => .ok s
  | k + 1, s => times f k s >>= f

/-- The loop `do getvl; vld.lp; vld.lp; op; vst.lp; sub while (rn != 0)`. -/
structure MapLoop where
  vl : Inst
  lda : Inst
  ldb : Inst
  op : Inst
  st : Inst

def MapLoop.insts (p : MapLoop) : List Inst := [p.vl, p.lda, p.ldb, p.op, p.st]

/-- Registers of the loop: remaining count, piece length, and the addresses of the two sources and the destination. -/
def MapLoop.rn (p : MapLoop) : Nat := Spec.bitsAt p.vl.word 15 5
def MapLoop.rl (p : MapLoop) : Nat := Spec.bitsAt p.vl.word 7 5
def MapLoop.ra (p : MapLoop) : Nat := Spec.bitsAt p.lda.word 15 5
def MapLoop.rb (p : MapLoop) : Nat := Spec.bitsAt p.ldb.word 15 5
def MapLoop.rd (p : MapLoop) : Nat := Spec.bitsAt p.st.word 15 5

/-- The loop is well formed: the words decode as described, with element type `T`, the operation `v`, all strip-mined or
none; the operands fit together; the registers are different from each other and from x0; the two loads do not share a
vector register. -/
structure MapLoop.Ok (p : MapLoop) (T : CTy) (v : VOp) (strip : Bool) : Prop where
  dec : ∀ i ∈ p.insts, i.Ok
  vl : p.vl.row.sem = .getvl T strip true false
  lda : p.lda.row.sem = .vld T true false strip true true
  ldb : p.ldb.row.sem = .vld T true false strip true true
  op : p.op.row.sem = .vec v false strip
  st : p.st.row.sem = .vst T true false strip true true
  len : ∀ i ∈ [p.lda, p.ldb, p.st], Spec.bitsAt i.word 20 5 = p.rl
  vs1 : Spec.bitsAt p.op.word 14 6 = Spec.bitsAt p.lda.word 6 6
  vs2 : Spec.bitsAt p.op.word 20 6 = Spec.bitsAt p.ldb.word 6 6
  vd : Spec.bitsAt p.st.word 6 6 = Spec.bitsAt p.op.word 6 6
  regs : [0, p.rn, p.rl, p.ra, p.rb, p.rd].Nodup
  apart : Spec.Apart (Spec.bitsAt p.lda.word 6 6) (if strip then 4 else 1) (Spec.bitsAt p.ldb.word 6 6)
    (if strip then 4 else 1)

/-- The loop `do getvl; vld.lp; ops; vst.lp; sub while (rn != 0)` over one source. -/
structure PipeLoop where
  vl : Inst
  ld : Inst
  ops : List Inst
  st : Inst

def PipeLoop.insts (p : PipeLoop) : List Inst := p.vl :: p.ld :: (p.ops ++ [p.st])

/-- Registers of the loop: remaining count, piece length, and the addresses of the source and the destination. -/
def PipeLoop.rn (p : PipeLoop) : Nat := Spec.bitsAt p.vl.word 15 5
def PipeLoop.rl (p : PipeLoop) : Nat := Spec.bitsAt p.vl.word 7 5
def PipeLoop.ra (p : PipeLoop) : Nat := Spec.bitsAt p.ld.word 15 5
def PipeLoop.rd (p : PipeLoop) : Nat := Spec.bitsAt p.st.word 15 5

/-- The frame of the loop is well formed: the words decode as described, with element type `T`, all strip-mined or none;
the registers are different from each other and from x0. -/
structure PipeLoop.Ok (p : PipeLoop) (T : CTy) (strip : Bool) : Prop where
  dec : ∀ i ∈ [p.vl, p.ld, p.st], i.Ok
  vl : p.vl.row.sem = .getvl T strip true false
  ld : p.ld.row.sem = .vld T true false strip true true
  st : p.st.row.sem = .vst T true false strip true true
  len : ∀ i ∈ [p.ld, p.st], Spec.bitsAt i.word 20 5 = p.rl
  regs : [0, p.rn, p.rl, p.ra, p.rd].Nodup

end Verif.Model
