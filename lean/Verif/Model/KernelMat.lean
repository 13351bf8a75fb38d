import Verif.Model.Kernel

/-!
# A matrix product program

The program for which the convolution unit is made, in the notation of `Verif.Model.Kernel`: per tile, two strip-mined
byte loads for the 8 narrow registers, two for the 8 wide registers and an `aconv`; at the end a `vcget` and two
strip-mined word stores. The base instructions that count the tiles are left out: the body is executed `K` times.
-/

namespace Verif.Model
open Verif

structure MatProg where
  la0 : Inst
  la1 : Inst
  lb0 : Inst
  lb1 : Inst
  conv : Inst
  get : Inst
  st0 : Inst
  st1 : Inst

def MatProg.body (p : MatProg) : List Inst := [p.la0, p.la1, p.lb0, p.lb1, p.conv]
def MatProg.tail (p : MatProg) : List Inst := [p.get, p.st0, p.st1]

/-- The body `K` times, then the tail. -/
def MatProg.run (maxPhys : Nat) (fresh : Nat → VReg) (p : MatProg) (K : Nat) (s : Arch) : Outcome Arch :=
  times (runAll maxPhys fresh p.body) K s >>= runAll maxPhys fresh p.tail

/-- Registers of the program: addresses of the two sources and of the result, the length, the command word. -/
def MatProg.ra (p : MatProg) : Nat := Spec.bitsAt p.la0.word 15 5
def MatProg.rb (p : MatProg) : Nat := Spec.bitsAt p.lb0.word 15 5
def MatProg.rd (p : MatProg) : Nat := Spec.bitsAt p.st0.word 15 5
def MatProg.rl (p : MatProg) : Nat := Spec.bitsAt p.la0.word 20 5
def MatProg.rc (p : MatProg) : Nat := Spec.bitsAt p.conv.word 20 5
/-- Vector registers of the program: the first narrow, wide and result register. -/
def MatProg.va (p : MatProg) : Nat := Spec.bitsAt p.la0.word 6 6
def MatProg.vb (p : MatProg) : Nat := Spec.bitsAt p.lb0.word 6 6
def MatProg.vd (p : MatProg) : Nat := Spec.bitsAt p.get.word 6 6

/-- The program is well formed: the words decode as described, and the operands fit together. -/
structure MatProg.Ok (p : MatProg) (B W : CTy) : Prop where
  dec : ∀ i ∈ p.body ++ p.tail, i.Ok
  ld : ∀ i ∈ [p.la0, p.la1, p.lb0, p.lb1], i.row.sem = .vld B true false true true true
  conv : p.conv.row.sem = .aconv
  get : p.get.row.sem = .vcget
  st : ∀ i ∈ [p.st0, p.st1], i.row.sem = .vst W true false true true true
  byte : B.bits = 8
  word : W.bits = 32
  len : ∀ i ∈ [p.la0, p.la1, p.lb0, p.lb1, p.st0, p.st1], Spec.bitsAt i.word 20 5 = p.rl
  a1 : Spec.bitsAt p.la1.word 15 5 = p.ra ∧ Spec.bitsAt p.la1.word 6 6 = p.va + 4
  b1 : Spec.bitsAt p.lb1.word 15 5 = p.rb ∧ Spec.bitsAt p.lb1.word 6 6 = p.vb + 4
  d1 : Spec.bitsAt p.st1.word 15 5 = p.rd ∧ Spec.bitsAt p.st1.word 6 6 = p.vd + 4
  d0 : Spec.bitsAt p.st0.word 6 6 = p.vd
  narrow : Spec.bitsAt p.conv.word 14 6 = p.va
  wide : Spec.bitsAt p.conv.word 26 6 = p.vb
  regs : [0, p.ra, p.rb, p.rd, p.rl, p.rc].Nodup
  apart : Spec.Apart p.va 8 p.vb 8

end Verif.Model
