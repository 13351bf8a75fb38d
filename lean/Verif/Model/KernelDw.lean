import Verif.Model.Kernel

/-!
# A depthwise convolution program

The program for which the depthwise unit is made, in the notation of `Verif.Model.Kernel`: a strip-mined word load fetches
32 biases, `adwinit` moves them to the depthwise accumulator, any number of `adwconv` and a final `vdwconv` add three products
a lane each, and a strip-mined word store writes the 32 sums. The activations and weights are in vector registers already
(a `vld` loop, properties C85 and C86, puts them there).
-/

namespace Verif.Model
open Verif

structure DwProg where
  ld : Inst
  init : Inst
  convs : List Inst
  out : Inst
  st : Inst

/-- All the convolution instructions. -/
def DwProg.taps (p : DwProg) : List Inst := p.convs ++ [p.out]

def DwProg.insts (p : DwProg) : List Inst := [p.ld, p.init] ++ (p.taps ++ [p.st])

/-- Registers of the program: addresses of the biases and of the result, the length. -/
def DwProg.rb (p : DwProg) : Nat := Spec.bitsAt p.ld.word 15 5
def DwProg.rd (p : DwProg) : Nat := Spec.bitsAt p.st.word 15 5
def DwProg.rl (p : DwProg) : Nat := Spec.bitsAt p.ld.word 20 5
/-- Vector registers of the program: the first register of the biases, of the destination of `adwinit`, and of the result. -/
def DwProg.vb (p : DwProg) : Nat := Spec.bitsAt p.ld.word 6 6
def DwProg.vi (p : DwProg) : Nat := Spec.bitsAt p.init.word 6 6
def DwProg.vd (p : DwProg) : Nat := Spec.bitsAt p.out.word 6 6

/-- The program is well formed: the words decode as described, the operands fit together, and neither the biases nor the
destination of `adwinit`, of which 24 of 32 bytes are left undetermined, are read as activations or weights. -/
structure DwProg.Ok (p : DwProg) (W : CTy) : Prop where
  dec : ∀ i ∈ p.insts, i.Ok
  word : W.bits = 32
  ld : p.ld.row.sem = .vld W true false true true true
  init : p.init.row.sem = .adwinit
  form : Spec.bitsAt p.init.word 2 3 = 1 ∧ Spec.bitsAt p.init.word 0 2 = 2
  convs : ∀ i ∈ p.convs, i.row.sem = .dwconv false
  out : p.out.row.sem = .dwconv true
  st : p.st.row.sem = .vst W true false true true true
  len : Spec.bitsAt p.st.word 20 5 = p.rl
  bias : Spec.bitsAt p.init.word 14 6 = p.vb
  over : Spec.NoOverlap p.vi p.vb 4
  result : Spec.bitsAt p.st.word 6 6 = p.vd
  regs : [0, p.rb, p.rd, p.rl].Nodup
  cmds : ∀ i ∈ p.taps, Spec.bitsAt i.word 20 5 ≠ p.rb
  data : ∀ i ∈ p.taps, ∀ g ∈ [p.vb, p.vi], Spec.Apart (Spec.bitsAt i.word 14 6) 9 g 4 ∧ Spec.Apart (Spec.bitsAt i.word 26 6) 3 g 4

/-- Loads that come before the program and fill its registers: strip-mined byte loads with post-increment, from one address
register, to consecutive groups of four vector registers from `g` on. -/
structure DwLoads (p : DwProg) (ls : List Inst) (B : CTy) (ra g : Nat) : Prop where
  dec : ∀ i ∈ ls, i.Ok
  byte : B.bits = 8
  ld : ∀ i ∈ ls, i.row.sem = .vld B true false true true true
  src : ∀ i ∈ ls, Spec.bitsAt i.word 15 5 = ra
  len : ∀ i ∈ ls, Spec.bitsAt i.word 20 5 = p.rl
  dst : ∀ j (h : j < ls.length), Spec.bitsAt ls[j].word 6 6 = g + 4 * j
  free : ra ∉ [0, p.rb, p.rd, p.rl]
  cmds : ∀ i ∈ p.taps, Spec.bitsAt i.word 20 5 ≠ ra

end Verif.Model
