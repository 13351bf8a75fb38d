import Verif.Model.Isa
import Verif.Spec.Conv
import Verif.Spec.Memory

/-!
# The memory bytes a vector instruction has to do with

Read off the instruction word and the scalar registers. Of the model only the type of instruction kinds is used.
-/

namespace Verif.Spec
open Verif.Model (Sem)

/-- Byte `q` belongs to an element of the access; a row has `row` elements. -/
def Access.Touches (a : Access) (row q : Nat) : Prop := ∃ e < a.count, Covers (a.addr row e) (a.w / 8) q

/-- The scalar named by the address field: the field 0 is the constant 0, otherwise its upper five bits are the register. -/
def addrScalar (w : BitVec 32) (x : Nat → BitVec 32) : BitVec 32 := if bitsAt w 14 6 = 0 then 0 else x (bitsAt w 15 5)

/-- The scalar named by the second source field. -/
def argScalar (w : BitVec 32) (x : Nat → BitVec 32) : BitVec 32 := if bitsAt w 20 6 = 0 then 0 else x (bitsAt w 20 5)

/-- The access of the word `w`: `len` and `stride` say what the second scalar counts. -/
def accessOf (maxPhys : Nat) (T : CTy) (len stride strip : Bool) (w : BitVec 32) (x : Nat → BitVec 32) : Access where
  w := T.bits
  regs := if strip then 4 else 1
  len := if len then some (argScalar w x).toNat else none
  stride := if stride then some (argScalar w x).toNat else none
  base := effBase maxPhys (addrScalar w x)

/-- The bytes read. -/
def Reads (maxPhys : Nat) (k : Sem) (w : BitVec 32) (x : Nat → BitVec 32) (q : Nat) : Prop :=
  match k with
  | .vld T len stride strip _ _ => (accessOf maxPhys T len stride strip w x).Touches (lanes T.bits) q
  | _ => False

/-- The bytes written. The rows of a quad store are quarters of a register. -/
def Writes (maxPhys : Nat) (k : Sem) (w : BitVec 32) (x : Nat → BitVec 32) (q : Nat) : Prop :=
  match k with
  | .vst T len stride strip _ _ => (accessOf maxPhys T len stride strip w x).Touches (lanes T.bits) q
  | .vstq T strip _ => (accessOf maxPhys T false true strip w x).Touches (lanes T.bits / 4) q
  | _ => False

end Verif.Spec
