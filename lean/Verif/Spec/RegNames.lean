import Verif.Base.CInt

/-!
# Registers by name

The registers of a 32-bit core as separate variables: the pc and x0 to x31, each of the latter with two names.
-/

namespace Verif.Spec.RegNames

/-- The variable a name stands for, by position: 0 is the pc, `i + 1` is x`i`. `alias i` is the second name of x`i`. -/
def standard (alias : Nat → String) (n : String) : Option Nat :=
  if n = "pc" then some 0
  else ((List.range 32).find? fun i => n == "x" ++ toString i || n == alias i).map (· + 1)

/-- Names that can be told apart. -/
def Distinct (alias : Nat → String) : Prop :=
  (∀ i < 32, alias i ≠ "pc" ∧ ∀ j < 32, alias i ≠ "x" ++ toString j) ∧ ∀ i < 32, ∀ j < 32, alias i = alias j → i = j

/-- What happens to the registers: a read or a write by name, or the program assigns values to registers. -/
inductive Event where
  | read (n : String)
  | write (n : String) (v : BitVec 64)
  | program (f : Nat → BitVec 32)

/-- What is answered: a value, or nothing but success. -/
inductive Answer where
  | value (v : BitVec 64)
  | done
deriving DecidableEq

/-- The variables after an event, and its answer when the name is a register. -/
def event (alias : Nat → String) (var : Nat → BitVec 32) : Event → Option Answer × (Nat → BitVec 32)
  | .read n => ((standard alias n).map fun i => .value ((var i).zeroExtend 64), var)
  | .write n v => match standard alias n with
    | some i => (some .done, fun j => if j = i then v.truncate 32 else var j)
    | none => (none, var)
  | .program f => (none, fun j => if j < 33 then f j else var j)

/-- The answers to a list of events. -/
def answers (alias : Nat → String) : (Nat → BitVec 32) → List Event → List (Option Answer)
  | _, [] => []
  | var, e :: l => (event alias var e).1 :: answers alias (event alias var e).2 l

end Verif.Spec.RegNames
