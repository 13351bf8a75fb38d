import Verif.Model.Decode
import Verif.Gen.Keys

/-! # Disjointness of encoding rows, by the bits they fix -/

namespace Verif.Proofs
open Verif Verif.Model

/-- Bits of the word that a constraint forces to 1. -/
def fOnes (f : Fld) : Nat := (f.val % 2 ^ f.width) <<< f.pos

/-- Bits of the word that a constraint forces to 0. -/
def fZeros (f : Fld) : Nat := ((2 ^ f.width - 1) ^^^ (f.val % 2 ^ f.width)) <<< f.pos

def onesOf : List Fld → Nat
  | [] => 0
  | f :: l => fOnes f ||| onesOf l

def zerosOf : List Fld → Nat
  | [] => 0
  | f :: l => fZeros f ||| zerosOf l

/-- Bits forced to 1 in the low half, bits forced to 0 in the high half. -/
def rowKey (r : Row) : Nat := onesOf r.eq ||| ((zerosOf r.eq % 2 ^ 32) <<< 32)

def swapKey (k : Nat) : Nat := (k >>> 32) ||| ((k % 2 ^ 32) <<< 32)

/-- The key `s` conflicts with every key of the list. -/
def conflictAll (s : Nat) : List Nat → Bool
  | [] => true
  | b :: l => match Nat.land s b with
    | 0 => false
    | _ + 1 => conflictAll s l

def conflictPairs : List Nat → Bool
  | [] => true
  | a :: l => match conflictAll (swapKey a) l with
    | true => conflictPairs l
    | false => false

/-- The rows that do not constrain `func1` and `form`: `acset`, `actr`, `adwinit`. -/
def isSpecial (r : Row) : Bool := r.isAcset || r.isAdwinit

/-- Rows without a `!=` constraint. -/
def plainRows : List Row := allRows.filter fun r => !isSpecial r && r.ne.isEmpty

/-- Rows with a `!=` constraint. -/
def guardedRows : List Row := allRows.filter fun r => !isSpecial r && !r.ne.isEmpty

set_option maxRecDepth 100000 in
theorem plainKeys_eq : plainRows.map rowKey = Gen.plainKeys := by decide +kernel

set_option maxRecDepth 100000 in
theorem guardedKeys_eq : guardedRows.map rowKey = Gen.guardedKeys := by decide +kernel

set_option maxRecDepth 100000 in
theorem plain_conflict : conflictPairs Gen.plainKeys = true := by decide +kernel

/-- The `==` constraints of the row force the field of `f` to the value of `f`. -/
def forces (r : Row) (f : Fld) : Bool :=
  decide (f.val < 2 ^ f.width) && onesOf r.eq &&& fOnes f == fOnes f && zerosOf r.eq &&& fZeros f == fZeros f

/-- A `!=` constraint of one row contradicts the `==` constraints of the other. -/
def guardConflict (r r' : Row) : Bool := r.ne.any (forces r' ·) || r'.ne.any (forces r ·)

/-- The row `r` with swapped key `s` conflicts with all the rows of a list, given with their keys. -/
def conflictRows (r : Row) (s : Nat) : List Nat → List Row → Bool
  | k :: ks, r' :: l => match Nat.land s k with
    | 0 => guardConflict r r' && conflictRows r s ks l
    | _ + 1 => conflictRows r s ks l
  | _, _ => true

def conflictGuarded : List Row → Bool
  | [] => true
  | r :: l => conflictRows r (swapKey (rowKey r)) Gen.plainKeys plainRows &&
    conflictRows r (swapKey (rowKey r)) (l.map rowKey) l && conflictGuarded l


set_option maxRecDepth 100000 in
theorem guarded_conflict : conflictGuarded guardedRows = true := by decide +kernel

end Verif.Proofs
