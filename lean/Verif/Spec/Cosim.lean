/-!
# The life of a simulator instance

What the caller of the cosimulation interface can conclude from the successful calls so far (C55).
-/

namespace Verif.Spec.Cosim

inductive Ev where
  /-- An instance was made. -/
  | made
  /-- The instance was finalised. -/
  | ended
  /-- The instance, if any, was replaced by a new one. -/
  | renewed
  /-- The program executed `mpause`. -/
  | paused
  /-- Anything else. -/
  | other
deriving DecidableEq, Repr

/-- The most recent event that satisfies `p`. -/
def latest (p : Ev → Bool) (es : List Ev) : Option Ev := es.reverse.find? p

/-- An instance exists: the last time one was made is after the last time one was finalised. -/
def Present (es : List Ev) : Prop :=
  latest (fun e => e = .made || e = .renewed || e = .ended) es = some .made ∨
  latest (fun e => e = .made || e = .renewed || e = .ended) es = some .renewed

/-- The program has paused since the instance was made. -/
def Stopped (es : List Ev) : Prop :=
  latest (fun e => e = .made || e = .renewed || e = .ended || e = .paused) es = some .paused

end Verif.Spec.Cosim
