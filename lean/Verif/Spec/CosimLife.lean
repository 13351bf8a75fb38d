/-!
# The four conditions of the cosimulation interface

What the caller has to remember to know which calls are allowed (C111).
-/

namespace Verif.Spec.CosimLife

inductive Life where
  /-- There is no instance. -/
  | absent
  /-- There is an instance that was neither configured nor used. -/
  | fresh
  /-- The instance was configured or used. -/
  | used
  /-- The program has executed `mpause`. -/
  | stopped
deriving DecidableEq, Repr

/-- What a call does, as far as the conditions go. -/
inductive Act where
  | make | renew | finish
  /-- The call works on the core. -/
  | use
  /-- As `use`, and the program paused in it. -/
  | pause
  | none
deriving DecidableEq, Repr

def Life.after : Life → Act → Life
  | .absent, .make => .fresh
  | _, .renew => .fresh
  | _, .finish => .absent
  | .fresh, .use => .used
  | .fresh, .pause => .stopped
  | .used, .pause => .stopped
  | l, _ => l

end Verif.Spec.CosimLife
