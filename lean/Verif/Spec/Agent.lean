/-!
# Instances and stepping as Renode sees them

Identifiers come and go: an identifier is live when the last thing that happened to it is that it was handed out.
-/

namespace Verif.Spec.Agent

inductive Event where
  | made (id : BitVec 32)
  | gone (id : BitVec 32)
deriving DecidableEq, Repr

def live (evs : List Event) (id : BitVec 32) : Bool :=
  evs.foldl (fun l e => match e with
    | .made i => if i = id then true else l
    | .gone i => if i = id then false else l) false

/-- The identifiers handed out. -/
def madeIds (evs : List Event) : List (BitVec 32) :=
  evs.filterMap fun e => match e with
    | .made i => some i
    | .gone _ => none

end Verif.Spec.Agent
