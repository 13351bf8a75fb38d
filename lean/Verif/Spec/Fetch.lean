import Verif.Spec.Program

/-!
# Programs that write code

What a session of the debugger without breakpoints does to a program, whatever the program does to its own code: executed from memory
(`session`), and by a machine that reads the word at an address only once (`Decoding`). No definition here refers to the model.
-/

namespace Verif.Spec.Program

variable {σ : Type}

/-- One instruction, executing the word `w` in place of the word at the pc. -/
def nextWith (sem : Sem σ) (w : BitVec 32) (m : Machine σ) : Machine σ × List Stop :=
  match effect sem m.mem m.pc.toNat w with
  | none => ({ m with pc := m.pc + 4 }, [.fault])
  | some f => ((f { m with pc := m.pc + 4 }).1, (f { m with pc := m.pc + 4 }).2.map .ev)

/-- Requests: execute up to `n` instructions, look at the instruction at an address, change the machine. -/
inductive Req (σ : Type) where
  | go (n : Nat)
  | look (a : Nat)
  | edit (e : Edit σ)

/-- How many instructions are executed when `n` are asked for: the first one that asks for a halt is the last. -/
def count (sem : Sem σ) : Nat → Machine σ → Nat
  | 0, _ => 0
  | n + 1, m => if (next sem m).2 = [] then count sem n (next sem m).1 + 1 else 1

def Req.apply (sem : Sem σ) : Req σ → Machine σ → Machine σ
  | .go n, m => run sem (count sem n m) m
  | .look _, m => m
  | .edit e, m => e.apply m

/-- The requests one after the other. -/
def session (sem : Sem σ) (l : List (Req σ)) (m : Machine σ) : Machine σ := l.foldl (fun m r => r.apply sem m) m

/-- The instructions executed for the requests. -/
def executed (sem : Sem σ) : List (Req σ) → Machine σ → Nat
  | [], _ => 0
  | .go n :: l, m => count sem n m + executed sem l (run sem (count sem n m) m)
  | .look _ :: l, m => executed sem l m
  | .edit e :: l, m => executed sem l (e.apply m)

/-- The addresses at which instructions are executed or looked at, with the words that are in memory there at that time. -/
def decodes (sem : Sem σ) : List (Req σ) → Machine σ → List (Nat × BitVec 32)
  | [], _ => []
  | .go n :: l, m =>
    (List.range (count sem n m)).map (fun i => ((run sem i m).pc.toNat, word (run sem i m).mem (run sem i m).pc.toNat)) ++
      decodes sem l (run sem (count sem n m) m)
  | .look a :: l, m => (a, word m.mem a) :: decodes sem l m
  | .edit e :: l, m => decodes sem l (e.apply m)

/-- Wherever an instruction is executed or looked at more than once, it is the same one. -/
def Unchanging (l : List (Nat × BitVec 32)) : Prop := ∀ p ∈ l, ∀ q ∈ l, p.1 = q.1 → p.2 = q.2

/-- A machine with the words it has read as instructions. -/
structure Decoding (σ : Type) where
  m : Machine σ
  seen : Nat → Option (BitVec 32)

/-- The instruction at an address is the word first read there. -/
def Decoding.at (x : Decoding σ) (a : Nat) : BitVec 32 := (x.seen a).getD (word x.m.mem a)

def Decoding.look (a : Nat) (x : Decoding σ) : Decoding σ := { x with seen := fun b => if b = a then some (x.at a) else x.seen b }

def Decoding.next (sem : Sem σ) (x : Decoding σ) : Decoding σ × List Stop :=
  let r := nextWith sem (x.at x.m.pc.toNat) x.m
  ({ x.look x.m.pc.toNat with m := r.1 }, r.2)

def Decoding.run (sem : Sem σ) (x : Decoding σ) : Nat → Decoding σ
  | 0 => x
  | k + 1 => Decoding.run sem (x.next sem).1 k

def Decoding.count (sem : Sem σ) (x : Decoding σ) : Nat → Nat
  | 0 => 0
  | n + 1 => if (x.next sem).2 = [] then Decoding.count sem (x.next sem).1 n + 1 else 1

def Decoding.apply (sem : Sem σ) : Req σ → Decoding σ → Decoding σ
  | .go n, x => x.run sem (x.count sem n)
  | .look a, x => x.look a
  | .edit e, x => { x with m := e.apply x.m }

def Decoding.session (sem : Sem σ) (l : List (Req σ)) (x : Decoding σ) : Decoding σ := l.foldl (fun x r => x.apply sem r) x

def Decoding.executed (sem : Sem σ) : List (Req σ) → Decoding σ → Nat
  | [], _ => 0
  | r :: l, x => (match r with | .go n => x.count sem n | _ => 0) + Decoding.executed sem l (x.apply sem r)

end Verif.Spec.Program
