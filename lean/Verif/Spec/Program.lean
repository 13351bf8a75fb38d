/-!
# A program running without a debugger

The instruction semantics is a parameter: it maps an instruction word, its address and the machine (whose pc already
points to the following instruction) to the machine afterwards and the list of halts it asks for. If semihosting is on, the service
behind a semihosting call is a parameter too. `next` and `run` are the undisturbed execution against which the debugger's effect is
judged. No definition here refers to the model.
-/

namespace Verif.Spec.Program

/-- Program counter, memory bytes and everything else. -/
structure Machine (σ : Type) where
  pc : BitVec 32
  mem : Nat → BitVec 8
  regs : σ

/-- Halts a program can ask for: `mpause` and the handled traps; a semihosting exit. -/
inductive Ev where
  | userRequest
  | semihostExit
deriving DecidableEq, Repr

/-- What the instructions do; and, if semihosting is on, what the host does for a program that calls it. -/
structure Sem (σ : Type) where
  inst : BitVec 32 → Nat → Machine σ → Machine σ × List Ev
  host : Option (Machine σ → Machine σ × List Ev) := none

instance {σ : Type} : CoeFun (Sem σ) fun _ => BitVec 32 → Nat → Machine σ → Machine σ × List Ev := ⟨Sem.inst⟩

/-- The little-endian word at `a`. -/
def word (mem : Nat → BitVec 8) (a : Nat) : BitVec 32 :=
  mem (a + 3) ++ mem (a + 2) ++ mem (a + 1) ++ mem a

/-- The encoding of `ebreak`. -/
def ebreak : BitVec 32 := 0x00100073

/-- What one instruction asks of the simulator: halts, or (for the program's own `ebreak`) the report of a fault. -/
inductive Stop where
  | ev (e : Ev)
  | fault
deriving DecidableEq, Repr

/-- The words before and after the `ebreak` of a semihosting call: `slli x0, x0, 0x1f` and `srai x0, x0, 7`. -/
def semiEntry : BitVec 32 := 0x01f01013
def semiExit : BitVec 32 := 0x40705013

/-- `a` lies between the two words. -/
def Marked (mem : Nat → BitVec 8) (a : Nat) : Prop := 4 ≤ a ∧ word mem (a - 4) = semiEntry ∧ word mem (a + 4) = semiExit

instance (mem : Nat → BitVec 8) (a : Nat) : Decidable (Marked mem a) := inferInstanceAs (Decidable (_ ∧ _ ∧ _))

/-- What the word `w` at `a` does; `none` is a fault, that is, an `ebreak` that is not a semihosting call. -/
def effect {σ : Type} (sem : Sem σ) (mem : Nat → BitVec 8) (a : Nat) (w : BitVec 32) : Option (Machine σ → Machine σ × List Ev) :=
  if w = ebreak then if Marked mem a then sem.host else none else some (sem w a)

/-- One instruction. -/
def next {σ : Type} (sem : Sem σ) (m : Machine σ) : Machine σ × List Stop :=
  match effect sem m.mem m.pc.toNat (word m.mem m.pc.toNat) with
  | none => ({ m with pc := m.pc + 4 }, [.fault])
  | some f => ((f { m with pc := m.pc + 4 }).1, (f { m with pc := m.pc + 4 }).2.map .ev)

/-- `k` instructions. -/
def run {σ : Type} (sem : Sem σ) : Nat → Machine σ → Machine σ
  | 0, m => m
  | k + 1, m => run sem k (next sem m).1

/-- At this point the program executes a word of its code area `C`, and that instruction neither reads nor writes the
bytes of the code area: with any other content there it does the same to the rest of the machine. -/
def TameAt {σ : Type} (sem : Sem σ) (C : Nat → Bool) (m : Machine σ) : Prop :=
  m.pc.toNat % 4 = 0 ∧ C m.pc.toNat = true ∧
  (∀ f, effect sem m.mem m.pc.toNat (word m.mem m.pc.toNat) = some f →
    ∀ mem', (∀ q, C (q / 4 * 4) = false → mem' q = m.mem q) →
      f { pc := m.pc + 4, mem := mem', regs := m.regs } =
        let r := f { m with pc := m.pc + 4 }
        ({ r.1 with mem := fun q => if C (q / 4 * 4) then mem' q else r.1.mem q }, r.2))

/-- The program is tame all along its undisturbed execution. -/
def Tame {σ : Type} (sem : Sem σ) (C : Nat → Bool) (m : Machine σ) : Prop :=
  ∀ k, TameAt sem C (run sem k m)

/-- The first `j` instructions ask for no halt and stand at no address of `bps`. -/
def Quiet {σ : Type} (sem : Sem σ) (bps : Nat → Bool) (m : Machine σ) (j : Nat) : Prop :=
  ∀ i < j, (next sem (run sem i m)).2 = [] ∧ bps (run sem i m).pc.toNat = false

/-- What a debugger sees of the machine `m`: everything, with `ebreak` over the words that carry a breakpoint. -/
def Shows {σ : Type} (bps : Nat → Bool) (seen m : Machine σ) : Prop :=
  seen.pc = m.pc ∧ seen.regs = m.regs ∧ (∀ q, bps (q / 4 * 4) = false → seen.mem q = m.mem q) ∧
  ∀ a, bps a = true → word seen.mem a = ebreak

/-- Which breakpoints a list of requests leaves, `(true, a)` being set and `(false, a)` clear. -/
def armed (l : List (Bool × Nat)) (a : Nat) : Bool :=
  l.foldl (fun b r => if r.2 = a then r.1 else b) false

/-- A breakpoint at `a` does not meddle with semihosting calls: its word is not one of the two words around the `ebreak` of a call, and
one of the words around it is code and is not the one that a call has there; `w` are the words of the code `C`. -/
def Clear (C : Nat → Bool) (w : Nat → BitVec 32) (a : Nat) : Prop :=
  w a ≠ semiEntry ∧ w a ≠ semiExit ∧ (4 ≤ a → (C (a - 4) = true ∧ w (a - 4) ≠ semiEntry) ∨ (C (a + 4) = true ∧ w (a + 4) ≠ semiExit))

/-- Two words in memory that are the same or do not overlap. -/
def Apart (a b : Nat) : Prop := a = b ∨ a + 4 ≤ b ∨ b + 4 ≤ a

instance (a b : Nat) : Decidable (Apart a b) := inferInstanceAs (Decidable (_ ∨ _ ∨ _))

/-- Changes made to a machine from outside, between two instructions. -/
inductive Edit (σ : Type) where
  | mem (a : Nat) (d : List (BitVec 8))
  | regs (g : σ → σ)
  | pc (v : BitVec 32)

def Edit.apply {σ : Type} : Edit σ → Machine σ → Machine σ
  | .mem a d, m => { m with mem := fun q => if a ≤ q then d.getD (q - a) (m.mem q) else m.mem q }
  | .regs g, m => { m with regs := g m.regs }
  | .pc v, m => { m with pc := v }

/-- The program with changes from outside: each change comes with the number of instructions executed before it, counted from
the change before. -/
def edited {σ : Type} (sem : Sem σ) : List (Nat × Edit σ) → Machine σ → Machine σ
  | [], m => m
  | (j, e) :: l, m => edited sem l (e.apply (run sem j m))

end Verif.Spec.Program
