import Verif.Proofs.Fetch
import Verif.Props.RunControl

/-!
# C108: programs that write code

Sessions of debugger calls without breakpoints: `Step`, `Run` ended by `Halt`, `GetDisassembly`, `WriteMemory`, `WriteRegister`. Nothing
is assumed about the program: it may write its own code, and so may the debugger. `asks` is what a call asks for. The specification
(`Verif.Spec.Fetch`) has the program executed from memory, `session`, and the machine that reads the word at an address once,
`Decoding`.
-/

namespace Verif.Props

open Verif.Model.Top Verif.Proofs.Top
open Verif.Spec.Program (Machine Sem Ev Stop word ebreak next run Edit Req count session executed decodes Unchanging Decoding)

variable {σ : Type}

/-- C108, a decode cache that forgets nothing: after any session without breakpoints the core is exactly the machine that executes, at
each address, the word that was there when an instruction was first executed or disassembled there; the counter is the number of
instructions this machine executes, the next `Step` reports how many it executed, and disassembly shows the word that would be executed,
not the one in memory. -/
theorem C108_once (env : Env σ) (hkeep : ∀ a b, env.keep a b = true) (m0 : Machine σ) (calls : List (Call σ)) (rs : List (Req σ))
    (hr : calls.map asks = rs.map some) :
    let x := Decoding.session env.sem rs ⟨m0, fun _ => none⟩
    ∃ s, execCalls env calls (fresh m0) = .ok (s, 0) ∧ s.status = .halted ∧ s.m = x.m ∧
      s.instret = Decoding.executed env.sem rs ⟨m0, fun _ => none⟩ ∧
      (∀ n : Int, 0 < n → ∃ s', step env n s = .ok (.ok (x.count env.sem n.toNat), s') ∧
        s'.m = (x.run env.sem (x.count env.sem n.toNat)).m) ∧
      ∀ a, (disasm env a s).1 = .ok (x.at a) := by
  intro x
  obtain ⟨s, e, hst, hf, hi⟩ := calls_free (onceTwin env hkeep) calls rs (fresh m0) ⟨m0, fun _ => none⟩ hr
    (free_fresh (onceTwin env hkeep).toTwin (x := ⟨m0, fun _ => none⟩) rfl) rfl (once_ok env hkeep rs _)
  rw [once_session] at hf
  rw [once_executed] at hi
  refine ⟨s, e, hst, hf.m, by rw [hi]; simp [fresh], ?_, ?_⟩
  · intro n hn
    obtain ⟨s', e', -, hf', -⟩ := step_free (onceTwin env hkeep).toTwin hf hst n hn (fun _ _ => trivial)
    rw [once_count] at e' hf'
    refine ⟨s', e', ?_⟩
    rw [hf'.m, once_run]; rfl
  · intro a
    have hm : s.m = x.m := hf.m
    have hc : s.cache = x.seen := hf.cache
    unfold disasm
    simp only [hst, ne_eq, not_true_eq_false, if_false, hf.bps, Bool.false_eq_true]
    unfold getInst Decoding.at
    rw [← hc, ← hm]
    cases s.cache a <;> rfl

/-- C108, any decode cache: if wherever an instruction is executed or disassembled more than once the word in memory is the same each
time, then the session is the execution from memory, exactly: a program may load code and then execute it, and the debugger may load a
program, as long as no code is replaced after it was executed or disassembled. -/
theorem C108_steady (env : Env σ) (m0 : Machine σ) (calls : List (Call σ)) (rs : List (Req σ)) (hr : calls.map asks = rs.map some)
    (hs : Unchanging (decodes env.sem rs m0)) :
    ∃ s, execCalls env calls (fresh m0) = .ok (s, 0) ∧ s.status = .halted ∧ s.m = session env.sem rs m0 ∧
      s.instret = executed env.sem rs m0 := by
  obtain ⟨s, e, hst, hf, hi⟩ := calls_free (steadyTwin env) calls rs (fresh m0) (m0, []) hr
    (free_fresh (steadyTwin env).toTwin (x := (m0, [])) (by intro a w h; cases h)) rfl
    (steady_ok env hs rs (m0, []) (by simp) (fun p hp => hp))
  obtain ⟨e1, e2⟩ := steady_session env rs (m0, [])
  refine ⟨s, e, hst, hf.m.trans e1, ?_⟩
  rw [hi, e2]; simp [fresh]

/-- C108, the reply of `Step` after such a session, when the step also finds the words it found before. -/
theorem C108_steady_step (env : Env σ) (m0 : Machine σ) (calls : List (Call σ)) (rs : List (Req σ)) (hr : calls.map asks = rs.map some)
    (n : Int) (hn : 0 < n) (hs : Unchanging (decodes env.sem (rs ++ [.go n.toNat]) m0)) :
    let m := session env.sem rs m0
    ∃ s s', execCalls env calls (fresh m0) = .ok (s, 0) ∧ step env n s = .ok (.ok (count env.sem n.toNat m), s') ∧
      s'.m = run env.sem (count env.sem n.toNat m) m := by
  intro m
  have key : ∀ (l : List (Req σ)) (x : Machine σ × List (Nat × BitVec 32)), (steadyTwin env).okAll (l ++ [.go n.toNat]) x →
      (steadyTwin env).okAll l x ∧ (steadyTwin env).okReq (.go n.toNat) ((steadyTwin env).session l x) := by
    intro l
    induction l with
    | nil => exact fun x h => ⟨trivial, h.1⟩
    | cons r l ih => exact fun x h => ⟨⟨h.1, (ih _ h.2).1⟩, (ih _ h.2).2⟩
  obtain ⟨k1, k2⟩ := key rs (m0, []) (steady_ok env hs _ (m0, []) (by simp) (fun p hp => hp))
  obtain ⟨s, e, hst, hf, -⟩ := calls_free (steadyTwin env) calls rs (fresh m0) (m0, []) hr
    (free_fresh (steadyTwin env).toTwin (x := (m0, [])) (by intro a w h; cases h)) rfl k1
  obtain ⟨s', e', -, hf', -⟩ := step_free (steadyTwin env).toTwin hf hst n hn k2
  have em : ((steadyTwin env).session rs (m0, [])).1 = m := (steady_session env rs (m0, [])).1
  rw [steady_count, em] at e'
  refine ⟨s, s', e, e', ?_⟩
  rw [hf'.m]
  show ((steadyTwin env).run _ _).1 = _
  rw [(steady_run env _ _).1, steady_count, em]

/-! ## A loader -/

/-- The register is a sum. Words: 1 puts the word 2 at address 8, 5 changes the word at address 8 from 2 to 3 and back, 2 adds one, 3
adds a hundred, 4 jumps to 0. -/
def loadSem : Sem Nat where
  inst w _ m :=
    if w = 1 then ({ m with mem := fun q => if q = 8 then 2 else m.mem q }, [])
    else if w = 5 then ({ m with mem := fun q => if q = 8 then (if m.mem 8 = 2 then 3 else 2) else m.mem q }, [])
    else if w = 2 then ({ m with regs := m.regs + 1 }, [])
    else if w = 3 then ({ m with regs := m.regs + 100 }, [])
    else if w = 4 then ({ m with pc := 0 }, [])
    else (m, [])

def loadMem (b : BitVec 8) : Nat → BitVec 8 := fun q => if q = 0 then b else if q = 4 then 2 else if q = 8 then 3 else if q = 12 then 4 else 0

/-- The program writes its third instruction before it executes it. -/
def loader : Machine Nat := ⟨0, loadMem 1, 0⟩

/-- The program changes its third instruction again and again. -/
def changer : Machine Nat := ⟨0, loadMem 5, 0⟩

def loadEnv : Env Nat := ⟨loadSem, fun _ _ => true⟩

def loadCalls : List (Call Nat) := [.dbg (.run 6), .dbg (.step 2), .poke 8 [3], .dbg (.disasm 4), .dbg (.step 4), .pc 0, .dbg (.step 8)]

def loadReqs : List (Req Nat) := [.go 6, .go 2, .edit (.mem 8 [3]), .look 4, .go 4, .edit (.pc 0), .go 8]

theorem load_asks : loadCalls.map asks = loadReqs.map some := by
  simp [loadCalls, loadReqs, asks, Model.DebugMem.maxAddr]

theorem load_steady : Unchanging (decodes loadSem loadReqs loader) := by
  unfold Unchanging; decide +kernel

/-- The loader is executed as it should be, although it and the debugger write code: even the debugger's write to address 8 is undone by
the program before the instruction there is executed again. -/
example : ∃ s, execCalls loadEnv loadCalls (fresh loader) = .ok (s, 0) ∧ s.m.regs = 10 ∧ s.instret = 20 := by
  obtain ⟨s, e, -, hm, hi⟩ := C108_steady loadEnv loader loadCalls loadReqs load_asks load_steady
  refine ⟨s, e, ?_, ?_⟩
  · rw [hm]; decide +kernel
  · rw [hi]; decide +kernel

/-- For the program that replaces code it has executed the condition fails, and the two ways of executing it differ: from memory the third
instruction adds one and a hundred in turn, the machine that decodes once, and so the core, always adds one. -/
theorem C108_stale :
    (session loadSem [.go 8] changer).regs = 103 ∧ (Decoding.session loadSem [.go 8] ⟨changer, fun _ => none⟩).m.regs = 4 ∧
      ∃ s, execCalls loadEnv [.dbg (.run 8)] (fresh changer) = .ok (s, 0) ∧ s.m.regs = 4 := by
  refine ⟨by decide +kernel, by decide +kernel, ?_⟩
  obtain ⟨s, e, -, hm, -⟩ := C108_once loadEnv (fun _ _ => rfl) changer [.dbg (.run 8)] [.go 8] rfl
  exact ⟨s, e, by rw [hm]; decide +kernel⟩

end Verif.Props
