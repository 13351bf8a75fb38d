import Verif.Proofs.TopBp
import Verif.Proofs.TopDemo
import Verif.Proofs.Threads

/-!
# C44-C47 and C63: breakpoints, stepping, running

A session is a list of debugger calls on a core that was reset with machine state `m0` (`execAll env ops (fresh m0)`).
`run env.sem i m0` is the program after `i` instructions without a debugger. `Shows s.bps s.m m` says that the debugger
sees exactly the machine `m`, with `ebreak` over the armed breakpoints.
-/

namespace Verif.Props

open Verif.Model.Top Verif.Model.Threads Verif.Proofs.Top Verif.Proofs.Threads
open Verif.Spec.Program (Machine Sem Ev Stop word ebreak next run TameAt Tame Quiet Shows armed Apart)

variable {σ : Type}

/-- The value of an `ok` outcome, for the examples. -/
def okOr {α : Type} (d : α) : Outcome α → α
  | .ok a => a
  | _ => d

def isUb {α : Type} : Outcome α → Bool
  | .ub => true
  | _ => false

/-- The halt reason reported for what an instruction asks for. -/
def reasonOf : Stop → HaltReason
  | .ev .userRequest => .userRequest
  | .ev .semihostExit => .semihostHaltRequest
  | .fault => .haltAbort

theorem reasonOf_eq (x : Stop) : reasonOf x = stopReason x := by
  cases x with
  | ev e => cases e <;> rfl
  | fault => rfl

/-! ## C44 -/

/-- C44 for lists of set and clear requests whose words do not overlap (missing: overlapping requests, for which the
claim is false, see `C44_overlap`). Afterwards the armed addresses are those whose last request was a set; each holds
`ebreak`; every other byte is the original one. -/
theorem C44_set_clear_partial (m : Machine σ) (l : List (Bool × Nat))
    (hl : ∀ r ∈ l, ∀ r' ∈ l, Apart r.2 r'.2) :
    (∀ a, (bpOps l (fresh m)).bps a = armed l a) ∧
    (∀ a, armed l a = true → word (bpOps l (fresh m)).m.mem a = ebreak) ∧
    (∀ q, (∀ a, armed l a = true → ¬ (a ≤ q ∧ q < a + 4)) → (bpOps l (fresh m)).m.mem q = m.mem q) ∧
    (bpOps l (fresh m)).m.pc = m.pc ∧ (bpOps l (fresh m)).m.regs = m.regs := by
  have hA : ∀ a b, (∃ r ∈ l, r.2 = a) → (∃ r ∈ l, r.2 = b) → Apart a b := by
    rintro a b ⟨r, hr, rfl⟩ ⟨r', hr', rfl⟩; exact hl r hr r' hr'
  obtain ⟨h, hb⟩ := bpOps_inv hA l (bpInv_fresh _ m) (fun r hr _ => ⟨r, hr, rfl⟩)
  have hb' : ∀ a, (bpOps l (fresh m)).bps a = armed l a := hb
  refine ⟨hb', fun a ha => ?_, fun q hq => ?_, h.pc, h.regs⟩
  · exact (h.bp a (by rw [hb']; exact ha)).2.1
  · exact h.mem q (fun a ha => hq a (by rw [← hb']; exact ha))

/-- C44: in particular, when every set is followed by a clear, memory is what it was. -/
theorem C44_restores_partial (m : Machine σ) (l : List (Bool × Nat)) (hl : ∀ r ∈ l, ∀ r' ∈ l, Apart r.2 r'.2)
    (hc : ∀ a, armed l a = false) : (bpOps l (fresh m)).m = m := by
  obtain ⟨h1, h2, h3, h4, h5⟩ := C44_set_clear_partial m l hl
  have hm : (bpOps l (fresh m)).m.mem = m.mem := funext fun q => h3 q (fun a ha => by rw [hc] at ha; cases ha)
  cases hs : (bpOps l (fresh m)).m with
  | mk a b c =>
    rw [hs] at hm h4 h5
    cases m
    simp only at hm h4 h5
    subst hm h4 h5; rfl

example : (bpOps [(true, 4), (true, 8), (false, 4), (true, 4), (false, 8), (false, 4)] (fresh demo)).m = demo :=
  C44_restores_partial demo _ (by decide) (by
    intro a
    simp only [armed, List.foldl]
    by_cases h4 : 4 = a
    · simp [h4]
    · by_cases h8 : 8 = a <;> simp [h4, h8])

/-- C44 for whole sessions of setting, clearing, stepping, running and disassembling (missing: the calls excluded by
`LegalAll`, for which it is false, see below). The session has no undefined behaviour; what the debugger sees afterwards
is the program after some number `j` of its own instructions, with `ebreak` over the armed words; once no breakpoint is
left it is exactly the program's state. The instruction counter is `j` plus one for each stop at a breakpoint. -/
theorem C44_session_partial (env : Env σ) (C : Nat → Bool) (m0 : Machine σ) (ht : Tame env.sem C m0) (ops : List Op)
    (hl : LegalAll env C ops (fresh m0)) :
    ∃ j s hits, execAll env ops (fresh m0) = .ok (s, hits) ∧ Shows s.bps s.m (run env.sem j m0) ∧
      ((∀ a, s.bps a = false) → s.m = run env.sem j m0) ∧ s.instret = j + hits := by
  obtain ⟨j, s, hits, e, hg, hi⟩ := execAll_good ops (good_fresh ht) hl
  exact ⟨j, s, hits, e, hg.rel.shows, hg.rel.eq, by rw [hi]; simp [fresh]⟩

/-- The session of the examples: a breakpoint on the store, run into it, disassemble, run on for two instructions, clear
it. -/
def demoOps : List Op := [.setBp 4, .run 10, .disasm 4, .run 2, .clearBp 4]

def demo1 : St Nat := okOr (fresh demo) (exec demoEnv (.setBp 4) (fresh demo))
def demo2 : St Nat := okOr (fresh demo) (exec demoEnv (.run 10) demo1)
def demo3 : St Nat := okOr (fresh demo) (exec demoEnv (.disasm 4) demo2)
def demo4 : St Nat := okOr (fresh demo) (exec demoEnv (.run 2) demo3)
def demo5 : St Nat := okOr (fresh demo) (exec demoEnv (.clearBp 4) demo4)

theorem demo_legal : LegalAll demoEnv demoC demoOps (fresh demo) := by
  refine LegalAll.cons (s1 := demo1) ?_ rfl (LegalAll.cons (s1 := demo2) ?_ rfl (LegalAll.cons (s1 := demo3) trivial rfl
    (LegalAll.cons (s1 := demo4) ?_ rfl (LegalAll.cons (s1 := demo5) ?_ rfl trivial))))
  · exact ⟨rfl, rfl, by decide +kernel, fun h => absurd rfl h⟩
  · intro h; exact absurd h (by decide +kernel)
  · intro _; decide +kernel
  · intro h; exact absurd h.1 (by decide +kernel)

example : ∃ j s hits, execAll demoEnv demoOps (fresh demo) = .ok (s, hits) ∧
    Shows s.bps s.m (run demoSem j demo) ∧ ((∀ a, s.bps a = false) → s.m = run demoSem j demo) ∧
    s.instret = j + hits :=
  C44_session_partial demoEnv demoC demo demo_tame demoOps demo_legal

/-- The session stops once at the breakpoint, with the pc on it, and ends after four instructions of the program. -/
example : demo2.m.pc = 4 ∧ demo2.reason = .softwareBreakpoint ∧ demo2.instret = 2 ∧
    demo5.instret = 5 ∧ demo5.m.regs = 2 ∧ demo5.m.mem 0x100 = 1 ∧ word demo5.m.mem 4 = 0x10a00023#32 := by
  decide +kernel

/-- C44: disassembling an address shows the program's word, armed or not, and changes nothing visible. -/
theorem C44_disassembly_partial (env : Env σ) (C : Nat → Bool) (m0 : Machine σ) (ht : Tame env.sem C m0)
    (ops : List Op) (hl : LegalAll env C ops (fresh m0)) (s : St σ) (hits : Nat)
    (hs : execAll env ops (fresh m0) = .ok (s, hits)) (a : Nat) (ha : a % 4 = 0) (hC : C a = true) :
    ∃ j, Shows s.bps s.m (run env.sem j m0) ∧ (disasm env a s).1 = .ok (word (run env.sem j m0).mem a) ∧
      Shows s.bps (disasm env a s).2.m (run env.sem j m0) ∧ (disasm env a s).2.bps = s.bps := by
  obtain ⟨j, s', hits', e, hg, -⟩ := execAll_good ops (good_fresh ht) hl
  rw [hs] at e; injection e with e; injection e with e1 e2; subst e1
  obtain ⟨c, mem, e, hr, hd⟩ := disasm_rel env hg.rel hg.status a
  exact ⟨j, hg.rel.shows, hd ha hC, by rw [e]; exact hr.shows, by rw [e]⟩

example : (match (disasm demoEnv 4 demo2).1 with | .ok w => w | .error _ => 0) = 0x10a00023#32 ∧
    word demo2.m.mem 4 = ebreak := by
  decide +kernel

/-- C44 is false for overlapping words: set 0x100, set 0x102, clear both, and a byte of memory has changed. -/
theorem C44_overlap :
    (bpOps [(true, 0x100), (true, 0x102), (false, 0x100), (false, 0x102)] (fresh demo)).m.mem 0x102 = 0x10 ∧
    demo.mem 0x102 = 0 ∧ ∀ a, armed [(true, 0x100), (true, 0x102), (false, 0x100), (false, 0x102)] a = false := by
  refine ⟨by decide +kernel, by decide +kernel, fun a => ?_⟩
  simp only [armed, List.foldl]
  by_cases h4 : 0x100 = a
  · simp [← h4]
  · by_cases h8 : 0x102 = a <;> simp [h4, h8]

/-- C44 is false when memory is written between two uses of a breakpoint: the word first saved is restored over the new
one. -/
theorem C44_stale_word :
    let poked := pokeMem 4 [0x13, 0, 0, 0] (bpOps [(true, 4), (false, 4)] (fresh demo))
    word poked.m.mem 4 = 0x13#32 ∧ word (bpOps [(true, 4), (false, 4)] poked).m.mem 4 = 0x10a00023#32 := by
  decide +kernel

/-- C44 is false when the breakpoint at which the core has stopped is cleared: resuming writes `ebreak` back although
no breakpoint is set. -/
theorem C44_clear_at_stop :
    let s := okOr (fresh demo) (exec demoEnv (.run 1) (okOr (fresh demo) (exec demoEnv (.clearBp 4) demo2)))
    word s.m.mem 4 = ebreak ∧ s.bps 4 = false := by
  decide +kernel

/-! ## C45 -/

/-- C45: a step count of zero or less, or a core that is not halted, is refused without effect. -/
theorem C45_rejects (env : Env σ) (n : Int) (s : St σ) :
    (n ≤ 0 → step env n s = .ok (.error .invalidArgument, s)) ∧
    (0 < n → s.status ≠ .halted → step env n s = .ok (.error .failedPrecondition, s)) := by
  constructor
  · intro h; unfold step; rw [if_pos h]
  · intro h h'; unfold step; rw [if_neg (by omega), if_pos h']

example : step demoEnv (-3) (fresh demo) = .ok (.error .invalidArgument, fresh demo) :=
  (C45_rejects demoEnv (-3) (fresh demo)).1 (by omega)

/-- C45 after any session, from a state that is not a breakpoint stop (missing: stepping from a breakpoint stop, for
which it is false, see `C45_step_one_ub` and `C45_step_leaves_pc_behind`; and the count reported at a breakpoint is one
too many, as the `ebreak` is counted). `Step(n)` reports at most `n`, leaves the core halted, and either executes
exactly `n` instructions because nothing stops it, or ends with the first instruction that asks for a halt, or in front
of the first breakpoint. -/
theorem C45_step_partial (env : Env σ) (C : Nat → Bool) (m0 : Machine σ) (ht : Tame env.sem C m0) (ops : List Op)
    (hl : LegalAll env C ops (fresh m0)) (s : St σ) (hits : Nat) (hs : execAll env ops (fresh m0) = .ok (s, hits))
    (hr : s.reason ≠ .softwareBreakpoint) (n : Int) (hn : 0 < n) :
    ∃ i k j s', Shows s.bps s.m (run env.sem i m0) ∧ step env n s = .ok (.ok k, s') ∧ (k : Int) ≤ n ∧
      s'.status = .halted ∧ s'.bps = s.bps ∧ Shows s.bps s'.m (run env.sem (i + j) m0) ∧
      ((k = j ∧ (j : Int) = n ∧ Quiet env.sem s.bps (run env.sem i m0) j ∧ s'.reason = .none ∧
          s'.instret = s.instret + j) ∨
       (k = j ∧ 0 < j ∧ Quiet env.sem s.bps (run env.sem i m0) (j - 1) ∧
          (∃ h : (next env.sem (run env.sem (i + (j - 1)) m0)).2 ≠ [], s'.reason = reasonOf (List.getLast _ h)) ∧
          s'.instret = s.instret + j) ∨
       (k = j + 1 ∧ Quiet env.sem s.bps (run env.sem i m0) j ∧ s.bps (run env.sem (i + j) m0).pc.toNat = true ∧
          s'.reason = .softwareBreakpoint ∧ s'.instret = s.instret + j + 1)) := by
  obtain ⟨i, s2, hits', e, hg, -⟩ := execAll_good ops (good_fresh ht) hl
  rw [hs] at e; injection e with e; injection e with e1 e2; subst e1
  obtain ⟨k, j, s', e, hr', hst, hb, -, hk, hkn, hres⟩ :=
    step_clean env hg.rel hg.tame hg.status (hg.clean hr) hr n hn
  have hsh := hr'.shows
  rw [hb, ← run_add] at hsh
  refine ⟨i, k, j, s', hg.rel.shows, e, hk, hst, hb, hsh, ?_⟩
  cases hres with
  | quiet h1 h2 h3 h4 h5 h6 => exact Or.inl ⟨h1, by rw [← h1]; exact hkn h4, h2, h5, h3⟩
  | event h1 h2 h3 h4 h5 h6 h7 h8 h9 =>
    rw [← run_add] at h5 h8
    exact Or.inr (Or.inl ⟨h1, h2, h3, ⟨h5, by rw [h8, reasonOf_eq, lastReason_getLast _ _ h5]⟩, h6⟩)
  | bp h1 h2 h3 h4 h5 h6 h7 =>
    rw [← run_add] at h3
    exact Or.inr (Or.inr ⟨h1, h2, h3, h6, h4⟩)

example : ∃ i k j s', Shows demo5.bps demo5.m (run demoSem i demo) ∧ step demoEnv 7 demo5 = .ok (.ok k, s') ∧
    (k : Int) ≤ 7 ∧ s'.status = .halted ∧ Shows demo5.bps s'.m (run demoSem (i + j) demo) := by
  have h : execAll demoEnv demoOps (fresh demo) = .ok (demo5, 1) := rfl
  obtain ⟨i, k, j, s', h1, h2, h3, h4, -, h5, -⟩ :=
    C45_step_partial demoEnv demoC demo demo_tame demoOps demo_legal demo5 1 h (by decide +kernel) 7 (by omega)
  exact ⟨i, k, j, s', h1, h2, h3, h4, h5⟩

/-- C45 for a breakpoint stop whose instruction asks for a halt: that one instruction is executed. -/
theorem C45_step_from_stop_partial (env : Env σ) (C : Nat → Bool) (m0 : Machine σ) (ht : Tame env.sem C m0)
    (ops : List Op) (hl : LegalAll env C ops (fresh m0)) (s : St σ) (hits : Nat)
    (hs : execAll env ops (fresh m0) = .ok (s, hits)) (hr : s.reason = .softwareBreakpoint) (n : Int) (hn : 0 < n) :
    ∃ i, Shows s.bps s.m (run env.sem i m0) ∧ ∀ h : (next env.sem (run env.sem i m0)).2 ≠ [],
      ∃ s', step env n s = .ok (.ok 1, s') ∧ s'.status = .halted ∧ s'.bps = s.bps ∧
        Shows s.bps s'.m (run env.sem (i + 1) m0) ∧ s'.reason = reasonOf (List.getLast _ h) := by
  obtain ⟨i, s2, hits', e, hg, -⟩ := execAll_good ops (good_fresh ht) hl
  rw [hs] at e; injection e with e; injection e with e1 e2; subst e1
  have hst := hg.stopped hr
  refine ⟨i, hg.rel.shows, fun h => ?_⟩
  obtain ⟨s', e, h1, h2, h3, -, -, h6, -⟩ :=
    step_stopped_event env hg.rel hg.tame hg.status hst.1 hst.2 n hn h
  have hsh := h1.shows
  rw [h3, ← run_succ] at hsh
  exact ⟨s', e, h2, h3, hsh, by rw [h6, reasonOf_eq, lastReason_getLast _ _ h]⟩

/-- C45 is false from a breakpoint stop: stepping one ordinary instruction uses an uninitialised variable as the pc, for
every program and every legal session. -/
theorem C45_step_one_ub (env : Env σ) (C : Nat → Bool) (m0 : Machine σ) (ht : Tame env.sem C m0) (ops : List Op)
    (hl : LegalAll env C ops (fresh m0)) (s : St σ) (hits : Nat) (hs : execAll env ops (fresh m0) = .ok (s, hits))
    (hr : s.reason = .softwareBreakpoint) :
    ∃ i, Shows s.bps s.m (run env.sem i m0) ∧
      ((next env.sem (run env.sem i m0)).2 = [] → step env 1 s = .ub) := by
  obtain ⟨i, s2, hits', e, hg, -⟩ := execAll_good ops (good_fresh ht) hl
  rw [hs] at e; injection e with e; injection e with e1 e2; subst e1
  have hst := hg.stopped hr
  exact ⟨i, hg.rel.shows, step_stopped_one env hg.rel hg.tame hg.status hst.1 hr hst.2⟩

example : isUb (step demoEnv 1 demo2) = true := by decide +kernel

/-- C45 is false from a breakpoint stop for larger counts too: all `n` instructions are executed, but the pc is left on
the last of them instead of behind it. -/
theorem C45_step_leaves_pc_behind (env : Env σ) (C : Nat → Bool) (m0 : Machine σ) (ht : Tame env.sem C m0)
    (ops : List Op) (hl : LegalAll env C ops (fresh m0)) (s : St σ) (hits : Nat)
    (hs : execAll env ops (fresh m0) = .ok (s, hits)) (hr : s.reason = .softwareBreakpoint) (n : Nat) (hn : 2 ≤ n) :
    ∃ i, Shows s.bps s.m (run env.sem i m0) ∧
      ((next env.sem (run env.sem i m0)).2 = [] → Quiet env.sem s.bps (run env.sem (i + 1) m0) (n - 1) →
        ∃ s', step env n s = .ok (.ok n, s') ∧ s'.m.regs = (run env.sem (i + n) m0).regs ∧
          s'.m.pc = (run env.sem (i + (n - 1)) m0).pc) := by
  obtain ⟨i, s2, hits', e, hg, -⟩ := execAll_good ops (good_fresh ht) hl
  rw [hs] at e; injection e with e; injection e with e1 e2; subst e1
  have hst := hg.stopped hr
  refine ⟨i, hg.rel.shows, fun h1 h2 => ?_⟩
  rw [run_succ] at h2
  obtain ⟨s', e, g1, g2, -⟩ := step_stopped_quiet env hg.rel hg.tame hg.status hst.1 hr hst.2 n hn h1 h2
  rw [← run_add] at g1 g2
  exact ⟨s', e, g2, g1⟩

/-- After `Step(2)` from the stop at 4 the jump at 8 has been executed, yet the pc is 8 and not 0. -/
example : let s := (okOr (.ok 0, fresh demo) (step demoEnv 2 demo2)).2
    s.m.pc = 8 ∧ s.instret = 4 ∧ (run demoSem 3 demo).pc = 0 := by
  decide +kernel

/-! ## C46 -/

/-- C46: a second `Run` is refused without effect, and a running core refuses register and breakpoint access. -/
theorem C46_running_refused (env : Env σ) (w : World σ) (h : w.core.status = .running) (a v : Nat) :
    runAct env w = (.error .failedPrecondition, w) ∧ readPc w.core = .error .failedPrecondition ∧
    writePc v w.core = (.error .failedPrecondition, w.core) ∧ setBp a w.core = (.error .failedPrecondition, w.core) ∧
    clearBp a w.core = (.error .failedPrecondition, w.core) ∧
    ∀ n : Int, 0 < n → step env n w.core = .ok (.error .failedPrecondition, w.core) := by
  refine ⟨?_, ?_, ?_, ?_, ?_, fun n hn => (C45_rejects env n w.core).2 hn (by rw [h]; simp)⟩
  · unfold runAct runStart; rw [if_pos h]
  · unfold readPc; rw [if_pos (by rw [h]; simp)]
  · unfold writePc; rw [if_pos (by rw [h]; simp)]
  · unfold setBp; rw [if_pos (by rw [h]; simp)]
  · unfold clearBp; rw [if_pos (by rw [h]; simp)]

/-- C46: in every schedule, the status is `running` exactly while one run thread works on the core, and never
`singleStep` between calls. -/
theorem C46_status (env : Env σ) (m0 : Machine σ) (l : List Act) (w : World σ)
    (h : acts env l (initial (fresh m0)) = .ok w) :
    (w.core.status = .running ↔ ∃ i, i < w.n ∧ active (w.thr i)) ∧ w.core.status ≠ .singleStep ∧
    ∀ i j, i < w.n → j < w.n → active (w.thr i) → active (w.thr j) → i = j := by
  have hi := acts_inv env l (inv_initial rfl (by simp [fresh]) (fun h => by cases h)) h
  refine ⟨⟨fun hr => ⟨w.n - 1, by have := (hi.run hr).1; omega, (hi.run hr).2⟩, ?_⟩, hi.ns, ?_⟩
  · rintro ⟨i, h1, h2⟩; exact (hi.thr i h1 h2).2
  · intro i j h1 h2 h3 h4
    have := (hi.thr i h1 h3).1; have := (hi.thr j h2 h4).1; omega

/-- C46: registers and memory are accessible exactly when halted: on a halted core the accesses are accepted, and no
step of any run thread changes the core, in every schedule. -/
theorem C46_halted_access (env : Env σ) (m0 : Machine σ) (l : List Act) (w : World σ)
    (h : acts env l (initial (fresh m0)) = .ok w) (hs : w.core.status = .halted) :
    readPc w.core = .ok w.core.m.pc ∧ (∀ v, (writePc v w.core).1 = .ok () ∧
      (writePc v w.core).2.m = { w.core.m with pc := BitVec.ofNat 32 v }) ∧
    ∀ i w', act env (.thr i) w = .ok w' → w'.core = w.core := by
  have hi := acts_inv env l (inv_initial rfl (by simp [fresh]) (fun h => by cases h)) h
  refine ⟨?_, fun v => ?_, fun i w' e => ?_⟩
  · unfold readPc; rw [if_neg (by simp [hs])]
  · unfold writePc; rw [if_neg (by simp [hs])]
    dsimp only
    split <;> exact ⟨rfl, rfl⟩
  · exact (thrAct_halted env hi (by rw [hs]; simp) e).1

/-- A run into the breakpoint at 4: the caller sets it and starts the run; the thread takes ten steps. -/
def demoRun : List Act := [.setBp 4, .run] ++ List.replicate 10 (.thr 0)

def demoW : World Nat := okOr (initial (fresh demo)) (acts demoEnv demoRun (initial (fresh demo)))

example : acts demoEnv demoRun (initial (fresh demo)) = .ok demoW ∧ demoW.core.status = .halted ∧ demoW.n = 1 ∧
    demoW.core.m.pc = 4 ∧ (demoW.thr 0).lbl = .notify := by
  refine ⟨rfl, ?_⟩
  decide +kernel

example : let w := okOr (initial (fresh demo)) (acts demoEnv [.run, .thr 0, .thr 0] (initial (fresh demo)))
    w.core.status = .running ∧ active (w.thr 0) := by
  decide +kernel

/-- C46: once `Halt` has raised the flag of a running core, the run ends. In every continuation in which the caller
starts nothing else, five steps of the run thread suffice, and at most one more instruction is executed, whatever the
caller does meanwhile. -/
theorem C46_halt_stops (env : Env σ) (m0 : Machine σ) (l : List Act) (w : World σ)
    (h : acts env l (initial (fresh m0)) = .ok w) (hr : w.core.status = .running) (hh : w.core.halted = true)
    (l' : List Act) (hl' : ∀ a ∈ l', a ≠ .run ∧ ∀ k, a ≠ .step k) (hc : 5 ≤ l'.count (.thr (w.n - 1))) (w' : World σ)
    (h' : acts env l' w = .ok w') :
    w'.core.status = .halted ∧ w'.core.instret ≤ w.core.instret + 1 := by
  have hi := acts_inv env l (inv_initial rfl (by simp [fresh]) (fun h => by cases h)) h
  have hst : ∀ a ∈ l', starts a = false := by
    intro a ha
    have := hl' a ha
    cases a with
    | run => exact absurd rfl this.1
    | step k => exact absurd rfl (this.2 k)
    | _ => rfl
  have hrank : ∀ x, rank x ≤ 6 := by intro x; cases x <;> decide
  have hbud : ∀ x, budget x ≤ 1 := by intro x; cases x <;> decide
  have r := acts_stopping env l' hi hr hh hst (by have := hrank (w.thr (w.n - 1)).lbl; omega) h'
  exact ⟨r.1, Nat.le_trans r.2 (by have := hbud (w.thr (w.n - 1)).lbl; omega)⟩

/-- A halt that arrives while an instruction is about to be executed. -/
example :
    let w := okOr (initial (fresh demo))
      (acts demoEnv [.run, .thr 0, .thr 0, .halt, .cont, .cont] (initial (fresh demo)))
    let w' := okOr (initial (fresh demo)) (acts demoEnv (List.replicate 5 (.thr 0)) w)
    w.core.status = .running ∧ w.core.halted = true ∧ w'.core.status = .halted ∧ w'.core.instret = 1 ∧
      w'.core.m.pc = 4 := by
  decide +kernel

/-- C46 for callers that start a run only after the thread of the previous one has ended and do not step from a
breakpoint stop (missing: other callers, for which it is false, see `C46_wait_early`). No schedule has undefined
behaviour, and `Wait` returns only when the core is halted. -/
theorem C46_wait_partial (env : Env σ) (m0 : Machine σ) (l : List Act)
    (hd : DisciplinedAll env l (initial (fresh m0))) :
    ∃ w, acts env l (initial (fresh m0)) = .ok w ∧
      ∀ w', w.user = .waiting → act env .cont w = .ok w' → w'.user = .idle →
        w.core.status = .halted ∧ w'.core = w.core := by
  obtain ⟨w, e, hi, hdc⟩ := acts_disc env l (inv_initial rfl (by simp [fresh]) (fun h => by cases h))
    (disc_initial (fresh m0)) hd
  refine ⟨w, e, fun w' hu e' hu' => ?_⟩
  unfold act at e'
  rw [hu] at e'
  exact wait_returns hi hdc hu e' hu'

/-- A caller that runs, waits, and returns from `Wait` after the thread has finished. -/
example : DisciplinedAll demoEnv ([.setBp 4, .run, .wait]) (initial (fresh demo)) ∧
    (okOr (initial (fresh demo)) (acts demoEnv ([.setBp 4, .run, .wait] ++ List.replicate 10 (.thr 0) ++ [.cont])
      (initial (fresh demo)))).user = .waiting ∧
    (okOr (initial (fresh demo)) (acts demoEnv ([.setBp 4, .run, .wait] ++ List.replicate 11 (.thr 0) ++ [.cont])
      (initial (fresh demo)))).user = .idle := by
  refine ⟨⟨fun _ => trivial, fun w1 e => ⟨fun _ => Or.inr fun i hi => ?_, fun w2 _ => ⟨fun _ => trivial, fun _ _ =>
    trivial⟩⟩⟩, by decide +kernel, by decide +kernel⟩
  have : w1.n = 0 := by
    unfold act at e
    simp only [initial] at e
    injection e with e; rw [← e]
  omega

/-- C46: the caller's step that returns from `Wait` destroys the object of the run and leaves the core without one, and nothing else
destroys an object. -/
theorem C46_wait_frees (env : Env σ) (a : Act) (w w' : World σ) (h : act env a w = .ok w') :
    (∀ q, w'.deleted q = true → w.deleted q = false →
      a = .cont ∧ w.user = .waiting ∧ w'.user = .idle ∧ w.ptr = some q ∧ w'.ptr = none) ∧
    (w.user = .waiting → a = .cont → w'.user = .idle → ∃ p, w.ptr = some p ∧ w'.ptr = none ∧ w'.deleted p = true) := by
  have keep : w'.deleted = w.deleted → ¬ (w.user = .waiting ∧ a = .cont ∧ w'.user = .idle) → (∀ q, w'.deleted q = true →
      w.deleted q = false → a = .cont ∧ w.user = .waiting ∧ w'.user = .idle ∧ w.ptr = some q ∧ w'.ptr = none) ∧
      (w.user = .waiting → a = .cont → w'.user = .idle → ∃ p, w.ptr = some p ∧ w'.ptr = none ∧ w'.deleted p = true) := by
    intro e hn
    refine ⟨fun q h1 h2 => ?_, fun h1 h2 h3 => absurd ⟨h1, h2, h3⟩ hn⟩
    rw [e, h2] at h1
    cases h1
  unfold act at h
  split at h
  · refine keep ?_ (fun hh => by cases hh.2.1)
    unfold thrAct at h
    split at h
    · injection h with h; rw [h]
    · split at h
      · split at h
        · cases h
        · split at h
          · cases h
          · split at h
            · cases h
            · injection h with h; rw [← h]
      · rename_i i _ _
        cases e : thrStep env (w.thr i) w.core with
        | ok r => rw [e] at h; injection h with h; rw [← h]
        | ub => rw [e] at h; cases h
        | abort => rw [e] at h; cases h
  · next hu => injection h with h; exact keep (by rw [← h]) (fun hh => by rw [hu] at hh; cases hh.1)
  · next hu => injection h with h; exact keep (by rw [← h]) (fun hh => by rw [hu] at hh; cases hh.1)
  · next hu =>
    unfold waitAct at h
    split at h
    · cases h
    · next p hp =>
      split at h
      · cases h
      · split at h
        · injection h with h
          subst h
          refine ⟨fun q h1 h2 => ?_, fun _ _ _ => ⟨p, hp, rfl, by simp [setAt]⟩⟩
          by_cases hq : q = p
          · subst hq; exact ⟨rfl, hu, rfl, hp, rfl⟩
          · simp only [setAt, hq, if_false] at h1
            rw [h2] at h1; cases h1
        · injection h with h
          subst h
          exact keep rfl (fun hh => by rw [hu] at hh; cases hh.2.2)
  · next hu => injection h with h; exact keep (by rw [← h]) (fun hh => by rw [hu] at hh; cases hh.1)
  · injection h with h
    refine keep ?_ (fun hh => by cases hh.2.1)
    rw [← h]; unfold runAct; dsimp only; split <;> rfl
  · injection h with h
    refine keep ?_ (fun hh => by cases hh.2.1)
    rw [← h]; split <;> rfl
  · injection h with h
    refine keep ?_ (fun hh => by cases hh.2.1)
    rw [← h]; split <;> rfl
  · refine keep ?_ (fun hh => by cases hh.2.1)
    rename_i k _
    cases e : step env k w.core with
    | ok r => rw [e] at h; injection h with h; rw [← h]
    | ub => rw [e] at h; cases h
    | abort => rw [e] at h; cases h
  · injection h with h; exact keep (by rw [← h]) (fun hh => by cases hh.2.1)
  · injection h with h; exact keep (by rw [← h]) (fun hh => by cases hh.2.1)
  · injection h with h; exact keep (by rw [← h]) (fun hh => by cases hh.2.1)
  · injection h with h
    subst h
    refine keep rfl (fun hh => ?_)
    rw [hh.1] at hh
    cases hh.2.2

/-- After the run of the previous example has been waited for, its object is gone. -/
example : let w := okOr (initial (fresh demo)) (acts demoEnv ([.setBp 4, .run, .wait] ++ List.replicate 11 (.thr 0) ++ [.cont])
      (initial (fresh demo)))
    w.deleted 0 = true ∧ w.ptr = none := by
  decide +kernel

/-- C46 is false for a caller that does not know the previous thread's progress: the run ends, `Wait` returns at once
because the status is halted, `Run` is called again, and then the old thread notifies the new run's object. The next
`Wait` returns while the core is running, and the new thread's own notification is undefined behaviour. -/
theorem C46_wait_early :
    let early : List Act := demoRun ++ [.wait, .run, .thr 0, .wait, .cont]
    let w := okOr (initial (fresh demo)) (acts demoEnv early (initial (fresh demo)))
    (okOr (initial (fresh demo)) (acts demoEnv (demoRun ++ [.wait, .run, .thr 0, .wait])
      (initial (fresh demo)))).user = .waiting ∧
    w.user = .idle ∧ w.core.status = .running ∧
    isUb (acts demoEnv (early ++ List.replicate 14 (.thr 1)) (initial (fresh demo))) = true := by
  decide +kernel

/-! ## C47 -/

/-- C47 (missing: the sessions excluded by `LegalAll`, for which it is false, see below): when the core has stopped at a
breakpoint, a breakpoint is armed at the pc, and the program has not executed the instruction there. -/
theorem C47_stop_partial (env : Env σ) (C : Nat → Bool) (m0 : Machine σ) (ht : Tame env.sem C m0) (ops : List Op)
    (hl : LegalAll env C ops (fresh m0)) (s : St σ) (hits : Nat) (hs : execAll env ops (fresh m0) = .ok (s, hits))
    (hr : s.reason = .softwareBreakpoint) :
    ∃ i, s.bps s.m.pc.toNat = true ∧ Shows s.bps s.m (run env.sem i m0) ∧ s.instret = i + hits := by
  obtain ⟨i, s2, hits', e, hg, hi⟩ := execAll_good ops (good_fresh ht) hl
  rw [hs] at e; injection e with e; injection e with e1 e2; subst e1 e2
  refine ⟨i, ?_, hg.rel.shows, by rw [hi]; simp [fresh]⟩
  rw [hg.rel.pc]; exact (hg.stopped hr).2

/-- C47 (missing as above): resuming with `Run` from a breakpoint stop executes the instruction under the breakpoint
once and goes on from there; every breakpoint stays armed; the run then ends after `k` further instructions by `Halt`,
or with the first instruction that asks for a halt, or in front of the first breakpoint. -/
theorem C47_resume_partial (env : Env σ) (C : Nat → Bool) (m0 : Machine σ) (ht : Tame env.sem C m0) (ops : List Op)
    (hl : LegalAll env C ops (fresh m0)) (s : St σ) (hits : Nat) (hs : execAll env ops (fresh m0) = .ok (s, hits))
    (hr : s.reason = .softwareBreakpoint) (k : Nat) :
    ∃ i j s', Shows s.bps s.m (run env.sem i m0) ∧ runHalt env k s = .ok (.ok (), s') ∧ s'.status = .halted ∧
      s'.bps = s.bps ∧ Shows s.bps s'.m (run env.sem (i + 1 + j) m0) ∧
      ((j = k ∧ Quiet env.sem s.bps (run env.sem (i + 1) m0) j ∧ s'.reason = .userRequest) ∨
       (0 < j ∧ j ≤ k ∧ Quiet env.sem s.bps (run env.sem (i + 1) m0) (j - 1) ∧
          ∃ h : (next env.sem (run env.sem (i + 1 + (j - 1)) m0)).2 ≠ [], s'.reason = reasonOf (List.getLast _ h)) ∨
       (j < k ∧ Quiet env.sem s.bps (run env.sem (i + 1) m0) j ∧
          s.bps (run env.sem (i + 1 + j) m0).pc.toNat = true ∧ s'.reason = .softwareBreakpoint)) := by
  obtain ⟨i, s2, hits', e, hg, hi⟩ := execAll_good ops (good_fresh ht) hl
  rw [hs] at e; injection e with e; injection e with e1 e2; subst e1
  have hst := hg.stopped hr
  obtain ⟨j, s', e, h1, h2, h3, -, -, hres⟩ := run_stopped env hg.rel hg.tame hg.status hst.1 hst.2 k
  have hsh := h1.shows
  rw [h3, ← run_add, ← Nat.add_assoc] at hsh
  rw [← run_succ] at hres
  refine ⟨i, j, s', hg.rel.shows, e, h2, h3, hsh, ?_⟩
  cases hres with
  | user h1 h2 h3 h4 => exact Or.inl ⟨h1, h2, h4⟩
  | event h1 h2 h3 h4 h5 h6 h7 =>
    rw [← run_add] at h5 h7
    exact Or.inr (Or.inl ⟨h1, h2, h3, h5, by rw [h7, reasonOf_eq, lastReason_getLast _ _ h5]⟩)
  | bp h1 h2 h3 h4 h5 =>
    rw [← run_add] at h3
    exact Or.inr (Or.inr ⟨h1, h2, h3, h5⟩)

/-- C47: a run from any other state of a session, likewise. -/
theorem C47_run_partial (env : Env σ) (C : Nat → Bool) (m0 : Machine σ) (ht : Tame env.sem C m0) (ops : List Op)
    (hl : LegalAll env C ops (fresh m0)) (s : St σ) (hits : Nat) (hs : execAll env ops (fresh m0) = .ok (s, hits))
    (hr : s.reason ≠ .softwareBreakpoint) (k : Nat) :
    ∃ i j s', Shows s.bps s.m (run env.sem i m0) ∧ runHalt env k s = .ok (.ok (), s') ∧ s'.status = .halted ∧
      s'.bps = s.bps ∧ Shows s.bps s'.m (run env.sem (i + j) m0) ∧
      ((j = k ∧ Quiet env.sem s.bps (run env.sem i m0) j ∧ s'.reason = .userRequest) ∨
       (0 < j ∧ j ≤ k ∧ Quiet env.sem s.bps (run env.sem i m0) (j - 1) ∧
          ∃ h : (next env.sem (run env.sem (i + (j - 1)) m0)).2 ≠ [], s'.reason = reasonOf (List.getLast _ h)) ∨
       (j < k ∧ Quiet env.sem s.bps (run env.sem i m0) j ∧
          s.bps (run env.sem (i + j) m0).pc.toNat = true ∧ s'.reason = .softwareBreakpoint)) := by
  obtain ⟨i, s2, hits', e, hg, hi⟩ := execAll_good ops (good_fresh ht) hl
  rw [hs] at e; injection e with e; injection e with e1 e2; subst e1
  obtain ⟨j, s', e, h1, h2, h3, -, -, hres⟩ := run_clean env hg.rel hg.tame hg.status (hg.clean hr) k
  have hsh := h1.shows
  rw [h3, ← run_add] at hsh
  refine ⟨i, j, s', hg.rel.shows, e, h2, h3, hsh, ?_⟩
  cases hres with
  | user h1 h2 h3 h4 => exact Or.inl ⟨h1, h2, h4⟩
  | event h1 h2 h3 h4 h5 h6 h7 =>
    rw [← run_add] at h5 h7
    exact Or.inr (Or.inl ⟨h1, h2, h3, h5, by rw [h7, reasonOf_eq, lastReason_getLast _ _ h5]⟩)
  | bp h1 h2 h3 h4 h5 =>
    rw [← run_add] at h3
    exact Or.inr (Or.inr ⟨h1, h2, h3, h5⟩)

/-- The stop of the example session and its resumption. -/
example : execAll demoEnv [.setBp 4, .run 10] (fresh demo) = .ok (demo2, 1) ∧ demo2.reason = .softwareBreakpoint ∧
    demo2.m.pc = 4 ∧ demo4.m.pc = 4 ∧ demo4.m.regs = 2 ∧ demo4.m.mem 0x100 = 1 ∧ word demo4.m.mem 4 = ebreak := by
  refine ⟨rfl, ?_⟩
  decide +kernel

/-- C47: the sequential run-then-halt used above is one of the schedules of caller and run thread. -/
theorem C47_run_is_schedule (env : Env σ) (k : Nat) (w : World σ) (hu : w.user = .idle) (s' : St σ)
    (h : runHalt env k w.core = .ok (.ok (), s')) :
    ∃ l w', acts env l w = .ok w' ∧ w'.core = s' ∧ w'.user = .idle ∧ (w'.thr w.n).lbl = .notify := by
  obtain ⟨l, w', h1, h2, h3, -, h5⟩ := runHalt_schedule env k w hu s' h
  exact ⟨l, w', h1, h2, h3, h5⟩

/-- The program of the counterexample: `mpause` at 0, then nothing. -/
def pauseMem : Machine Nat := ⟨0, fun q => [0x73#8, 0, 0, 0x08].getD q 0, 0⟩

/-- C47 is false for an instruction that asks for a halt: with a breakpoint on an `mpause`, `Run` from the stop executes
it and goes on as if it had not asked (here: for five more instructions, until `Halt`). -/
theorem C47_run_drops_halt :
    let s1 := okOr (fresh pauseMem) (exec demoEnv (.setBp 0) (fresh pauseMem))
    let s2 := okOr (fresh pauseMem) (exec demoEnv (.run 3) s1)
    let s3 := okOr (fresh pauseMem) (exec demoEnv (.run 5) s2)
    s2.reason = .softwareBreakpoint ∧ s2.m.pc = 0 ∧ (next demoSem (run demoSem 0 pauseMem)).2 = [.ev .userRequest] ∧
      s3.m.pc = 24 ∧ s3.instret = 7 := by
  decide +kernel

/-- C47 is false after the pc has been written at a breakpoint stop: resuming arms an `ebreak` at the new pc, where no
breakpoint was set, and from then on the program is damaged. -/
theorem C47_write_pc :
    let s1 := (writePc 8 demo2).2
    let s2 := okOr (fresh demo) (exec demoEnv (.run 1) s1)
    word demo2.m.mem 8 = 0xff9ff06f#32 ∧ word s2.m.mem 8 = ebreak ∧ s2.bps 8 = false := by
  decide +kernel

/-- C47 is false when `Halt` arrives between the stop at a breakpoint and the thread's end: the pc is moved past the
breakpoint although the instruction there was never executed. -/
theorem C47_halt_race :
    let w := okOr (initial (fresh demo)) (acts demoEnv
      ([.setBp 4, .run] ++ List.replicate 6 (.thr 0) ++ [.halt, .cont, .cont] ++ List.replicate 4 (.thr 0))
      (initial (fresh demo)))
    w.core.status = .halted ∧ w.core.reason = .userRequest ∧ w.core.m.pc = 8 ∧ w.core.m.mem 0x100 = 0 ∧
      (run demoSem 2 demo).pc = 8 ∧ (run demoSem 2 demo).mem 0x100 = 1 := by
  decide +kernel

/-! ## C63 -/

/-- C63 for words that have not been decoded yet (missing: words in the decode cache, for which it is false, see
`C63_stale_decode`): what is fetched at an address is the word last written there by a debug memory write. -/
theorem C63_written_code_partial (env : Env σ) (s : St σ) (a : Nat) (b0 b1 b2 b3 : BitVec 8)
    (hc : s.cache a = none) :
    (getInst env a (pokeMem a [b0, b1, b2, b3] s)).1 = b3 ++ b2 ++ b1 ++ b0 := by
  unfold getInst
  have : (pokeMem a [b0, b1, b2, b3] s).cache a = none := hc
  rw [this]
  unfold word pokeMem
  simp

example : (getInst demoEnv 8 (pokeMem 8 [0x13, 0, 0, 0] demo2)).1 = 0x13#32 := by decide +kernel

/-- C63 is false for code that was executed before: the old instruction goes on being executed. -/
theorem C63_stale_decode :
    let s1 := okOr (fresh demo) (exec demoEnv (.step 3) (fresh demo))
    let s2 := pokeMem 0 [0x13, 0, 0, 0] s1
    let s3 := okOr (fresh demo) (exec demoEnv (.step 1) s2)
    s2.m.pc = 0 ∧ word s2.m.mem 0 = 0x13#32 ∧ s2.m.regs = 1 ∧ s3.m.regs = 2 := by
  decide +kernel

end Verif.Props
