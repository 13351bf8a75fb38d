import Verif.Proofs.Top

/-!
# Sequential execution under the debugger: `Step` and `Run`
-/

namespace Verif.Proofs.Top

open Verif.Model.Top
open Verif.Spec.Program (Machine Sem Ev Stop word ebreak next run TameAt Tame Quiet)

variable {σ : Type}

theorem run_add (sem : Sem σ) : ∀ (a b : Nat) (m : Machine σ), run sem (a + b) m = run sem b (run sem a m)
  | 0, b, m => by rw [Nat.zero_add]; rfl
  | a + 1, b, m => by
    rw [show a + 1 + b = (a + b) + 1 by omega]
    show run sem (a + b) (next sem m).1 = run sem b (run sem a (next sem m).1)
    exact run_add sem a b _

theorem run_succ (sem : Sem σ) (k : Nat) (m : Machine σ) : run sem (k + 1) m = (next sem (run sem k m)).1 := by
  rw [run_add sem k 1 m]; rfl

theorem Tame.run {C : Nat → Bool} {sem : Sem σ} {m : Machine σ} (h : Tame sem C m) (j : Nat) :
    Tame sem C (Verif.Spec.Program.run sem j m) := by
  intro k; rw [← run_add]; exact h (j + k)

theorem Tame.next {C : Nat → Bool} {sem : Sem σ} {m : Machine σ} (h : Tame sem C m) :
    Tame sem C (Verif.Spec.Program.next sem m).1 := Tame.run h 1

/-- Tame up to and including the first instruction that asks for a halt. -/
def TameQ (sem : Sem σ) (C : Nat → Bool) (m : Machine σ) : Prop :=
  ∀ k, (∀ i < k, (next sem (run sem i m)).2 = []) → TameAt sem C (run sem k m)

theorem tameQ_of {C : Nat → Bool} {sem : Sem σ} {m : Machine σ} (h : Tame sem C m) : TameQ sem C m := fun k _ => h k

theorem TameQ.at {C : Nat → Bool} {sem : Sem σ} {m : Machine σ} (h : TameQ sem C m) : TameAt sem C m :=
  h 0 (fun _ hi => absurd hi (Nat.not_lt_zero _))

theorem TameQ.next {C : Nat → Bool} {sem : Sem σ} {m : Machine σ} (h : TameQ sem C m)
    (he : (Verif.Spec.Program.next sem m).2 = []) : TameQ sem C (Verif.Spec.Program.next sem m).1 := by
  intro k hk
  refine h (k + 1) fun i hi => ?_
  cases i with
  | zero => exact he
  | succ i => exact hk i (by omega)

theorem Quiet.zero (sem : Sem σ) (bps : Nat → Bool) (m : Machine σ) : Quiet sem bps m 0 := by
  intro i hi; omega

theorem Quiet.cons {sem : Sem σ} {bps : Nat → Bool} {m : Machine σ} {j : Nat} (h1 : (next sem m).2 = [])
    (h2 : bps m.pc.toNat = false) (h : Quiet sem bps (next sem m).1 j) : Quiet sem bps m (j + 1) := by
  intro i hi
  cases i with
  | zero => exact ⟨h1, h2⟩
  | succ i => exact h i (by omega)

/-- What execution leaves alone; `d` instructions (the `ebreak` of a breakpoint included) were counted. -/
structure Frame (s s' : St σ) (d : Nat) : Prop where
  bps : s'.bps = s.bps
  orig : s'.orig = s.orig
  status : s'.status = s.status
  instret : s'.instret = s.instret + d

theorem Frame.trans {s s' s'' : St σ} {d e : Nat} (h : Frame s s' d) (h' : Frame s' s'' e) :
    Frame s s'' (d + e) :=
  ⟨h'.bps.trans h.bps, h'.orig.trans h.orig, h'.status.trans h.status, by rw [h'.instret, h.instret]; omega⟩

theorem Reports.frame {s s' : St σ} {l : List Stop} (h : Reports s s' l) : Frame s s' 1 :=
  ⟨h.bps, h.orig, h.status, h.instret⟩

theorem lastReason_ne {r : HaltReason} {l : List Stop} (h : l ≠ []) :
    lastReason r l ≠ .softwareBreakpoint ∧ lastReason r l ≠ .actionPoint ∧ lastReason r l ≠ .none ∧
      lastReason r l = lastReason .none l := by
  obtain ⟨l', a, rfl⟩ : ∃ l' a, l = l' ++ [a] := ⟨l.dropLast, l.getLast h, (List.dropLast_concat_getLast h).symm⟩
  have : ∀ r, lastReason r (l' ++ [a]) = stopReason a := by
    intro r; simp [lastReason, List.foldl_append]
  rw [this, this]
  cases a with
  | ev e => cases e <;> simp [stopReason, evReason]
  | fault => simp [stopReason]

/-- How the execution loop can end. -/
inductive LoopRes (env : Env σ) (C : Nat → Bool) (n count : Nat) (last : Option Nat) (s : St σ) (m : Machine σ) :
    Nat × Option Nat × Nat × St σ → Prop
  | quiet (j : Nat) (s' : St σ) (hn : count + j = n) (hq : Quiet env.sem s.bps m j)
      (hr : Rel env.sem C s' (run env.sem j m)) (hf : Frame s s' j) (hh : s'.halted = false) (hre : s'.reason = s.reason)
      (hso : s'.stepOver = s.stepOver) :
      LoopRes env C n count last s m
        (n, if j = 0 then last else some (run env.sem (j - 1) m).pc.toNat, (run env.sem j m).pc.toNat, s')
  | event (j : Nat) (s' : St σ) (hn : count + j + 1 ≤ n) (hq : Quiet env.sem s.bps m j)
      (hb : s.bps (run env.sem j m).pc.toNat = false) (he : (next env.sem (run env.sem j m)).2 ≠ [])
      (hr : Rel env.sem C s' (run env.sem (j + 1) m)) (hf : Frame s s' (j + 1)) (hh : s'.halted = true)
      (hre : s'.reason = lastReason .none (next env.sem (run env.sem j m)).2) (hso : s'.stepOver = s.stepOver) :
      LoopRes env C n count last s m
        (count + j + 1, some (run env.sem j m).pc.toNat, (run env.sem (j + 1) m).pc.toNat, s')
  | bp (j : Nat) (s' : St σ) (hn : count + j + 1 ≤ n) (hq : Quiet env.sem s.bps m j)
      (hb : s.bps (run env.sem j m).pc.toNat = true)
      (hr : Rel env.sem C (setPc (run env.sem j m).pc.toNat s') (run env.sem j m)) (hf : Frame s s' (j + 1))
      (hh : s'.halted = true) (hre : s'.reason = .softwareBreakpoint) (hso : s'.stepOver = true) :
      LoopRes env C n count last s m
        (count + j + 1, some (run env.sem j m).pc.toNat, s'.m.pc.toNat, s')

theorem execLoop_simQ (env : Env σ) (C : Nat → Bool) (reset : Bool) (n : Nat) :
    ∀ (fuel count : Nat) (last : Option Nat) (s : St σ) (m : Machine σ), Rel env.sem C s m → TameQ env.sem C m →
      s.halted = false → count ≤ n → n ≤ count + fuel →
      LoopRes env C n count last s m (execLoop env reset n fuel count last m.pc.toNat s)
  | 0, count, last, s, m, hr, _, hh, h1, h2 => by
    have e : count = n := by omega
    subst e
    have := LoopRes.quiet (env := env) (C := C) (n := count) (count := count) (last := last) (s := s) (m := m) 0 s
      (by omega) (Quiet.zero _ _ _) hr ⟨rfl, rfl, rfl, rfl⟩ hh rfl rfl
    exact this
  | fuel + 1, count, last, s, m, hr, ht, hh, h1, h2 => by
    rw [execLoop]
    by_cases hc : n ≤ count
    · rw [if_pos (Or.inr hc)]
      have e : count = n := by omega
      subst e
      have := LoopRes.quiet (env := env) (C := C) (n := count) (count := count) (last := last) (s := s) (m := m) 0 s
        (by omega) (Quiet.zero _ _ _) hr ⟨rfl, rfl, rfl, rfl⟩ hh rfl rfl
      exact this
    · rw [if_neg (by simp [hh]; omega)]
      by_cases hb : s.bps m.pc.toNat = true
      · obtain ⟨q1, q2, q3, q4, q5, q6, q7, q8⟩ := fetchExec_bp env hr hb
        simp only [q6, q7]
        rw [if_neg (by simp), if_neg (by decide)]
        have := LoopRes.bp (env := env) (C := C) (n := n) (count := count) (last := last) (s := s) (m := m) 0 _
          (by omega) (Quiet.zero _ _ _) hb q1 ⟨q2, q3, q4, q5⟩ q6 q7 q8
        exact this
      · have hb' : s.bps m.pc.toNat = false := by simpa using hb
        obtain ⟨r1, r2⟩ := fetchExec_plain env hr ht.at hb'
        by_cases he : (next env.sem m).2 = []
        · have hh' : (fetchExec env m.pc.toNat s).halted = false := by rw [r2.halted, hh, he]; rfl
          simp only [hh']
          rw [if_pos (by simp)]
          have hre' : (fetchExec env m.pc.toNat s).reason = s.reason := by rw [r2.reason, he]; rfl
          have ih := execLoop_simQ env C reset n fuel (count + 1) (some m.pc.toNat) (fetchExec env m.pc.toNat s)
            (next env.sem m).1 r1 (ht.next he) hh' (by omega) (by omega)
          rw [← r1.pc] at ih
          generalize execLoop env reset n fuel (count + 1) (some m.pc.toNat) (fetchExec env m.pc.toNat s).m.pc.toNat
            (fetchExec env m.pc.toNat s) = res at ih
          cases ih with
          | quiet j s' hn hq hr' hf hh2 hre hso =>
            rw [r2.bps] at hq
            have := LoopRes.quiet (env := env) (C := C) (n := n) (count := count) (last := last) (s := s) (m := m)
              (j + 1) s' (by omega) (Quiet.cons he hb' hq) hr'
              (by have := r2.frame.trans hf; rwa [Nat.add_comm 1] at this) hh2 (hre.trans hre')
              (hso.trans r2.stepOver)
            have hl : (if j = 0 then some m.pc.toNat
                else some (run env.sem (j - 1) (next env.sem m).1).pc.toNat) =
                some (run env.sem j m).pc.toNat := by
              cases j with
              | zero => rfl
              | succ j => rfl
            rw [hl]
            exact this
          | event j s' hn hq hb2 he2 hr' hf hh2 hre hso =>
            rw [r2.bps] at hq hb2
            have := LoopRes.event (env := env) (C := C) (n := n) (count := count) (last := last) (s := s) (m := m)
              (j + 1) s' (by omega) (Quiet.cons he hb' hq) hb2 he2 hr'
              (by have := r2.frame.trans hf; rwa [Nat.add_comm 1] at this) hh2 hre (hso.trans r2.stepOver)
            rw [show count + (j + 1) + 1 = count + 1 + j + 1 by omega] at this
            exact this
          | bp j s' hn hq hb2 hr' hf hh2 hre hso =>
            rw [r2.bps] at hq hb2
            have := LoopRes.bp (env := env) (C := C) (n := n) (count := count) (last := last) (s := s) (m := m)
              (j + 1) s' (by omega) (Quiet.cons he hb' hq) hb2 hr'
              (by have := r2.frame.trans hf; rwa [Nat.add_comm 1] at this) hh2 hre hso
            rw [show count + (j + 1) + 1 = count + 1 + j + 1 by omega] at this
            exact this
        · have hh' : (fetchExec env m.pc.toNat s).halted = true := by
            rw [r2.halted]
            cases h' : (next env.sem m).2 with
            | nil => exact absurd h' he
            | cons a l => simp
          have hne := lastReason_ne (r := s.reason) he
          have hre' := r2.reason
          simp only [hh']
          rw [if_neg (by simp), if_neg (by rw [hre']; exact hne.2.1)]
          have := LoopRes.event (env := env) (C := C) (n := n) (count := count) (last := last) (s := s) (m := m)
            0 _ (by omega) (Quiet.zero _ _ _) hb' he r1 r2.frame hh' (hre'.trans hne.2.2.2) r2.stepOver
          rw [r1.pc]
          exact this

theorem execLoop_sim (env : Env σ) (C : Nat → Bool) (reset : Bool) (n : Nat) (fuel count : Nat) (last : Option Nat) (s : St σ)
    (m : Machine σ) (hr : Rel env.sem C s m) (ht : Tame env.sem C m) (hh : s.halted = false) (h1 : count ≤ n) (h2 : n ≤ count + fuel) :
    LoopRes env C n count last s m (execLoop env reset n fuel count last m.pc.toNat s) :=
  execLoop_simQ env C reset n fuel count last s m hr (tameQ_of ht) hh h1 h2

/-- Putting the pc where it already is. -/
theorem rel_setPc {sem : Sem σ} {C : Nat → Bool} {s : St σ} {m : Machine σ} (h : Rel sem C s m) : Rel sem C (setPc m.pc.toNat s) m := by
  refine ⟨?_, h.regs, h.mem, h.bp, h.orig, h.cache, h.clear⟩
  show BitVec.ofNat 32 m.pc.toNat = m.pc
  simp

theorem rel_of_fields {sem : Sem σ} {C : Nat → Bool} {s s' : St σ} {m : Machine σ} (h : Rel sem C s m) (hm : s'.m = s.m)
    (hc : s'.cache = s.cache) (ho : s'.orig = s.orig) (hb : s'.bps = s.bps) : Rel sem C s' m := by
  refine ⟨by rw [hm]; exact h.pc, by rw [hm]; exact h.regs, ?_, ?_, ?_, ?_, by rw [hb]; exact h.clear⟩
  · intro q; rw [hb, hm]; exact h.mem q
  · intro a; rw [hb, hm, ho]; exact h.bp a
  · intro a w; rw [ho]; exact h.orig a w
  · intro a w; rw [hc, hm]; exact h.cache a w

/-- The outcome of a command that executes instructions, relative to the undisturbed program: `j` instructions of the
program were executed and `k` is the count reported. -/
inductive Result (env : Env σ) (C : Nat → Bool) (s : St σ) (m : Machine σ) (k j : Nat) (s' : St σ) : Prop
  /-- the requested number was executed -/
  | quiet (hk : k = j) (hq : Quiet env.sem s.bps m j) (hi : s'.instret = s.instret + j) (hh : s'.halted = false)
      (hre : s'.reason = .none) (hso : s'.stepOver = false)
  /-- the last instruction asked for a halt -/
  | event (hk : k = j) (hj : 0 < j) (hq : Quiet env.sem s.bps m (j - 1))
      (hb : s.bps (run env.sem (j - 1) m).pc.toNat = false)
      (he : (next env.sem (run env.sem (j - 1) m)).2 ≠ []) (hi : s'.instret = s.instret + j) (hh : s'.halted = true)
      (hre : s'.reason = lastReason .none (next env.sem (run env.sem (j - 1) m)).2) (hso : s'.stepOver = false)
  /-- a breakpoint was reached; its `ebreak` is counted -/
  | bp (hk : k = j + 1) (hq : Quiet env.sem s.bps m j) (hb : s.bps (run env.sem j m).pc.toNat = true)
      (hi : s'.instret = s.instret + j + 1) (hh : s'.halted = true) (hre : s'.reason = .softwareBreakpoint)
      (hso : s'.stepOver = true)

theorem stepEnd_other {k : Nat} {last : Option Nat} {nx : Nat} {s : St σ} (h : s.reason ≠ .softwareBreakpoint) :
    stepEnd (k, last, nx, s) = .ok (.ok k, { setPc nx s with
      reason := if s.halted then s.reason else .none, status := .halted }) := by
  unfold stepEnd finishPc
  simp only [h, if_false, Outcome.ok_bind]
  rfl

theorem stepEnd_bp {k : Nat} {p : Nat} {nx : Nat} {s : St σ} (h : s.reason = .softwareBreakpoint) :
    stepEnd (k, some p, nx, s) = .ok (.ok k, { setPc p s with
      reason := if s.halted then s.reason else .none, status := .halted }) := by
  unfold stepEnd finishPc
  dsimp only
  rw [if_pos h]
  rfl

theorem runEnd_other {k : Nat} {last : Option Nat} {nx : Nat} {s : St σ} (hh : s.halted = true)
    (h : s.reason ≠ .softwareBreakpoint) :
    runEnd (k, last, nx, s) = .ok (.ok (), { setPc nx s with status := .halted }) := by
  unfold runEnd finishPc
  simp only [hh, if_true, h, if_false, Outcome.ok_bind]

theorem runEnd_bp {k : Nat} {p : Nat} {nx : Nat} {s : St σ} (hh : s.halted = true)
    (h : s.reason = .softwareBreakpoint) :
    runEnd (k, some p, nx, s) = .ok (.ok (), { setPc p s with status := .halted }) := by
  unfold runEnd finishPc
  simp only [hh, if_true, h, Outcome.ok_bind]

theorem runEnd_halt {k : Nat} {last : Option Nat} {nx : Nat} {s : St σ} (hh : s.halted = false) :
    runEnd (k, last, nx, s) =
      .ok (.ok (), { setPc nx s with halted := true, reason := .userRequest, status := .halted }) := by
  unfold runEnd finishPc
  simp only [hh, Bool.false_eq_true, if_false, haltFlagPart, haltReasonPart, reduceCtorEq, Outcome.ok_bind]
  rfl

/-- `Step` from a state that is not a breakpoint stop. -/
theorem step_clean (env : Env σ) {C : Nat → Bool} {s : St σ} {m : Machine σ} (hr : Rel env.sem C s m)
    (ht : Tame env.sem C m) (hst : s.status = .halted) (hso : s.stepOver = false)
    (hre : s.reason ≠ .softwareBreakpoint) (n : Int) (hn : 0 < n) :
    ∃ k j s', step env n s = .ok (.ok k, s') ∧ Rel env.sem C s' (run env.sem j m) ∧ s'.status = .halted ∧
      s'.bps = s.bps ∧ s'.orig = s.orig ∧ (k : Int) ≤ n ∧ (s'.halted = false → (k : Int) = n) ∧
      Result env C s m k j s' := by
  have hr' : Rel env.sem C ({ s with status := .singleStep, halted := false } : St σ) m := rel_of_fields hr rfl rfl rfl rfl
  have e : step env n s = stepEnd (execLoop env true n.toNat n.toNat 0 none m.pc.toNat
      ({ s with status := .singleStep, halted := false } : St σ)) := by
    unfold step
    rw [if_neg (by omega), if_neg (by simp [hst])]
    simp only [hso, Bool.false_eq_true, if_false, hr.pc]
  rw [e]
  have hsim := execLoop_sim env C true n.toNat n.toNat 0 none
    ({ s with status := .singleStep, halted := false } : St σ) m hr' ht rfl (by omega) (by omega)
  generalize execLoop env true n.toNat n.toNat 0 none m.pc.toNat
    ({ s with status := .singleStep, halted := false } : St σ) = res at hsim
  cases hsim with
  | quiet j s' h1 hq h2 hf hh hre2 hso2 =>
    rw [stepEnd_other (by rw [hre2]; exact hre)]
    refine ⟨n.toNat, j, _, rfl, rel_of_fields (rel_setPc h2) rfl rfl rfl rfl, rfl, hf.bps, hf.orig, by omega,
      fun _ => by omega, ?_⟩
    exact .quiet (by omega) hq hf.instret hh (by simp [hh]) (hso2.trans hso)
  | event j s' h1 hq hb he h2 hf hh hre2 hso2 =>
    rw [stepEnd_other (by rw [hre2]; exact (lastReason_ne he).1)]
    refine ⟨0 + j + 1, j + 1, _, rfl, rel_of_fields (rel_setPc h2) rfl rfl rfl rfl, rfl, hf.bps, hf.orig, by omega,
      fun h => ?_, ?_⟩
    · have h' : s'.halted = false := h
      rw [hh] at h'; cases h'
    · exact .event (by omega) (by omega) hq hb he hf.instret hh (by simp [hh, hre2]) (hso2.trans hso)
  | bp j s' h1 hq hb h2 hf hh hre2 hso2 =>
    rw [stepEnd_bp hre2]
    refine ⟨0 + j + 1, j, _, rfl, rel_of_fields h2 rfl rfl rfl rfl, rfl, hf.bps, hf.orig, by omega, fun h => ?_, ?_⟩
    · have h' : s'.halted = false := h
      rw [hh] at h'; cases h'
    · exact .bp (by omega) hq hb hf.instret hh (by simp [hh, hre2]) hso2

/-- `Step` from a breakpoint stop, when the stepped-past instruction asks for a halt. -/
theorem step_stopped_event (env : Env σ) {C : Nat → Bool} {s : St σ} {m : Machine σ} (hr : Rel env.sem C s m)
    (ht : Tame env.sem C m) (hst : s.status = .halted) (hso : s.stepOver = true) (hb : s.bps m.pc.toNat = true)
    (n : Int) (hn : 0 < n) (he : (next env.sem m).2 ≠ []) :
    ∃ s', step env n s = .ok (.ok 1, s') ∧ Rel env.sem C s' (next env.sem m).1 ∧ s'.status = .halted ∧ s'.bps = s.bps ∧
      s'.orig = s.orig ∧ s'.instret = s.instret + 1 ∧ s'.reason = lastReason .none (next env.sem m).2 ∧
      s'.halted = true ∧ s'.stepOver = false := by
  have hr' : Rel env.sem C ({ s with status := .singleStep, halted := false, stepOver := false } : St σ) m :=
    rel_of_fields hr rfl rfl rfl rfl
  obtain ⟨h1, h2⟩ := stepPast_bp env hr' (ht 0) hb
  have e : step env n s = stepEnd (execLoop env true n.toNat n.toNat 1 none (next env.sem m).1.pc.toNat
      (stepPast env ({ s with status := .singleStep, halted := false, stepOver := false } : St σ))) := by
    unfold step
    rw [if_neg (by omega), if_neg (by simp [hst])]
    simp only [hso, if_true, ← h1.pc]
  have hh : (stepPast env ({ s with status := .singleStep, halted := false, stepOver := false } : St σ)).halted =
      true := by
    rw [h2.halted]
    cases h' : (next env.sem m).2 with
    | nil => exact absurd h' he
    | cons a l => simp
  have hre := h2.reason
  have hne := lastReason_ne (r := s.reason) he
  have hnn : n.toNat = (n.toNat - 1) + 1 := by omega
  rw [e]
  conv => rw [hnn]
  rw [execLoop, if_pos (Or.inl hh), stepEnd_other (by rw [hre]; exact hne.1)]
  exact ⟨_, rfl, rel_of_fields (rel_setPc h1) rfl rfl rfl rfl, rfl, h2.bps, h2.orig, h2.instret,
    by simp only [hh, if_true]; exact hre.trans hne.2.2.2, hh, h2.stepOver⟩

/-- `Step(1)` from a breakpoint stop over an instruction that asks for nothing reads an uninitialised `pc`. -/
theorem step_stopped_one (env : Env σ) {C : Nat → Bool} {s : St σ} {m : Machine σ} (hr : Rel env.sem C s m)
    (ht : Tame env.sem C m) (hst : s.status = .halted) (hso : s.stepOver = true)
    (hre : s.reason = .softwareBreakpoint) (hb : s.bps m.pc.toNat = true) (he : (next env.sem m).2 = []) :
    step env 1 s = .ub := by
  have hr' : Rel env.sem C ({ s with status := .singleStep, halted := false, stepOver := false } : St σ) m :=
    rel_of_fields hr rfl rfl rfl rfl
  obtain ⟨h1, h2⟩ := stepPast_bp env hr' (ht 0) hb
  unfold step
  rw [if_neg (by omega), if_neg (by simp [hst])]
  simp only [hso, if_true]
  have hn1 : (1 : Int).toNat = 0 + 1 := rfl
  rw [hn1, execLoop, if_pos (Or.inr (by omega))]
  unfold stepEnd finishPc
  have : (stepPast env ({ s with status := .singleStep, halted := false, stepOver := false } : St σ)).reason =
      .softwareBreakpoint := by rw [h2.reason, he]; exact hre
  dsimp only
  rw [if_pos this]
  rfl

/-- `Step(n)`, `n ≥ 2`, from a breakpoint stop when the program asks for nothing and meets no breakpoint: all is
executed, but the pc is put back on the last executed instruction. -/
theorem step_stopped_quiet (env : Env σ) {C : Nat → Bool} {s : St σ} {m : Machine σ} (hr : Rel env.sem C s m)
    (ht : Tame env.sem C m) (hst : s.status = .halted) (hso : s.stepOver = true)
    (hre : s.reason = .softwareBreakpoint) (hb : s.bps m.pc.toNat = true) (n : Nat) (hn : 2 ≤ n)
    (he : (next env.sem m).2 = []) (hq : Quiet env.sem s.bps (next env.sem m).1 (n - 1)) :
    ∃ s', step env n s = .ok (.ok n, s') ∧ s'.m.pc = (run env.sem (n - 1) m).pc ∧
      s'.m.regs = (run env.sem n m).regs ∧ s'.instret = s.instret + n := by
  have hr' : Rel env.sem C ({ s with status := .singleStep, halted := false, stepOver := false } : St σ) m :=
    rel_of_fields hr rfl rfl rfl rfl
  obtain ⟨h1, h2⟩ := stepPast_bp env hr' (ht 0) hb
  have e : step env n s = stepEnd (execLoop env true n n 1 none (next env.sem m).1.pc.toNat
      (stepPast env ({ s with status := .singleStep, halted := false, stepOver := false } : St σ))) := by
    unfold step
    rw [if_neg (by omega), if_neg (by simp [hst])]
    simp only [hso, if_true, ← h1.pc, Int.toNat_natCast]
  rw [e]
  have hsim := execLoop_sim env C true n n 1 none _ _ h1 (Tame.next ht)
    (by rw [h2.halted, he]; rfl) (by omega) (by omega)
  generalize execLoop env true n n 1 none (next env.sem m).1.pc.toNat
    (stepPast env ({ s with status := .singleStep, halted := false, stepOver := false } : St σ)) = res at hsim
  have hbps : (stepPast env ({ s with status := .singleStep, halted := false, stepOver := false } : St σ)).bps =
    s.bps := h2.bps
  cases hsim with
  | quiet j s' hj hq' hr2 hf hh hre2 hso2 =>
    have hj' : j = n - 1 := by omega
    subst hj'
    have hsw : s'.reason = .softwareBreakpoint := by rw [hre2, h2.reason, he]; exact hre
    rw [if_neg (by omega), stepEnd_bp hsw]
    obtain ⟨k, rfl⟩ : ∃ k, n = k + 2 := ⟨n - 2, by omega⟩
    refine ⟨_, rfl, ?_, ?_, ?_⟩
    · show BitVec.ofNat 32 (run env.sem (k + 2 - 1 - 1) (next env.sem m).1).pc.toNat = (run env.sem (k + 1) m).pc
      simp only [BitVec.ofNat_toNat, BitVec.setWidth_eq]
      rfl
    · exact hr2.regs
    · show s'.instret = _
      rw [hf.instret, h2.instret]
      show s.instret + 1 + (k + 2 - 1) = _
      omega
  | event j s' hj hq' hb2 he2 =>
    exact absurd (hq j (by omega)).1 he2
  | bp j s' hj hq' hb2 =>
    rw [hbps] at hb2
    rw [(hq j (by omega)).2] at hb2; cases hb2

/-- The outcome of a run, relative to the undisturbed program. -/
inductive RunResult (env : Env σ) (bps : Nat → Bool) (i0 : Nat) (m : Machine σ) (k j : Nat) (s' : St σ) : Prop
  /-- stopped by `Halt` after `k` instructions -/
  | user (hj : j = k) (hq : Quiet env.sem bps m j) (hi : s'.instret = i0 + j) (hre : s'.reason = .userRequest)
      (hso : s'.stepOver = false)
  | event (hj : 0 < j) (hk : j ≤ k) (hq : Quiet env.sem bps m (j - 1))
      (hb : bps (run env.sem (j - 1) m).pc.toNat = false)
      (he : (next env.sem (run env.sem (j - 1) m)).2 ≠ []) (hi : s'.instret = i0 + j)
      (hre : s'.reason = lastReason .none (next env.sem (run env.sem (j - 1) m)).2) (hso : s'.stepOver = false)
  | bp (hk : j < k) (hq : Quiet env.sem bps m j) (hb : bps (run env.sem j m).pc.toNat = true)
      (hi : s'.instret = i0 + j + 1) (hre : s'.reason = .softwareBreakpoint) (hso : s'.stepOver = true)

theorem runLoopQ (env : Env σ) {C : Nat → Bool} {s : St σ} {m : Machine σ} (hr : Rel env.sem C s m) (ht : TameQ env.sem C m)
    (hh : s.halted = false) (hso : s.stepOver = false) (k : Nat) :
    ∃ j s', runEnd (execLoop env false k k 0 none s.m.pc.toNat s) = .ok (.ok (), s') ∧
      Rel env.sem C s' (run env.sem j m) ∧ s'.status = .halted ∧ s'.bps = s.bps ∧ s'.orig = s.orig ∧ s'.halted = true ∧
      RunResult env s.bps s.instret m k j s' := by
  have hsim := execLoop_simQ env C false k k 0 none s m hr ht hh (by omega) (by omega)
  rw [hr.pc]
  generalize execLoop env false k k 0 none m.pc.toNat s = res at hsim
  cases hsim with
  | quiet j s' h1 hq h2 hf hh hre2 hso2 =>
    rw [runEnd_halt hh]
    exact ⟨j, _, rfl, rel_of_fields (rel_setPc h2) rfl rfl rfl rfl, rfl, hf.bps, hf.orig, rfl,
      .user (by omega) hq hf.instret rfl (hso2.trans hso)⟩
  | event j s' h1 hq hb he h2 hf hh hre2 hso2 =>
    rw [runEnd_other hh (by rw [hre2]; exact (lastReason_ne he).1)]
    exact ⟨j + 1, _, rfl, rel_of_fields (rel_setPc h2) rfl rfl rfl rfl, rfl, hf.bps, hf.orig, hh,
      .event (by omega) (by omega) hq hb he hf.instret hre2 (hso2.trans hso)⟩
  | bp j s' h1 hq hb h2 hf hh hre2 hso2 =>
    rw [runEnd_bp hh hre2]
    exact ⟨j, _, rfl, rel_of_fields h2 rfl rfl rfl rfl, rfl, hf.bps, hf.orig, hh,
      .bp (by omega) hq hb hf.instret hre2 hso2⟩

/-- `Run` then `Halt`, from a state that is not a breakpoint stop. -/
theorem run_cleanQ (env : Env σ) {C : Nat → Bool} {s : St σ} {m : Machine σ} (hr : Rel env.sem C s m)
    (ht : TameQ env.sem C m) (hst : s.status = .halted) (hso : s.stepOver = false) (k : Nat) :
    ∃ j s', runHalt env k s = .ok (.ok (), s') ∧
      Rel env.sem C s' (run env.sem j m) ∧ s'.status = .halted ∧ s'.bps = s.bps ∧ s'.orig = s.orig ∧ s'.halted = true ∧
      RunResult env s.bps s.instret m k j s' := by
  have e : runStart env s = (.ok (), { s with status := .running, halted := false }) := by
    unfold runStart
    rw [if_neg (by simp [hst])]
    simp only [hso, Bool.false_eq_true, if_false]
  unfold runHalt
  rw [e]
  exact runLoopQ env (s := { s with status := .running, halted := false })
    (rel_of_fields hr rfl rfl rfl rfl) ht rfl hso k

/-- `Run` then `Halt`, from a breakpoint stop: the instruction under the breakpoint is executed first. What it asks for
is dropped. -/
theorem run_stoppedQ (env : Env σ) {C : Nat → Bool} {s : St σ} {m : Machine σ} (hr : Rel env.sem C s m)
    (h0 : TameAt env.sem C m) (ht : TameQ env.sem C (next env.sem m).1) (hst : s.status = .halted) (hso : s.stepOver = true) (hb : s.bps m.pc.toNat = true)
    (k : Nat) :
    ∃ j s', runHalt env k s = .ok (.ok (), s') ∧
      Rel env.sem C s' (run env.sem (1 + j) m) ∧ s'.status = .halted ∧ s'.bps = s.bps ∧ s'.orig = s.orig ∧
      s'.halted = true ∧ RunResult env s.bps (s.instret + 1) (next env.sem m).1 k j s' := by
  have hr' : Rel env.sem C ({ s with stepOver := false } : St σ) m := rel_of_fields hr rfl rfl rfl rfl
  obtain ⟨h1, h2⟩ := stepPast_bp env hr' h0 hb
  have e : runStart env s =
      (.ok (), { stepPast env { s with stepOver := false } with status := .running, halted := false }) := by
    unfold runStart
    rw [if_neg (by simp [hst])]
    simp only [hso, if_true]
  unfold runHalt
  rw [e]
  obtain ⟨j, s', g1, g2, g3, g4, g5, g6, g7⟩ := runLoopQ env
    (s := { stepPast env { s with stepOver := false } with status := .running, halted := false })
    (rel_of_fields h1 rfl rfl rfl rfl) ht rfl h2.stepOver k
  refine ⟨j, s', g1, ?_, g3, g4.trans h2.bps, g5.trans h2.orig, g6, ?_⟩
  · rw [run_add]; exact g2
  · have hb' : ({ stepPast env { s with stepOver := false } with status := .running, halted := false } : St σ).bps =
      s.bps := h2.bps
    have hi' : ({ stepPast env { s with stepOver := false } with status := .running, halted := false } :
      St σ).instret = s.instret + 1 := h2.instret
    rw [hb', hi'] at g7
    exact g7

theorem run_clean (env : Env σ) {C : Nat → Bool} {s : St σ} {m : Machine σ} (hr : Rel env.sem C s m)
    (ht : Tame env.sem C m) (hst : s.status = .halted) (hso : s.stepOver = false) (k : Nat) :
    ∃ j s', runHalt env k s = .ok (.ok (), s') ∧
      Rel env.sem C s' (run env.sem j m) ∧ s'.status = .halted ∧ s'.bps = s.bps ∧ s'.orig = s.orig ∧ s'.halted = true ∧
      RunResult env s.bps s.instret m k j s' :=
  run_cleanQ env hr (tameQ_of ht) hst hso k

theorem run_stopped (env : Env σ) {C : Nat → Bool} {s : St σ} {m : Machine σ} (hr : Rel env.sem C s m)
    (ht : Tame env.sem C m) (hst : s.status = .halted) (hso : s.stepOver = true) (hb : s.bps m.pc.toNat = true)
    (k : Nat) :
    ∃ j s', runHalt env k s = .ok (.ok (), s') ∧
      Rel env.sem C s' (run env.sem (1 + j) m) ∧ s'.status = .halted ∧ s'.bps = s.bps ∧ s'.orig = s.orig ∧
      s'.halted = true ∧ RunResult env s.bps (s.instret + 1) (next env.sem m).1 k j s' :=
  run_stoppedQ env hr (ht 0) (tameQ_of (Tame.next ht)) hst hso hb k

end Verif.Proofs.Top
