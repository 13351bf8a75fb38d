import Verif.Model.Threads
import Verif.Proofs.TopHist

/-!
# Invariants of the run threads
-/

namespace Verif.Proofs.Threads

open Verif.Model.Top Verif.Model.Threads
open Verif.Proofs.Top (foldl_requestHalt setAt_self setAt_ne writeOriginal_fields)

variable {σ : Type}

/-- A software breakpoint stop is flagged for stepping over. -/
def P (s : St σ) : Prop := s.reason = .softwareBreakpoint → s.stepOver = true

/-- The facts about the halt bookkeeping that execution keeps. -/
structure Keeps (s s' : St σ) : Prop where
  ap : s.reason ≠ .actionPoint → s'.reason ≠ .actionPoint
  p : P s → P s'
  q : (s.halted = true → P s) → s'.halted = true → P s'
  hal : s.halted = true → s'.halted = true
  status : s'.status = s.status

theorem Keeps.refl (s : St σ) : Keeps s s := ⟨id, id, id, id, rfl⟩

theorem Keeps.trans {a b c : St σ} (h : Keeps a b) (h' : Keeps b c) : Keeps a c :=
  ⟨fun x => h'.ap (h.ap x), fun x => h'.p (h.p x), fun x => h'.q (h.q x), fun x => h'.hal (h.hal x),
    h'.status.trans h.status⟩

theorem keeps_of_fields {s s' : St σ} (h1 : s'.reason = s.reason) (h2 : s'.stepOver = s.stepOver)
    (h3 : s'.halted = s.halted) (h4 : s'.status = s.status) : Keeps s s' := by
  refine ⟨?_, ?_, ?_, ?_, h4⟩
  · rw [h1]; exact id
  · unfold P; rw [h1, h2]; exact id
  · unfold P; rw [h1, h2, h3]; exact id
  · rw [h3]; exact id

theorem getInst_keeps (env : Env σ) (a : Nat) (s : St σ) : Keeps s (getInst env a s).2 := by
  unfold getInst
  cases s.cache a <;> exact keeps_of_fields rfl rfl rfl rfl

theorem foldl_ev (l : List Spec.Program.Ev) (r : HaltReason) :
    l = [] ∨ (l.foldl (fun _ e => evReason e) r ≠ .actionPoint ∧
      l.foldl (fun _ e => evReason e) r ≠ .softwareBreakpoint) := by
  by_cases h : l = []
  · exact Or.inl h
  · right
    obtain ⟨l', a, rfl⟩ : ∃ l' a, l = l' ++ [a] := ⟨l.dropLast, l.getLast h, (List.dropLast_concat_getLast h).symm⟩
    rw [List.foldl_append]
    cases a <;> simp [evReason]

theorem execInst_keeps (env : Env σ) (w : BitVec 32) (a : Nat) (s : St σ) : Keeps s (execInst env w a s) := by
  have hf : ∀ f : Spec.Program.Machine σ → Spec.Program.Machine σ × List Spec.Program.Ev,
      Keeps s ((f s.m).2.foldl (fun s e => requestHalt (evReason e) s) { s with m := (f s.m).1 }) := by
    intro f
    rw [foldl_requestHalt]
    rcases foldl_ev (f s.m).2 s.reason with h | ⟨h1, h2⟩
    · rw [h]; exact keeps_of_fields rfl rfl (by simp) rfl
    · refine ⟨fun _ => h1, fun _ h => absurd h h2, fun _ _ h => absurd h h2, ?_, rfl⟩
      intro h; simp [h]
  unfold execInst
  split
  · split
    · exact hf _
    · split
      · refine ⟨fun _ => by simp [requestHalt], ?_, ?_, fun _ => rfl, rfl⟩
        · intro _ _; simp [requestHalt]
        · intro _ _ _; simp [requestHalt]
      · refine ⟨fun _ => by simp [requestHalt], ?_, ?_, fun _ => rfl, rfl⟩
        · intro _ h; simp [requestHalt] at h
        · intro _ _ h; simp [requestHalt] at h
  · exact hf (env.sem w a)

theorem fetchExec_keeps (env : Env σ) (pc : Nat) (s : St σ) : Keeps s (fetchExec env pc s) := by
  unfold fetchExec
  refine (getInst_keeps env pc s).trans (Keeps.trans (b := setPc (pc + 4) (getInst env pc s).2)
    (keeps_of_fields rfl rfl rfl rfl) (Keeps.trans (execInst_keeps env (getInst env pc s).1 pc _)
      (keeps_of_fields rfl rfl rfl rfl)))

theorem stepPast_keeps (env : Env σ) (s : St σ) : Keeps s (stepPast env s) := by
  unfold stepPast
  obtain ⟨f1, f2, f3, f4, f5, f6, f7, f8, f9⟩ := writeOriginal_fields s.m.pc.toNat s
  exact (keeps_of_fields f6 f7 f5 f3).trans ((fetchExec_keeps env _ _).trans (keeps_of_fields rfl rfl rfl rfl))

/-- The loop, from a state whose reason is not an action point. -/
theorem execLoop_keeps (env : Env σ) (reset : Bool) (n : Nat) : ∀ (fuel count : Nat) (last : Option Nat) (nx : Nat)
    (s : St σ), s.reason ≠ .actionPoint → Keeps s (execLoop env reset n fuel count last nx s).2.2.2
  | 0, _, _, _, s, _ => Keeps.refl s
  | fuel + 1, count, last, nx, s, h => by
    rw [execLoop]
    have k := fetchExec_keeps env nx s
    split
    · exact Keeps.refl s
    · dsimp only
      by_cases hh : (!(fetchExec env nx s).halted) = true
      · rw [if_pos hh]; exact k.trans (execLoop_keeps env reset n fuel _ _ _ _ (k.ap h))
      · rw [if_neg hh, if_neg (k.ap h)]
        exact k

/-- If no instruction was executed the state is unchanged. -/
theorem execLoop_last (env : Env σ) (reset : Bool) (n : Nat) : ∀ (fuel count : Nat) (last : Option Nat) (nx : Nat)
    (s : St σ), (execLoop env reset n fuel count last nx s).2.1 = none →
      last = none ∧ (execLoop env reset n fuel count last nx s).2.2.2 = s
  | 0, _, _, _, s, h => ⟨h, rfl⟩
  | fuel + 1, count, last, nx, s, h => by
    rw [execLoop] at h ⊢
    split at h
    · next hc => rw [if_pos hc]; exact ⟨h, rfl⟩
    · dsimp only at h
      by_cases hh : (!(fetchExec env nx s).halted) = true
      · rw [if_pos hh] at h
        exact absurd (execLoop_last env reset n fuel _ _ _ _ h).1 (by simp)
      · rw [if_neg hh] at h
        by_cases ha : (fetchExec env nx s).reason = .actionPoint
        · rw [if_pos ha] at h
          exact absurd (execLoop_last env reset n fuel _ _ _ _ h).1 (by simp)
        · rw [if_neg ha] at h; cases h

theorem stepEnd_inv {r : Nat × Option Nat × Nat × St σ} {x : Except Err Nat × St σ} (h : stepEnd r = .ok x)
    (hap : r.2.2.2.reason ≠ .actionPoint) (hq : r.2.2.2.halted = true → P r.2.2.2) :
    x.2.status = .halted ∧ P x.2 ∧ x.2.reason ≠ .actionPoint := by
  obtain ⟨k, last, nx, s⟩ := r
  unfold stepEnd at h
  have key : ∀ v, ({ setPc v s with reason := if (setPc v s).halted then (setPc v s).reason else .none,
                                    status := .halted } : St σ).status = .halted ∧
      P ({ setPc v s with reason := if (setPc v s).halted then (setPc v s).reason else .none,
                          status := .halted } : St σ) ∧
      ({ setPc v s with reason := if (setPc v s).halted then (setPc v s).reason else .none,
                        status := .halted } : St σ).reason ≠ .actionPoint := by
    intro v
    refine ⟨rfl, ?_, ?_⟩
    · intro hr
      show s.stepOver = true
      have hr' : (if s.halted then s.reason else .none) = HaltReason.softwareBreakpoint := hr
      cases hh : s.halted with
      | true => rw [hh] at hr'; exact hq hh hr'
      | false => rw [hh] at hr'; cases hr'
    · show (if s.halted then s.reason else .none) ≠ HaltReason.actionPoint
      split
      · exact hap
      · simp
  unfold finishPc at h
  dsimp only at h
  split at h
  · split at h
    · rw [Outcome.ok_bind] at h; injection h with h; subst h; exact key _
    · cases h
  · rw [Outcome.ok_bind] at h; injection h with h; subst h; exact key _

theorem step_inv (env : Env σ) {k : Int} {s : St σ} {x : Except Err Nat × St σ} (h : step env k s = .ok x)
    (hap : s.reason ≠ .actionPoint) (hp : s.status = .halted → P s) :
    x.2.status = s.status ∧ (s.status = .halted → P x.2) ∧ x.2.reason ≠ .actionPoint ∧
      (s.status ≠ .halted → x.2 = s) := by
  unfold step at h
  split at h
  · injection h with h; subst h; exact ⟨rfl, hp, hap, fun _ => rfl⟩
  · split at h
    · injection h with h; subst h; exact ⟨rfl, hp, hap, fun _ => rfl⟩
    · next hs =>
      have hs' : s.status = .halted := by simpa using hs
      dsimp only at h
      suffices hk : ∀ (c : Nat) (s0 : St σ), s0.reason ≠ .actionPoint → (s0.halted = true → P s0) →
          stepEnd (execLoop env true k.toNat k.toNat c none s0.m.pc.toNat s0) = .ok x →
          x.2.status = s.status ∧ (s.status = .halted → P x.2) ∧ x.2.reason ≠ .actionPoint ∧
            (s.status ≠ .halted → x.2 = s) by
        cases hso : s.stepOver with
        | false =>
          simp only [hso, Bool.false_eq_true, if_false] at h
          exact hk 0 { s with status := .singleStep, halted := false, stepOver := false } hap (by intro hh; cases hh) h
        | true =>
          simp only [hso, if_true] at h
          have kp := stepPast_keeps env ({ s with status := .singleStep, halted := false, stepOver := false } : St σ)
          exact hk _ _ (kp.ap hap) (kp.q (by intro hh; cases hh)) h
      intro c s0 h1 h2 h3
      have kl := execLoop_keeps env true k.toNat k.toNat c none s0.m.pc.toNat s0 h1
      have := stepEnd_inv h3 (kl.ap h1) (kl.q h2)
      exact ⟨this.1.trans hs'.symm, fun _ => this.2.1, this.2.2, fun hn => absurd hs' hn⟩

/-- `Step` from a state that is not a breakpoint stop has no undefined behaviour. -/
theorem step_ok (env : Env σ) (k : Int) {s : St σ} (hso : s.stepOver = false)
    (hp : s.status = .halted → P s) : ∃ x, step env k s = .ok x := by
  unfold step
  split
  · exact ⟨_, rfl⟩
  · split
    · exact ⟨_, rfl⟩
    · next hs =>
      have hs' : s.status = .halted := by simpa using hs
      have hre : s.reason ≠ .softwareBreakpoint := fun h => by
        have := hp hs' h; rw [hso] at this; cases this
      simp only [hso, Bool.false_eq_true, if_false]
      set s0 : St σ := { s with status := .singleStep, halted := false, stepOver := false } with hs0
      have hl := execLoop_last env true k.toNat k.toNat 0 none s.m.pc.toNat s0
      generalize execLoop env true k.toNat k.toNat 0 none s.m.pc.toNat s0 = r at hl
      obtain ⟨c, last, nx, s1⟩ := r
      unfold stepEnd finishPc
      split
      · next hr =>
        cases last with
        | some p => exact ⟨_, rfl⟩
        | none => exact absurd hr (by rw [(hl rfl).2]; exact hre)
      · exact ⟨_, rfl⟩

/-- The invariant of every schedule. -/
structure Inv (w : World σ) : Prop where
  thr : ∀ i, i < w.n → active (w.thr i) → i + 1 = w.n ∧ w.core.status = .running
  run : w.core.status = .running → 0 < w.n ∧ active (w.thr (w.n - 1))
  ns : w.core.status ≠ .singleStep
  ap : w.core.reason ≠ .actionPoint
  q : w.core.status = .running → w.core.halted = true → P w.core
  p : w.core.status = .halted → P w.core
  h2 : w.user = .halting2 → P w.core ∧
    (w.core.status = .running → (w.thr (w.n - 1)).last = none → w.core.reason ≠ .softwareBreakpoint)
  lst : w.core.status = .running → (w.thr (w.n - 1)).last = none → w.core.halted = true →
    w.core.reason ≠ .softwareBreakpoint
  fin : w.core.status = .running →
    ((w.thr (w.n - 1)).lbl = .chk ∨ (w.thr (w.n - 1)).lbl = .fin ∨ (w.thr (w.n - 1)).lbl = .stat) →
    w.core.halted = true

theorem inv_initial {s : St σ} (h1 : s.status = .halted) (h2 : s.reason ≠ .actionPoint) (h3 : P s) :
    Inv (initial s) := by
  refine ⟨?_, ?_, ?_, h2, ?_, fun _ => h3, ?_, ?_, ?_⟩
  · intro i hi; exact absurd hi (by simp [initial])
  · intro h; simp [initial, h1] at h
  · simp [initial, h1]
  · intro h; simp [initial, h1] at h
  · intro h; simp [initial] at h
  · intro h; simp [initial, h1] at h
  · intro h; simp [initial, h1] at h

/-- Changes of the caller's position and of the notification only. -/
theorem Inv.of_same {w w' : World σ} (h : Inv w) (h1 : w'.core = w.core) (h2 : w'.n = w.n) (h3 : w'.thr = w.thr)
    (h4 : w'.user = .halting2 → w.user = .halting2) : Inv w' := by
  refine ⟨?_, ?_, ?_, ?_, ?_, ?_, ?_, ?_, ?_⟩
  · rw [h1, h2, h3]; exact h.thr
  · rw [h1, h2, h3]; exact h.run
  · rw [h1]; exact h.ns
  · rw [h1]; exact h.ap
  · rw [h1]; exact h.q
  · rw [h1]; exact h.p
  · rw [h1, h2, h3]; exact fun x => h.h2 (h4 x)
  · rw [h1, h2, h3]; exact h.lst
  · rw [h1, h2, h3]; exact h.fin

/-- A call on a halted core that leaves it halted. -/
theorem Inv.of_halted {w : World σ} (h : Inv w) (s : St σ) (h1 : w.core.status = .halted) (h2 : s.status = .halted)
    (h3 : P s) (h4 : s.reason ≠ .actionPoint) (h5 : w.user ≠ .halting2) : Inv { w with core := s } := by
  refine ⟨?_, ?_, ?_, h4, ?_, fun _ => h3, fun x => absurd x h5, ?_, ?_⟩
  · intro i hi ha; have := (h.thr i hi ha).2; rw [h1] at this; cases this
  · intro x; change s.status = _ at x; rw [h2] at x; cases x
  · show s.status ≠ _; rw [h2]; simp
  · intro x; change s.status = _ at x; rw [h2] at x; cases x
  · intro x; change s.status = _ at x; rw [h2] at x; cases x
  · intro x; change s.status = _ at x; rw [h2] at x; cases x

theorem thrAct_inv (env : Env σ) {w w' : World σ} (h : Inv w) {i : Nat} (e : thrAct env i w = .ok w') : Inv w' := by
  unfold thrAct at e
  split at e
  · injection e with e; subst e; exact h
  next hi =>
  have hi' : i < w.n := by omega
  split at e
  · next hl =>
    have hna : ¬ active (w.thr i) := by unfold active; simp [hl]
    split at e
    · cases e
    · split at e
      · cases e
      · split at e
        · cases e
        · injection e with e; subst e
          have hne : w.core.status = .running → w.n - 1 ≠ i := by
            intro hr hh; apply hna; rw [← hh]; exact (h.run hr).2
          refine ⟨?_, ?_, h.ns, h.ap, h.q, h.p, ?_, ?_, ?_⟩
          · intro j hj ha
            dsimp only at ha
            by_cases hji : j = i
            · subst hji; rw [setAt_self] at ha; simp [active] at ha
            · rw [setAt_ne _ _ _ _ hji] at ha; exact h.thr j hj ha
          · intro hr
            refine ⟨(h.run hr).1, ?_⟩
            dsimp only
            rw [setAt_ne _ _ _ _ (hne hr)]; exact (h.run hr).2
          · intro hu
            refine ⟨(h.h2 hu).1, fun hr => ?_⟩
            dsimp only
            rw [setAt_ne _ _ _ _ (hne hr)]; exact (h.h2 hu).2 hr
          · intro hr
            dsimp only
            rw [setAt_ne _ _ _ _ (hne hr)]; exact h.lst hr
          · intro hr
            dsimp only
            rw [setAt_ne _ _ _ _ (hne hr)]; exact h.fin hr
  · next hl =>
    by_cases hd : (w.thr i).lbl = .done
    · unfold thrStep at e
      rw [hd] at e
      simp only [Outcome.ok_bind] at e
      injection e with e; subst e
      rw [Proofs.Top.setAt_eq _ _ _ rfl]
      exact h
    have hact : active (w.thr i) := ⟨hl, hd⟩
    obtain ⟨hn, hr⟩ := h.thr i hi' hact
    have hi1 : w.n - 1 = i := by omega
    have hrun := h.run hr
    rw [hi1] at hrun
    have hh2 := h.h2; have hlst := h.lst hr; have hfin := h.fin hr
    rw [hi1] at hh2 hlst hfin
    -- the new world, once the new thread record and core are known
    have mk : ∀ (t : Thr) (s : St σ), active t → Keeps w.core s → s.reason ≠ .actionPoint →
        (t.last = none → s.halted = true → s.reason ≠ .softwareBreakpoint) →
        (w.user = .halting2 → t.last = none → s.reason ≠ .softwareBreakpoint) →
        ((t.lbl = .chk ∨ t.lbl = .fin ∨ t.lbl = .stat) → s.halted = true) →
        Inv { w with core := s, thr := setAt w.thr i t } := by
      intro t s ha hk hap h1 h2 h3
      have hsr : s.status = .running := hk.status.trans hr
      refine ⟨?_, ?_, ?_, hap, ?_, ?_, ?_, ?_, ?_⟩
      · intro j hj hja
        dsimp only at hja ⊢
        by_cases hji : j = i
        · subst hji; exact ⟨hn, hsr⟩
        · rw [setAt_ne _ _ _ _ hji] at hja
          exact ⟨(h.thr j hj hja).1, hsr⟩
      · intro _
        dsimp only
        rw [hi1, setAt_self]
        exact ⟨hrun.1, ha⟩
      · show s.status ≠ _; rw [hsr]; simp
      · intro _ hh; exact hk.q (h.q hr) hh
      · intro hx; change s.status = _ at hx; rw [hsr] at hx; cases hx
      · intro hu
        dsimp only
        rw [hi1, setAt_self]
        exact ⟨hk.p (hh2 hu).1, fun _ => h2 hu⟩
      · intro _
        dsimp only
        rw [hi1, setAt_self]; exact h1
      · intro _
        dsimp only
        rw [hi1, setAt_self]; exact h3
    have h2' : w.user = .halting2 → (w.thr i).last = none → w.core.reason ≠ .softwareBreakpoint :=
      fun hu => (hh2 hu).2 hr
    unfold thrStep at e
    cases hlb : (w.thr i).lbl with
    | start =>
      rw [hlb] at e; simp only [Outcome.ok_bind] at e; injection e with e; subst e
      exact mk _ _ (by simp [active]) (Keeps.refl _) h.ap hlst h2' (by simp)
    | top =>
      rw [hlb] at e; simp only [Outcome.ok_bind] at e; injection e with e; subst e
      cases hh : w.core.halted with
      | true => exact mk _ _ (by simp [active]) (Keeps.refl _) h.ap hlst h2' (fun _ => hh)
      | false => exact mk _ _ (by simp [active]) (Keeps.refl _) h.ap hlst h2' (by simp)
    | body =>
      rw [hlb] at e; simp only [Outcome.ok_bind] at e; injection e with e; subst e
      have k := fetchExec_keeps env (w.thr i).next w.core
      exact mk _ _ (by simp [active]) k (k.ap h.ap) (by simp) (by simp) (by simp)
    | after =>
      rw [hlb] at e; simp only [Outcome.ok_bind] at e; injection e with e; subst e
      cases hh : w.core.halted with
      | true => exact mk _ _ (by simp [active]) (Keeps.refl _) h.ap hlst h2' (fun _ => hh)
      | false => exact mk _ _ (by simp [active]) (Keeps.refl _) h.ap hlst h2' (by simp)
    | chk =>
      rw [hlb] at e
      dsimp only at e
      rw [if_neg h.ap] at e
      simp only [Outcome.ok_bind] at e; injection e with e; subst e
      exact mk _ _ (by simp [active]) (Keeps.refl _) h.ap hlst h2' (fun _ => hfin (Or.inl hlb))
    | fin =>
      rw [hlb] at e
      dsimp only at e
      unfold finishPc at e
      have hhal := hfin (Or.inr (Or.inl hlb))
      have done : ∀ v, Inv { w with core := setPc v w.core, thr := setAt w.thr i { w.thr i with lbl := .stat } } := by
        intro v
        exact mk _ _ (by simp [active]) (keeps_of_fields rfl rfl rfl rfl) h.ap hlst h2' (fun _ => hhal)
      split at e
      · cases hlast : (w.thr i).last with
        | none => rw [hlast] at e; simp only [Outcome.ub_bind] at e; cases e
        | some v =>
          rw [hlast] at e; simp only [Outcome.ok_bind] at e; injection e with e; subst e
          exact hlast ▸ done v
      · simp only [Outcome.ok_bind] at e; injection e with e; subst e
        exact done _
    | stat =>
      rw [hlb] at e; simp only [Outcome.ok_bind] at e; injection e with e; subst e
      have hhal := hfin (Or.inr (Or.inr hlb))
      refine ⟨?_, by simp, by simp, h.ap, by simp, fun _ => h.q hr hhal, ?_, by simp, by simp⟩
      · intro j hj hja
        dsimp only at hja
        by_cases hji : j = i
        · subst hji; rw [setAt_self] at hja; simp [active] at hja
        · rw [setAt_ne _ _ _ _ hji] at hja
          exact absurd (h.thr j hj hja).1 (by omega)
      · intro hu
        exact ⟨(hh2 hu).1, by simp⟩
    | notify => exact absurd hlb hl
    | done => exact absurd hlb hd

theorem runAct_inv (env : Env σ) {w : World σ} (h : Inv w) (hu : w.user = .idle) : Inv (runAct env w).2 := by
  unfold runAct runStart
  by_cases hs : w.core.status = .running
  · rw [if_pos hs]; exact h
  · rw [if_neg hs]
    have hst : w.core.status = .halted := by
      have := h.ns
      cases hc : w.core.status <;> simp_all
    dsimp only
    have key : ∀ s : St σ, s.reason ≠ .actionPoint → Inv ({ w with
        core := { s with status := .running, halted := false }, thr := setAt w.thr w.n newThr, n := w.n + 1,
        ptr := some w.nobj, nobj := w.nobj + 1 } : World σ) := by
      intro s hap
      have hn1 : w.n + 1 - 1 = w.n := by omega
      refine ⟨?_, ?_, by simp, hap, by simp, by simp, by simp [hu], by simp, ?_⟩
      · intro j hj hja
        dsimp only at hja ⊢
        by_cases hjn : j = w.n
        · subst hjn; exact ⟨rfl, rfl⟩
        · rw [setAt_ne _ _ _ _ hjn] at hja
          dsimp only at hj
          have := (h.thr j (by omega) hja).2
          rw [hst] at this; cases this
      · intro _
        dsimp only
        rw [hn1, setAt_self]
        exact ⟨by omega, by simp [active, newThr]⟩
      · intro _ hl
        dsimp only at hl
        rw [hn1, setAt_self] at hl
        simp [newThr] at hl
    split
    · exact key _ ((stepPast_keeps env _).ap h.ap)
    · exact key _ h.ap

theorem act_inv (env : Env σ) {w w' : World σ} (h : Inv w) {a : Act} (e : act env a w = .ok w') : Inv w' := by
  unfold act at e
  split at e
  · exact thrAct_inv env h e
  · -- halting1
    next hu =>
    injection e with e; subst e
    refine ⟨h.thr, h.run, h.ns, by simp [haltReasonPart], ?_, ?_, ?_, ?_, h.fin⟩
    · intro _ _ hx; simp [haltReasonPart] at hx
    · intro _ hx; simp [haltReasonPart] at hx
    · intro _; exact ⟨fun hx => by simp [haltReasonPart] at hx, fun _ _ => by simp [haltReasonPart]⟩
    · intro _ _ _; simp [haltReasonPart]
  · -- halting2
    next hu =>
    injection e with e; subst e
    refine ⟨h.thr, h.run, h.ns, h.ap, fun _ _ => (h.h2 hu).1, h.p, by simp, ?_, fun _ _ => rfl⟩
    intro hr hl _; exact (h.h2 hu).2 hr hl
  · next hu =>
    unfold waitAct at e
    split at e
    · cases e
    · split at e
      · cases e
      · split at e <;> (injection e with e; subst e; exact h.of_same rfl rfl rfl (by simp [hu]))
  · injection e with e; subst e; exact h
  · next hu => injection e with e; subst e; exact runAct_inv env h hu
  · next hu =>
    injection e with e; subst e
    split
    · exact h.of_same rfl rfl rfl (by simp)
    · exact h
  · next hu =>
    injection e with e; subst e
    split
    · exact h.of_same rfl rfl rfl (by simp)
    · exact h
  · next k hu =>
    cases hs : step env k w.core with
    | ub => rw [hs] at e; cases e
    | abort => rw [hs] at e; cases e
    | ok x =>
      rw [hs, Outcome.ok_bind] at e
      injection e with e; subst e
      have i := step_inv env hs h.ap h.p
      by_cases hst : w.core.status = .halted
      · exact h.of_halted x.2 hst (i.1.trans hst) (i.2.1 hst) i.2.2.1 (by rw [hu]; simp)
      · exact h.of_same (i.2.2.2 hst) rfl rfl (by simp)
  · next a hu =>
    injection e with e; subst e
    unfold setBp
    split
    · exact h
    · next hst =>
      have hst' : w.core.status = .halted := by simpa using hst
      split
      · exact h
      · exact h.of_halted _ hst' hst' (h.p hst') h.ap (by rw [hu]; simp)
  · next a hu =>
    injection e with e; subst e
    unfold clearBp
    split
    · exact h
    · next hst =>
      have hst' : w.core.status = .halted := by simpa using hst
      obtain ⟨f1, f2, f3, f4, f5, f6, f7, f8, f9⟩ := writeOriginal_fields a w.core
      split
      · refine h.of_halted _ hst' (f3.trans hst') ?_ (by show (writeOriginal a w.core).reason ≠ _; rw [f6]; exact h.ap)
          (by rw [hu]; simp)
        intro hx
        exact f7.trans (h.p hst' (f6.symm.trans hx))
      · exact h
  · next v hu =>
    injection e with e; subst e
    unfold writePc
    split
    · exact h
    · next hst =>
      have hst' : w.core.status = .halted := by simpa using hst
      dsimp only
      split
      · exact h.of_halted _ hst' hst' (fun hx => by cases hx) (by simp [setPc]) (by rw [hu]; simp)
      · next hre => exact h.of_halted _ hst' hst' (fun hx => absurd hx hre) h.ap (by rw [hu]; simp)
  · injection e with e; subst e; exact h

theorem acts_inv (env : Env σ) : ∀ (l : List Act) {w w' : World σ}, Inv w → acts env l w = .ok w' → Inv w'
  | [], w, w', h, e => by injection e with e; subst e; exact h
  | a :: l, w, w', h, e => by
    unfold acts at e
    cases ha : act env a w with
    | ub => rw [ha] at e; cases e
    | abort => rw [ha] at e; cases e
    | ok w1 => rw [ha, Outcome.ok_bind] at e; exact acts_inv env l (act_inv env h ha) e

/-! ## A halted core is left alone by the threads -/

theorem thrAct_halted (env : Env σ) {w w' : World σ} (h : Inv w) (hs : w.core.status ≠ .running) {i : Nat}
    (e : thrAct env i w = .ok w') : w'.core = w.core ∧ w'.n = w.n ∧ w'.user = w.user := by
  unfold thrAct at e
  split at e
  · injection e with e; subst e; exact ⟨rfl, rfl, rfl⟩
  next hi =>
  split at e
  · split at e
    · cases e
    · split at e
      · cases e
      · split at e
        · cases e
        · injection e with e; subst e; exact ⟨rfl, rfl, rfl⟩
  · next hl =>
    have hd : (w.thr i).lbl = .done := by
      by_cases hd : (w.thr i).lbl = .done
      · exact hd
      · exact absurd (h.thr i (by omega) ⟨hl, hd⟩).2 hs
    unfold thrStep at e
    rw [hd] at e
    simp only [Outcome.ok_bind] at e
    injection e with e; subst e; exact ⟨rfl, rfl, rfl⟩

/-! ## `Halt` ends the run -/

theorem getInst_instret (env : Env σ) (a : Nat) (s : St σ) : (getInst env a s).2.instret = s.instret := by
  unfold getInst
  cases s.cache a <;> rfl

theorem execInst_instret (env : Env σ) (w : BitVec 32) (a : Nat) (s : St σ) :
    (execInst env w a s).instret = s.instret := by
  unfold execInst
  split
  · split
    · rw [foldl_requestHalt]
    · split <;> rfl
  · rw [foldl_requestHalt]

theorem fetchExec_instret (env : Env σ) (pc : Nat) (s : St σ) : (fetchExec env pc s).instret = s.instret + 1 := by
  unfold fetchExec
  dsimp only
  rw [execInst_instret]
  show (getInst env pc s).2.instret + 1 = _
  rw [getInst_instret]

/-- Thread steps still to come once the halt flag is up. -/
def rank : Lbl → Nat
  | .start => 5 | .top => 4 | .body => 6 | .after => 5 | .chk => 4 | .fin => 3 | .stat => 2 | .notify => 1 | .done => 0

/-- Instructions still to come once the halt flag is up. -/
def budget : Lbl → Nat
  | .body => 1
  | _ => 0

theorem thrStep_rank (env : Env σ) {t t' : Thr} {s s' : St σ} (hh : s.halted = true) (hap : s.reason ≠ .actionPoint)
    (ha : active t) (e : thrStep env t s = .ok (t', s')) :
    s'.halted = true ∧ rank t'.lbl + 1 ≤ rank t.lbl ∧ s'.instret + budget t'.lbl ≤ s.instret + budget t.lbl ∧
      (t'.lbl = .notify ∧ s'.status = .halted ∨ s'.status = s.status ∧ active t') := by
  unfold thrStep at e
  cases hl : t.lbl with
  | start =>
    rw [hl] at e; injection e with e; injection e with e1 e2; subst e1 e2
    exact ⟨hh, by simp [rank], by simp [budget], Or.inr ⟨rfl, by simp [active]⟩⟩
  | top =>
    rw [hl] at e; simp only [hh, if_true] at e; injection e with e; injection e with e1 e2; subst e1 e2
    exact ⟨hh, by simp [rank], by simp [budget], Or.inr ⟨rfl, by simp [active]⟩⟩
  | body =>
    rw [hl] at e; injection e with e; injection e with e1 e2; subst e1 e2
    have k := fetchExec_keeps env t.next s
    exact ⟨k.hal hh, by simp [rank], by rw [fetchExec_instret]; simp [budget], Or.inr ⟨k.status, by simp [active]⟩⟩
  | after =>
    rw [hl] at e; simp only [hh, if_true] at e; injection e with e; injection e with e1 e2; subst e1 e2
    exact ⟨hh, by simp [rank], by simp [budget], Or.inr ⟨rfl, by simp [active]⟩⟩
  | chk =>
    rw [hl] at e; dsimp only at e; rw [if_neg hap] at e; injection e with e; injection e with e1 e2; subst e1 e2
    exact ⟨hh, by simp [rank], by simp [budget], Or.inr ⟨rfl, by simp [active]⟩⟩
  | fin =>
    rw [hl] at e
    dsimp only at e
    unfold finishPc at e
    split at e
    · cases hla : t.last with
      | none => rw [hla] at e; cases e
      | some v =>
        rw [hla] at e; simp only [Outcome.ok_bind] at e; injection e with e; injection e with e1 e2; subst e1 e2
        exact ⟨hh, by simp [rank], by simp [budget, setPc], Or.inr ⟨rfl, by simp [active]⟩⟩
    · simp only [Outcome.ok_bind] at e; injection e with e; injection e with e1 e2; subst e1 e2
      exact ⟨hh, by simp [rank], by simp [budget, setPc], Or.inr ⟨rfl, by simp [active]⟩⟩
  | stat =>
    rw [hl] at e; injection e with e; injection e with e1 e2; subst e1 e2
    exact ⟨hh, by simp [rank], by simp [budget], Or.inl ⟨rfl, rfl⟩⟩
  | notify => exact absurd hl ha.1
  | done => exact absurd hl ha.2

/-- Actions by which the caller starts execution. -/
def starts : Act → Bool
  | .run => true
  | .step _ => true
  | _ => false

/-- The caller's other actions on a core that is not running. -/
theorem act_halted (env : Env σ) {w w' : World σ} (h : Inv w) (hs : w.core.status = .halted) {a : Act}
    (ha : starts a = false) (e : act env a w = .ok w') :
    w'.core.status = .halted ∧ w'.core.instret = w.core.instret := by
  unfold act at e
  split at e
  · have := thrAct_halted env h (by rw [hs]; simp) e
    rw [this.1]; exact ⟨hs, rfl⟩
  · injection e with e; subst e; exact ⟨hs, rfl⟩
  · injection e with e; subst e; exact ⟨hs, rfl⟩
  · unfold waitAct at e
    split at e
    · cases e
    · split at e
      · cases e
      · split at e <;> (injection e with e; subst e; exact ⟨hs, rfl⟩)
  · injection e with e; subst e; exact ⟨hs, rfl⟩
  · cases ha
  · injection e with e; subst e; rw [if_neg (by rw [hs]; simp)]; exact ⟨hs, rfl⟩
  · injection e with e; subst e; rw [if_neg (by rw [hs]; simp)]; exact ⟨hs, rfl⟩
  · cases ha
  · injection e with e; subst e
    unfold setBp
    rw [if_neg (by simp [hs])]
    split <;> exact ⟨hs, rfl⟩
  · next a _ =>
    injection e with e; subst e
    obtain ⟨f1, f2, f3, f4, f5, f6, f7, f8, f9⟩ := writeOriginal_fields a w.core
    unfold clearBp
    rw [if_neg (by simp [hs])]
    split
    · exact ⟨f3.trans hs, f4⟩
    · exact ⟨hs, rfl⟩
  · injection e with e; subst e
    unfold writePc
    rw [if_neg (by simp [hs])]
    dsimp only
    split <;> exact ⟨hs, rfl⟩
  · injection e with e; subst e; exact ⟨hs, rfl⟩

/-- One action while the run thread is being stopped. -/
theorem act_stopping (env : Env σ) {w w' : World σ} (h : Inv w) (hr : w.core.status = .running)
    (hh : w.core.halted = true) {a : Act} (ha : starts a = false) (e : act env a w = .ok w') :
    w'.n = w.n ∧ w'.core.halted = true ∧
      (if a = .thr (w.n - 1) then
        rank (w'.thr (w.n - 1)).lbl + 1 ≤ rank (w.thr (w.n - 1)).lbl ∧
        w'.core.instret + budget (w'.thr (w.n - 1)).lbl ≤ w.core.instret + budget (w.thr (w.n - 1)).lbl ∧
        (w'.core.status = .halted ∨ w'.core.status = .running)
      else
        w'.thr (w.n - 1) = w.thr (w.n - 1) ∧ w'.core.instret = w.core.instret ∧ w'.core.status = .running) := by
  have hrun := h.run hr
  unfold act at e
  split at e
  · next _ i =>
    unfold thrAct at e
    split at e
    · next hi =>
      injection e with e; subst e
      refine ⟨rfl, hh, ?_⟩
      rw [if_neg (by simp; omega)]
      exact ⟨rfl, rfl, hr⟩
    next hi =>
    split at e
    · next hl =>
      have hne : w.n - 1 ≠ i := by
        intro hx; rw [← hx] at hl; exact hrun.2.1 hl
      split at e
      · cases e
      · split at e
        · cases e
        · split at e
          · cases e
          · injection e with e; subst e
            refine ⟨rfl, hh, ?_⟩
            rw [if_neg (by simp; omega)]
            exact ⟨setAt_ne _ _ _ _ hne, rfl, hr⟩
    · next hl =>
      by_cases hi1 : i = w.n - 1
      · subst hi1
        cases ht : thrStep env (w.thr (w.n - 1)) w.core with
        | ub => rw [ht] at e; cases e
        | abort => rw [ht] at e; cases e
        | ok x =>
          obtain ⟨t', s'⟩ := x
          rw [ht, Outcome.ok_bind] at e
          injection e with e; subst e
          have k := thrStep_rank env hh h.ap hrun.2 ht
          refine ⟨rfl, k.1, ?_⟩
          rw [if_pos rfl]
          dsimp only
          rw [setAt_self]
          refine ⟨k.2.1, k.2.2.1, ?_⟩
          rcases k.2.2.2 with k | k
          · exact Or.inl k.2
          · exact Or.inr (k.1.trans hr)
      · have hd : (w.thr i).lbl = .done := by
          by_cases hd : (w.thr i).lbl = .done
          · exact hd
          · have := (h.thr i (by omega) ⟨hl, hd⟩).1; omega
        unfold thrStep at e
        rw [hd] at e
        simp only [Outcome.ok_bind] at e
        injection e with e; subst e
        refine ⟨rfl, hh, ?_⟩
        rw [if_neg (by simp; omega)]
        refine ⟨setAt_ne _ _ _ _ (by omega), rfl, hr⟩
  · injection e with e; subst e; exact ⟨rfl, hh, by rw [if_neg (by simp)]; exact ⟨rfl, rfl, hr⟩⟩
  · injection e with e; subst e; exact ⟨rfl, rfl, by rw [if_neg (by simp)]; exact ⟨rfl, rfl, hr⟩⟩
  · unfold waitAct at e
    split at e
    · cases e
    · split at e
      · cases e
      · split at e <;>
          (injection e with e; subst e; exact ⟨rfl, hh, by rw [if_neg (by simp)]; exact ⟨rfl, rfl, hr⟩⟩)
  · injection e with e; subst e; exact ⟨rfl, hh, by rw [if_neg (by simp)]; exact ⟨rfl, rfl, hr⟩⟩
  · cases ha
  · injection e with e; subst e; rw [if_pos hr]
    exact ⟨rfl, hh, by rw [if_neg (by simp)]; exact ⟨rfl, rfl, hr⟩⟩
  · injection e with e; subst e; rw [if_pos hr]
    exact ⟨rfl, hh, by rw [if_neg (by simp)]; exact ⟨rfl, rfl, hr⟩⟩
  · cases ha
  · injection e with e; subst e
    unfold setBp
    rw [if_pos (by simp [hr])]
    exact ⟨rfl, hh, by rw [if_neg (by simp)]; exact ⟨rfl, rfl, hr⟩⟩
  · injection e with e; subst e
    unfold clearBp
    rw [if_pos (by simp [hr])]
    exact ⟨rfl, hh, by rw [if_neg (by simp)]; exact ⟨rfl, rfl, hr⟩⟩
  · injection e with e; subst e
    unfold writePc
    rw [if_pos (by simp [hr])]
    exact ⟨rfl, hh, by rw [if_neg (by simp)]; exact ⟨rfl, rfl, hr⟩⟩
  · next hx _ _ _ _ _ _ _ _ _ _ _ =>
    injection e with e; subst e
    refine ⟨rfl, hh, ?_⟩
    rw [if_neg (fun hy => hx _ hy)]; exact ⟨rfl, rfl, hr⟩

theorem acts_halted (env : Env σ) : ∀ (l : List Act) {w w' : World σ}, Inv w → w.core.status = .halted →
    (∀ a ∈ l, starts a = false) → acts env l w = .ok w' →
    w'.core.status = .halted ∧ w'.core.instret = w.core.instret
  | [], w, w', _, hs, _, e => by injection e with e; subst e; exact ⟨hs, rfl⟩
  | a :: l, w, w', h, hs, hl, e => by
    unfold acts at e
    cases ha : act env a w with
    | ub => rw [ha] at e; cases e
    | abort => rw [ha] at e; cases e
    | ok w1 =>
      rw [ha, Outcome.ok_bind] at e
      have k := act_halted env h hs (hl a (by simp)) ha
      have r := acts_halted env l (act_inv env h ha) k.1 (fun b hb => hl b (by simp [hb])) e
      exact ⟨r.1, r.2.trans k.2⟩

/-- However the caller and the threads are interleaved, a few steps of the run thread end the run. -/
theorem acts_stopping (env : Env σ) : ∀ (l : List Act) {w w' : World σ}, Inv w → w.core.status = .running →
    w.core.halted = true → (∀ a ∈ l, starts a = false) →
    rank (w.thr (w.n - 1)).lbl ≤ l.count (.thr (w.n - 1)) + 1 → acts env l w = .ok w' →
    w'.core.status = .halted ∧ w'.core.instret ≤ w.core.instret + budget (w.thr (w.n - 1)).lbl
  | [], w, w', h, hr, hh, _, hc, e => by
    have ha := (h.run hr).2
    exfalso
    simp only [List.count_nil] at hc
    unfold active at ha
    cases hl : (w.thr (w.n - 1)).lbl <;> simp_all [rank]
  | a :: l, w, w', h, hr, hh, hl, hc, e => by
    unfold acts at e
    cases ha : act env a w with
    | ub => rw [ha] at e; cases e
    | abort => rw [ha] at e; cases e
    | ok w1 =>
      rw [ha, Outcome.ok_bind] at e
      have k := act_stopping env h hr hh (hl a (by simp)) ha
      have hl' : ∀ b ∈ l, starts b = false := fun b hb => hl b (by simp [hb])
      by_cases hx : a = .thr (w.n - 1)
      · subst hx
        rw [if_pos rfl] at k
        rw [List.count_cons_self] at hc
        rcases k.2.2.2.2 with hs | hs
        · have r := acts_halted env l (act_inv env h ha) hs hl' e
          exact ⟨r.1, by have := k.2.2.2.1; omega⟩
        · have r := acts_stopping env l (act_inv env h ha) hs k.2.1 hl' (by rw [k.1]; have := k.2.2.1; omega) e
          rw [k.1] at r
          exact ⟨r.1, by have := k.2.2.2.1; omega⟩
      · rw [if_neg hx] at k
        rw [List.count_cons_of_ne (by exact hx)] at hc
        have r := acts_stopping env l (act_inv env h ha) k.2.2.2.2 k.2.1 hl' (by rw [k.1, k.2.2.1]; exact hc) e
        rw [k.1, k.2.2.1, k.2.2.2.1] at r
        exact r

/-! ## Disciplined callers -/

/-- What a disciplined caller keeps true of the notifications. -/
structure Disc (w : World σ) : Prop where
  old : ∀ i, i + 1 < w.n → (w.thr i).lbl = .done
  cur : 0 < w.n → (w.thr (w.n - 1)).lbl ≠ .done →
    ∃ p, w.ptr = some p ∧ p < w.nobj ∧ w.deleted p = false ∧ w.notified p = false
  fresh : ∀ p, w.nobj ≤ p → w.deleted p = false ∧ w.notified p = false
  wait : w.user = .waiting → ∃ p, w.ptr = some p ∧ p < w.nobj ∧ w.deleted p = false ∧ 0 < w.n ∧
    (w.notified p = true → (w.thr (w.n - 1)).lbl = .done)

theorem disc_initial (s : St σ) : Disc (initial s) :=
  ⟨fun i hi => by simp [initial] at hi, fun h => by simp [initial] at h, fun _ _ => ⟨rfl, rfl⟩,
    fun h => by simp [initial] at h⟩

theorem Disc.of_same {w w' : World σ} (h : Disc w) (h2 : w'.n = w.n) (h3 : w'.thr = w.thr) (h4 : w'.ptr = w.ptr)
    (h5 : w'.nobj = w.nobj) (h6 : w'.deleted = w.deleted) (h7 : w'.notified = w.notified)
    (h8 : w'.user = .waiting → w.user = .waiting) : Disc w' := by
  refine ⟨?_, ?_, ?_, ?_⟩
  · rw [h2, h3]; exact h.old
  · rw [h2, h3, h4, h5, h6, h7]; exact h.cur
  · rw [h5, h6, h7]; exact h.fresh
  · rw [h2, h3, h4, h5, h6, h7]; exact fun x => h.wait (h8 x)

theorem thrStep_active (env : Env σ) {t : Thr} {s : St σ} (ha : active t)
    (hf : t.lbl = .fin → t.last = none → s.reason ≠ .softwareBreakpoint) :
    ∃ t' s', thrStep env t s = .ok (t', s') ∧ t'.lbl ≠ .done := by
  unfold thrStep
  cases hl : t.lbl with
  | start => exact ⟨_, _, rfl, by simp⟩
  | top => dsimp only; split <;> exact ⟨_, _, rfl, by simp⟩
  | body => exact ⟨_, _, rfl, by simp⟩
  | after => dsimp only; split <;> exact ⟨_, _, rfl, by simp⟩
  | chk => dsimp only; split <;> exact ⟨_, _, rfl, by simp⟩
  | fin =>
    dsimp only
    unfold finishPc
    split
    · next hr =>
      cases hla : t.last with
      | none => exact absurd hr (hf hl hla)
      | some v => exact ⟨_, _, rfl, by simp⟩
    · exact ⟨_, _, rfl, by simp⟩
  | stat => exact ⟨_, _, rfl, by simp⟩
  | notify => exact absurd hl ha.1
  | done => exact absurd hl ha.2

theorem act_disc (env : Env σ) {w : World σ} (h : Inv w) (hd : Disc w) {a : Act}
    (hda : w.user = .idle → Disciplined w a) : ∃ w', act env a w = .ok w' ∧ Disc w' := by
  unfold act
  split
  · next _ i =>
    unfold thrAct
    split
    · exact ⟨_, rfl, hd⟩
    next hi =>
    split
    · next hl =>
      have hin : i = w.n - 1 := by
        by_cases hx : i + 1 < w.n
        · rw [hd.old i hx] at hl; cases hl
        · omega
      have hne : (w.thr (w.n - 1)).lbl ≠ .done := by rw [← hin, hl]; simp
      obtain ⟨p, e1, e2, e3, e4⟩ := hd.cur (by omega) hne
      simp only [e1, e3, e4, Bool.false_eq_true, if_false]
      refine ⟨_, rfl, ?_, ?_, ?_, ?_⟩
      · intro j hj
        dsimp only at hj ⊢
        rw [setAt_ne _ _ _ _ (by omega)]; exact hd.old j hj
      · intro _ hx
        dsimp only at hx
        rw [← hin, setAt_self] at hx
        exact absurd rfl hx
      · intro q hq
        dsimp only at hq ⊢
        rw [setAt_ne _ _ _ _ (by omega)]; exact hd.fresh q hq
      · intro hu
        obtain ⟨p', f1, f2, f3, f4, f5⟩ := hd.wait hu
        refine ⟨p', e1.symm.trans f1, f2, f3, f4, fun _ => ?_⟩
        dsimp only
        rw [← hin, setAt_self]
    · next hl =>
      by_cases hdn : (w.thr i).lbl = .done
      · have e : thrStep env (w.thr i) w.core = .ok (w.thr i, w.core) := by unfold thrStep; rw [hdn]
        rw [e, Outcome.ok_bind, Proofs.Top.setAt_eq _ _ _ rfl]
        exact ⟨_, rfl, hd⟩
      · have ha : active (w.thr i) := ⟨hl, hdn⟩
        obtain ⟨hn, hr⟩ := h.thr i (by omega) ha
        have hin : i = w.n - 1 := by omega
        obtain ⟨t', s', e, hne⟩ := thrStep_active env (s := w.core) ha (by
          intro hlb hla
          rw [hin] at hlb hla
          exact h.lst hr hla (h.fin hr (Or.inr (Or.inl hlb))))
        rw [e, Outcome.ok_bind]
        refine ⟨_, rfl, ?_, ?_, hd.fresh, ?_⟩
        · intro j hj
          dsimp only at hj ⊢
          rw [setAt_ne _ _ _ _ (by omega)]; exact hd.old j hj
        · intro h0 _
          exact hd.cur h0 (by rw [← hin]; exact hdn)
        · intro hu
          obtain ⟨p', f1, f2, f3, f4, f5⟩ := hd.wait hu
          refine ⟨p', f1, f2, f3, f4, fun hx => ?_⟩
          have := f5 hx
          rw [← hin] at this
          exact absurd this hdn
  · next hu => exact ⟨_, rfl, hd.of_same rfl rfl rfl rfl rfl rfl (by simp)⟩
  · next hu => exact ⟨_, rfl, hd.of_same rfl rfl rfl rfl rfl rfl (by simp)⟩
  · next hu =>
    obtain ⟨p, f1, f2, f3, f4, f5⟩ := hd.wait hu
    unfold waitAct
    simp only [f1, f3, Bool.false_eq_true, if_false]
    split
    · next hn =>
      refine ⟨_, rfl, hd.old, ?_, ?_, by simp⟩
      · intro _ hx; exact absurd (f5 hn) hx
      · intro q hq
        dsimp only at hq ⊢
        rw [setAt_ne _ _ _ _ (by omega)]; exact hd.fresh q hq
    · exact ⟨_, rfl, hd⟩
  · exact ⟨_, rfl, hd⟩
  · next hu =>
    refine ⟨_, rfl, ?_⟩
    unfold runAct runStart
    by_cases hs : w.core.status = .running
    · rw [if_pos hs]; exact hd
    · rw [if_neg hs]
      have hall : ∀ i < w.n, (w.thr i).lbl = .done := by
        rcases hda hu with hx | hx
        · exact absurd hx hs
        · exact hx
      refine ⟨?_, ?_, ?_, ?_⟩
      · intro j hj
        dsimp only at hj ⊢
        rw [setAt_ne _ _ _ _ (by omega)]; exact hall j (by omega)
      · intro _ _
        exact ⟨w.nobj, rfl, by dsimp only; omega, (hd.fresh _ (Nat.le_refl _)).1, (hd.fresh _ (Nat.le_refl _)).2⟩
      · intro q hq
        dsimp only at hq ⊢
        exact hd.fresh q (by omega)
      · intro hx
        dsimp only at hx
        rw [hu] at hx; cases hx
  · next hu =>
    refine ⟨_, rfl, ?_⟩
    split
    · exact hd.of_same rfl rfl rfl rfl rfl rfl (by simp)
    · exact hd
  · next hu =>
    refine ⟨_, rfl, ?_⟩
    split
    · next hr =>
      have hrun := h.run hr
      obtain ⟨p, e1, e2, e3, e4⟩ := hd.cur hrun.1 hrun.2.2
      exact ⟨hd.old, hd.cur, hd.fresh, fun _ => ⟨p, e1, e2, e3, hrun.1, fun hx => by rw [e4] at hx; cases hx⟩⟩
    · exact hd
  · next k hu =>
    obtain ⟨x, e⟩ := step_ok env k (hda hu) h.p
    rw [e, Outcome.ok_bind]
    exact ⟨_, rfl, hd.of_same rfl rfl rfl rfl rfl rfl (by simp)⟩
  · exact ⟨_, rfl, hd.of_same rfl rfl rfl rfl rfl rfl (by simp)⟩
  · exact ⟨_, rfl, hd.of_same rfl rfl rfl rfl rfl rfl (by simp)⟩
  · exact ⟨_, rfl, hd.of_same rfl rfl rfl rfl rfl rfl (by simp)⟩
  · exact ⟨_, rfl, hd⟩

theorem acts_disc (env : Env σ) : ∀ (l : List Act) {w : World σ}, Inv w → Disc w → DisciplinedAll env l w →
    ∃ w', acts env l w = .ok w' ∧ Inv w' ∧ Disc w'
  | [], w, h, hd, _ => ⟨w, rfl, h, hd⟩
  | a :: l, w, h, hd, hl => by
    obtain ⟨w1, e, hd1⟩ := act_disc env h hd hl.1
    obtain ⟨w2, e2, r⟩ := acts_disc env l (act_inv env h e) hd1 (hl.2 w1 e)
    refine ⟨w2, ?_, r⟩
    unfold acts
    rw [e, Outcome.ok_bind, e2]

/-- `Wait` returns only on a halted core. -/
theorem wait_returns {w w' : World σ} (h : Inv w) (hd : Disc w) (hu : w.user = .waiting)
    (e : waitAct w = .ok w') (hu' : w'.user = .idle) : w.core.status = .halted ∧ w'.core = w.core := by
  obtain ⟨p, f1, f2, f3, f4, f5⟩ := hd.wait hu
  unfold waitAct at e
  simp only [f1, f3, Bool.false_eq_true, if_false] at e
  split at e
  · next hn =>
    injection e with e; subst e
    have hdn := f5 hn
    refine ⟨?_, rfl⟩
    have := h.ns
    cases hs : w.core.status with
    | halted => rfl
    | running => exact absurd hdn (h.run hs).2.2
    | singleStep => exact absurd hs this
  · injection e with e; subst e
    rw [hu] at hu'; cases hu'

/-! ## The sequential run is one of the schedules -/

theorem acts_append (env : Env σ) : ∀ (l l' : List Act) (w : World σ),
    acts env (l ++ l') w = (acts env l w >>= fun w1 => acts env l' w1)
  | [], l', w => rfl
  | a :: l, l', w => by
    show (act env a w >>= fun w1 => acts env (l ++ l') w1) =
      ((act env a w >>= fun w1 => acts env l w1) >>= fun w1 => acts env l' w1)
    cases act env a w with
    | ub => rfl
    | abort => rfl
    | ok w1 => exact acts_append env l l' w1

theorem thr_one (env : Env σ) {w : World σ} {i : Nat} (hi : i < w.n) (hl : (w.thr i).lbl ≠ .notify) {t' : Thr}
    {s' : St σ} (e : thrStep env (w.thr i) w.core = .ok (t', s')) :
    act env (.thr i) w = .ok { w with core := s', thr := setAt w.thr i t' } := by
  show thrAct env i w = _
  unfold thrAct
  rw [if_neg (by omega), if_neg hl, e, Outcome.ok_bind]

theorem world_thr (w : World σ) (i : Nat) (s : St σ) (t t' : Thr) (s' : St σ) :
    ({ ({ w with core := s, thr := setAt w.thr i t } : World σ) with core := s', thr := setAt (setAt w.thr i t) i t' } :
      World σ) = { w with core := s', thr := setAt w.thr i t' } := by
  rw [Proofs.Top.setAt_setAt]

/-- The loop of the run thread, as thread steps. -/
theorem loop_schedule (env : Env σ) (k : Nat) (w : World σ) (i : Nat) (hi : i < w.n) :
    ∀ (fuel count : Nat) (last : Option Nat) (nx : Nat) (s : St σ), s.halted = false →
    ∃ l, acts env l { w with core := s, thr := setAt w.thr i ⟨.top, last, nx⟩ } = .ok
      (let r := execLoop env false k fuel count last nx s
       { w with core := r.2.2.2, thr := setAt w.thr i ⟨if r.2.2.2.halted then .fin else .top, r.2.1, r.2.2.1⟩ })
  | 0, count, last, nx, s, hh => ⟨[], by simp [acts, execLoop, hh]⟩
  | fuel + 1, count, last, nx, s, hh => by
    rw [execLoop]
    split
    · exact ⟨[], by simp [acts, hh]⟩
    · have t1 := thr_one env (w := { w with core := s, thr := setAt w.thr i ⟨.top, last, nx⟩ }) hi
        (by dsimp only; rw [setAt_self]; simp) (t' := ⟨.body, last, nx⟩) (s' := s)
        (by dsimp only; rw [setAt_self]; simp [thrStep, hh])
      rw [world_thr] at t1
      have t2 := thr_one env (w := { w with core := s, thr := setAt w.thr i ⟨.body, last, nx⟩ }) hi
        (by dsimp only; rw [setAt_self]; simp)
        (t' := ⟨.after, some nx, (fetchExec env nx s).m.pc.toNat⟩) (s' := fetchExec env nx s)
        (by dsimp only; rw [setAt_self]; rfl)
      rw [world_thr] at t2
      dsimp only
      generalize fetchExec env nx s = s1 at *
      cases hh1 : s1.halted with
      | false =>
        have t3 := thr_one env (w := { w with core := s1, thr := setAt w.thr i ⟨.after, some nx, s1.m.pc.toNat⟩ }) hi
          (by dsimp only; rw [setAt_self]; simp) (t' := ⟨.top, some nx, s1.m.pc.toNat⟩) (s' := s1)
          (by dsimp only; rw [setAt_self]; simp [thrStep, hh1])
        rw [world_thr] at t3
        obtain ⟨l, hl⟩ := loop_schedule env k w i hi fuel (count + 1) (some nx) s1.m.pc.toNat s1 hh1
        refine ⟨.thr i :: .thr i :: .thr i :: l, ?_⟩
        simp only [acts, t1, t2, t3, Outcome.ok_bind, hl]
        simp
      | true =>
        have t3 := thr_one env (w := { w with core := s1, thr := setAt w.thr i ⟨.after, some nx, s1.m.pc.toNat⟩ }) hi
          (by dsimp only; rw [setAt_self]; simp) (t' := ⟨.chk, some nx, s1.m.pc.toNat⟩) (s' := s1)
          (by dsimp only; rw [setAt_self]; simp [thrStep, hh1])
        rw [world_thr] at t3
        by_cases ha : s1.reason = .actionPoint
        · have t4 := thr_one env (w := { w with core := s1, thr := setAt w.thr i ⟨.chk, some nx, s1.m.pc.toNat⟩ }) hi
            (by dsimp only; rw [setAt_self]; simp) (t' := ⟨.top, some nx, s1.m.pc.toNat⟩)
            (s' := { stepPast env s1 with halted := false, reason := .none })
            (by dsimp only; rw [setAt_self]; simp [thrStep, ha])
          rw [world_thr] at t4
          obtain ⟨l, hl⟩ := loop_schedule env k w i hi fuel (count + 1) (some nx) s1.m.pc.toNat
            { stepPast env s1 with halted := false, reason := .none } rfl
          refine ⟨.thr i :: .thr i :: .thr i :: .thr i :: l, ?_⟩
          simp only [acts, t1, t2, t3, t4, Outcome.ok_bind, hl]
          simp [ha]
        · have t4 := thr_one env (w := { w with core := s1, thr := setAt w.thr i ⟨.chk, some nx, s1.m.pc.toNat⟩ }) hi
            (by dsimp only; rw [setAt_self]; simp) (t' := ⟨.fin, some nx, s1.m.pc.toNat⟩) (s' := s1)
            (by dsimp only; rw [setAt_self]; simp [thrStep, ha])
          rw [world_thr] at t4
          refine ⟨[.thr i, .thr i, .thr i, .thr i], ?_⟩
          simp only [acts, t1, t2, t3, t4, Outcome.ok_bind]
          simp [ha, hh1]

theorem execLoop_status (env : Env σ) (reset : Bool) (n : Nat) : ∀ (fuel count : Nat) (last : Option Nat) (nx : Nat)
    (s : St σ), (execLoop env reset n fuel count last nx s).2.2.2.status = s.status
  | 0, _, _, _, _ => rfl
  | fuel + 1, count, last, nx, s => by
    rw [execLoop]
    have k := (fetchExec_keeps env nx s).status
    split
    · rfl
    · dsimp only
      by_cases hh : (!(fetchExec env nx s).halted) = true
      · rw [if_pos hh, execLoop_status env reset n fuel]; exact k
      · rw [if_neg hh]
        by_cases ha : (fetchExec env nx s).reason = .actionPoint
        · rw [if_pos ha, execLoop_status env reset n fuel]
          exact (stepPast_keeps env _).status.trans k
        · rw [if_neg ha]; exact k

/-- The last two steps of the run thread that touch the core. -/
theorem fin_schedule (env : Env σ) (w : World σ) (i : Nat) (hi : i < w.n) (s s' : St σ) (last : Option Nat) (nx : Nat)
    (e : finishPc last nx s = .ok s') :
    acts env [.thr i, .thr i] { w with core := s, thr := setAt w.thr i ⟨.fin, last, nx⟩ } =
      .ok { w with core := { s' with status := .halted }, thr := setAt w.thr i ⟨.notify, last, nx⟩ } := by
  have t1 := thr_one env (w := { w with core := s, thr := setAt w.thr i ⟨.fin, last, nx⟩ }) hi
    (by dsimp only; rw [setAt_self]; simp) (t' := ⟨.stat, last, nx⟩) (s' := s')
    (by dsimp only; rw [setAt_self]; simp only [thrStep, e, Outcome.ok_bind])
  rw [world_thr] at t1
  have t2 := thr_one env (w := { w with core := s', thr := setAt w.thr i ⟨.stat, last, nx⟩ }) hi
    (by dsimp only; rw [setAt_self]; simp) (t' := ⟨.notify, last, nx⟩) (s' := { s' with status := .halted })
    (by dsimp only; rw [setAt_self]; rfl)
  rw [world_thr] at t2
  simp only [acts, t1, t2, Outcome.ok_bind]

/-- The sequential run-and-halt is a schedule of the caller and the new run thread. -/
theorem runHalt_schedule (env : Env σ) (k : Nat) (w : World σ) (hu : w.user = .idle) (s' : St σ)
    (e : runHalt env k w.core = .ok (.ok (), s')) :
    ∃ l w', acts env l w = .ok w' ∧ w'.core = s' ∧ w'.user = .idle ∧ w'.n = w.n + 1 ∧
      (w'.thr w.n).lbl = .notify := by
  unfold runHalt at e
  cases hrs : runStart env w.core with
  | mk r s0 =>
  rw [hrs] at e
  cases r with
  | error x => simp only at e; injection e with e; injection e with e1 e2; cases e1
  | ok u =>
    cases u
    dsimp only at e
    have hs0 : s0.status = .running ∧ s0.halted = false := by
      unfold runStart at hrs
      split at hrs
      · injection hrs with h1; cases h1
      · injection hrs with h1 h2; rw [← h2]; exact ⟨rfl, rfl⟩
    set w0 : World σ := { w with n := w.n + 1, ptr := some w.nobj, nobj := w.nobj + 1 } with hw0
    have a0 : act env .run w = .ok { w0 with core := s0, thr := setAt w0.thr w.n newThr } := by
      unfold act
      simp only [hu]
      unfold runAct
      rw [hrs]
    have hi : w.n < w0.n := by rw [hw0]; dsimp only; omega
    have t1 := thr_one env (w := { w0 with core := s0, thr := setAt w0.thr w.n newThr }) hi
      (by dsimp only; rw [setAt_self]; simp [newThr]) (t' := ⟨.top, none, s0.m.pc.toNat⟩) (s' := s0)
      (by dsimp only; rw [setAt_self]; rfl)
    rw [world_thr] at t1
    obtain ⟨l, hl⟩ := loop_schedule env k w0 w.n hi k 0 none s0.m.pc.toNat s0 hs0.2
    have hst := execLoop_status env false k k 0 none s0.m.pc.toNat s0
    generalize execLoop env false k k 0 none s0.m.pc.toNat s0 = r at e hl hst
    obtain ⟨c, last, nx, s1⟩ := r
    dsimp only at hl hst
    unfold runEnd at e
    dsimp only at e
    cases hh : s1.halted with
    | true =>
      simp only [hh, if_true] at e hl
      cases hf : finishPc last nx s1 with
      | ub => rw [hf] at e; cases e
      | abort => rw [hf] at e; cases e
      | ok s2 =>
        rw [hf, Outcome.ok_bind] at e
        injection e with e; injection e with _ e; subst e
        have f := fin_schedule env w0 w.n hi s1 s2 last nx hf
        refine ⟨.run :: .thr w.n :: (l ++ [.thr w.n, .thr w.n]),
          { w0 with core := { s2 with status := .halted }, thr := setAt w0.thr w.n ⟨.notify, last, nx⟩ }, ?_, rfl, hu, rfl,
          congrArg Thr.lbl (setAt_self w0.thr w.n ⟨.notify, last, nx⟩)⟩
        simp only [acts, a0, t1, Outcome.ok_bind]
        rw [acts_append, hl, Outcome.ok_bind]
        exact f
    | false =>
      simp only [hh, Bool.false_eq_true, if_false] at e hl
      cases hf : finishPc last nx (haltFlagPart (haltReasonPart s1)) with
      | ub => rw [hf] at e; cases e
      | abort => rw [hf] at e; cases e
      | ok s2 =>
        rw [hf, Outcome.ok_bind] at e
        injection e with e; injection e with _ e; subst e
        have f := fin_schedule env w0 w.n hi _ s2 last nx hf
        have t2 := thr_one env
          (w := { w0 with core := haltFlagPart (haltReasonPart s1), thr := setAt w0.thr w.n ⟨.top, last, nx⟩ }) hi
          (by dsimp only; rw [setAt_self]; simp) (t' := ⟨.fin, last, nx⟩) (s' := haltFlagPart (haltReasonPart s1))
          (by dsimp only; rw [setAt_self]; rfl)
        rw [world_thr] at t2
        have h1 : act env .halt { w0 with core := s1, thr := setAt w0.thr w.n ⟨.top, last, nx⟩ } =
            .ok { w0 with core := s1, thr := setAt w0.thr w.n ⟨.top, last, nx⟩, user := .halting1 } := by
          unfold act
          have : w0.user = .idle := hu
          simp only [this, hst, hs0.1, if_true]
        have h2 : act env .cont { w0 with core := s1, thr := setAt w0.thr w.n ⟨.top, last, nx⟩, user := .halting1 } =
            .ok { w0 with core := haltReasonPart s1, thr := setAt w0.thr w.n ⟨.top, last, nx⟩, user := .halting2 } := rfl
        have h3 : act env .cont
            { w0 with core := haltReasonPart s1, thr := setAt w0.thr w.n ⟨.top, last, nx⟩, user := .halting2 } =
            .ok { w0 with core := haltFlagPart (haltReasonPart s1), thr := setAt w0.thr w.n ⟨.top, last, nx⟩ } := by
          have : w0.user = .idle := hu
          show Outcome.ok { w0 with core := haltFlagPart (haltReasonPart s1),
                                    thr := setAt w0.thr w.n ⟨.top, last, nx⟩, user := .idle } = _
          rw [← this]
        refine ⟨.run :: .thr w.n :: (l ++ .halt :: .cont :: .cont :: .thr w.n :: [.thr w.n, .thr w.n]),
          { w0 with core := { s2 with status := .halted }, thr := setAt w0.thr w.n ⟨.notify, last, nx⟩ }, ?_, rfl, hu,
          rfl, congrArg Thr.lbl (setAt_self w0.thr w.n ⟨.notify, last, nx⟩)⟩
        simp only [acts, a0, t1, Outcome.ok_bind]
        rw [acts_append, hl, Outcome.ok_bind]
        show (act env .halt _ >>= fun w1 => _) = _
        rw [h1, Outcome.ok_bind]
        show (act env .cont _ >>= fun w1 => _) = _
        rw [h2, Outcome.ok_bind]
        show (act env .cont _ >>= fun w1 => _) = _
        rw [h3, Outcome.ok_bind]
        show (act env (.thr w.n) _ >>= fun w1 => _) = _
        rw [t2, Outcome.ok_bind]
        exact f

end Verif.Proofs.Threads
