import Verif.Proofs.Edits
import Verif.Spec.Visits

/-! # A program that ends, run from breakpoint to breakpoint -/

namespace Verif.Proofs.Top

open Verif.Model.Top
open Verif.Spec.Program (Machine Sem Ev Stop word ebreak next run TameAt Tame Quiet visits)

variable {σ : Type}

theorem visits_succ (sem : Sem σ) (bps : Nat → Bool) (m : Machine σ) (n : Nat) :
    visits sem bps m (n + 1) = visits sem bps m n + if bps (run sem n m).pc.toNat then 1 else 0 := by
  unfold visits
  rw [List.range_succ, List.filter_append, List.length_append]
  cases h : bps (run sem n m).pc.toNat <;> simp [h]

theorem visits_skip (sem : Sem σ) (bps : Nat → Bool) (m : Machine σ) (p : Nat) : ∀ d,
    (∀ i, p ≤ i → i < p + d → bps (run sem i m).pc.toNat = false) → visits sem bps m (p + d) = visits sem bps m p
  | 0, _ => rfl
  | d + 1, h => by
    rw [← Nat.add_assoc, visits_succ, visits_skip sem bps m p d (fun i h1 h2 => h i h1 (by omega)), h (p + d) (by omega) (by omega)]
    rfl

/-- The last visit before `t`, if there is one. -/
theorem last_visit (sem : Sem σ) (bps : Nat → Bool) (m : Machine σ) : ∀ t,
    (∀ i < t, bps (run sem i m).pc.toNat = false) ∨
      ∃ u < t, bps (run sem u m).pc.toNat = true ∧ ∀ i, u < i → i < t → bps (run sem i m).pc.toNat = false
  | 0 => .inl fun _ h => absurd h (Nat.not_lt_zero _)
  | t + 1 => by
    cases hb : bps (run sem t m).pc.toNat with
    | true => exact .inr ⟨t, by omega, hb, fun i h1 h2 => by omega⟩
    | false =>
      rcases last_visit sem bps m t with h | ⟨u, h1, h2, h3⟩
      · refine .inl fun i hi => ?_
        by_cases e : i = t
        · subst e; exact hb
        · exact h i (by omega)
      · refine .inr ⟨u, by omega, h2, fun i g1 g2 => ?_⟩
        by_cases e : i = t
        · subst e; exact hb
        · exact h3 i g1 (by omega)

/-- A program that asks for its first halt with instruction `n`. -/
structure Ends (sem : Sem σ) (C : Nat → Bool) (m : Machine σ) (n : Nat) : Prop where
  quiet : ∀ i < n, (next sem (run sem i m)).2 = []
  halt : (next sem (run sem n m)).2 ≠ []
  tame : ∀ i ≤ n, TameAt sem C (run sem i m)

theorem Ends.tameQ {sem : Sem σ} {C : Nat → Bool} {m : Machine σ} {n : Nat} (h : Ends sem C m n) (p : Nat) (hp : p ≤ n) :
    TameQ sem C (run sem p m) := by
  intro k hk
  rw [run_run]
  refine h.tame _ (Nat.le_of_not_lt fun hl => h.halt ?_)
  have := hk (n - p) (by omega)
  rwa [run_run, show p + (n - p) = n by omega] at this

/-- A run that meets a visit first. -/
theorem leg_visit {env : Env σ} {C : Nat → Bool} {m : Machine σ} {n : Nat} (h : Ends env.sem C m n) {bps : Nat → Bool}
    {i0 p k j t : Nat} {s' : St σ} (hr : RunResult env bps i0 (run env.sem p m) k j s') (hpt : p ≤ t) (htn : t ≤ n) (hk : n < k)
    (hb : bps (run env.sem t m).pc.toNat = true) (hf : ∀ i, p ≤ i → i < t → bps (run env.sem i m).pc.toNat = false) :
    p + j = t ∧ s'.instret = i0 + (t - p) + 1 ∧ s'.reason = .softwareBreakpoint ∧ s'.stepOver = true := by
  cases hr with
  | user hj hq =>
    have := (hq (t - p) (by omega)).2
    rw [run_run, show p + (t - p) = t by omega, hb] at this
    cases this
  | event hj hk' hq hb' he =>
    rw [run_run] at hb' he
    by_cases h1 : t < p + (j - 1)
    · have := (hq (t - p) (by omega)).2
      rw [run_run, show p + (t - p) = t by omega, hb] at this
      cases this
    · by_cases h2 : p + (j - 1) = t
      · rw [h2, hb] at hb'; cases hb'
      · exact absurd (h.quiet _ (by omega)) he
  | bp hk' hq hb' hi hre hso =>
    rw [run_run] at hb'
    have h1 : ¬ t < p + j := fun hl => by
      have := (hq (t - p) (by omega)).2
      rw [run_run, show p + (t - p) = t by omega, hb] at this
      cases this
    have h2 : ¬ p + j < t := fun hl => by
      rw [hf _ (by omega) hl] at hb'; cases hb'
    have e : p + j = t := by omega
    exact ⟨e, by rw [hi]; omega, hre, hso⟩

/-- A run that meets no visit any more. -/
theorem leg_end {env : Env σ} {C : Nat → Bool} {m : Machine σ} {n : Nat} (h : Ends env.sem C m n) {bps : Nat → Bool}
    {i0 p k j : Nat} {s' : St σ} (hr : RunResult env bps i0 (run env.sem p m) k j s') (hpn : p ≤ n) (hk : n < k)
    (hf : ∀ i, p ≤ i → i ≤ n → bps (run env.sem i m).pc.toNat = false) :
    p + j = n + 1 ∧ s'.instret = i0 + (n + 1 - p) ∧ s'.reason = lastReason .none (next env.sem (run env.sem n m)).2 ∧
      s'.stepOver = false := by
  cases hr with
  | user hj hq =>
    have := (hq (n - p) (by omega)).1
    rw [run_run, show p + (n - p) = n by omega] at this
    exact absurd this h.halt
  | event hj hk' hq hb' he hi hre hso =>
    rw [run_run] at hb' he hre
    have h1 : ¬ n < p + (j - 1) := fun hl => by
      have := (hq (n - p) (by omega)).1
      rw [run_run, show p + (n - p) = n by omega] at this
      exact h.halt this
    have h2 : ¬ p + (j - 1) < n := fun hl => he (h.quiet _ hl)
    have e : p + (j - 1) = n := by omega
    rw [e] at hre
    exact ⟨by omega, by rw [hi]; omega, hre, hso⟩
  | bp hk' hq hb' =>
    rw [run_run] at hb'
    by_cases h1 : p + j ≤ n
    · rw [hf _ (by omega) h1] at hb'; cases hb'
    · have := (hq (n - p) (by omega)).1
      rw [run_run, show p + (n - p) = n by omega] at this
      exact absurd this h.halt

theorem execAll_append (env : Env σ) : ∀ (l1 l2 : List Op) {s s1 s2 : St σ} {h1 h2 : Nat},
    execAll env l1 s = .ok (s1, h1) → execAll env l2 s1 = .ok (s2, h2) → execAll env (l1 ++ l2) s = .ok (s2, h2 + h1)
  | [], l2, s, s1, s2, h1, h2, e1, e2 => by cases e1; exact e2
  | op :: l1, l2, s, s1, s2, h1, h2, e1, e2 => by
    rw [execAll] at e1
    obtain ⟨s', e⟩ : ∃ s', exec env op s = .ok s' := by
      cases h : exec env op s with
      | ok s' => exact ⟨s', rfl⟩
      | ub => rw [h] at e1; cases e1
      | abort => rw [h] at e1; cases e1
    rw [e, Outcome.ok_bind] at e1
    obtain ⟨⟨s3, h3⟩, e3⟩ : ∃ r, execAll env l1 s' = .ok r := by
      cases h : execAll env l1 s' with
      | ok r => exact ⟨r, rfl⟩
      | ub => rw [h] at e1; cases e1
      | abort => rw [h] at e1; cases e1
    rw [e3, Outcome.ok_bind] at e1
    simp only [Outcome.ok.injEq, Prod.mk.injEq] at e1
    rw [List.cons_append, execAll, e, Outcome.ok_bind, execAll_append env l1 l2 (e1.1 ▸ e3) e2, Outcome.ok_bind, ← e1.2, Nat.add_assoc]

/-- A core between two runs of the debugger: at the beginning, or stopped at a breakpoint. -/
structure Between (sem : Sem σ) (C : Nat → Bool) (bps : Nat → Bool) (s : St σ) (m : Machine σ) : Prop where
  rel : Rel sem C s m
  status : s.status = .halted
  bps : s.bps = bps

/-- The stop at every visit. -/
theorem at_visit {env : Env σ} {C : Nat → Bool} {m : Machine σ} {n : Nat} (h : Ends env.sem C m n) {bps : Nat → Bool} {s : St σ}
    (hs : Between env.sem C bps s m) (hso : s.stepOver = false) (k : Nat) (hk : n < k) :
    ∀ t ≤ n, bps (run env.sem t m).pc.toNat = true →
      ∃ s', execAll env (List.replicate (visits env.sem bps m t + 1) (.run k)) s = .ok (s', visits env.sem bps m t + 1) ∧
        Between env.sem C bps s' (run env.sem t m) ∧ s'.instret = s.instret + t + visits env.sem bps m t + 1 ∧
        s'.reason = .softwareBreakpoint ∧ s'.stepOver = true := by
  intro t
  induction t using Nat.strongRecOn with
  | ind t ih =>
    intro htn hb
    rcases last_visit env.sem bps m t with hf | ⟨u, hu, hbu, hf⟩
    · obtain ⟨j, s', e, r1, r2, r3, -, -, r6⟩ := run_cleanQ env hs.rel (h.tameQ 0 (Nat.zero_le _)) hs.status hso k
      rw [hs.bps] at r6 r3
      obtain ⟨g1, g2, g3, g4⟩ := leg_visit h (p := 0) r6 (Nat.zero_le _) htn hk hb (fun i _ hi => hf i hi)
      have hv : visits env.sem bps m t = 0 := by
        have := visits_skip env.sem bps m 0 t (fun i _ hi => hf i (by omega))
        rw [Nat.zero_add] at this
        rw [this]; rfl
      obtain rfl : j = t := by omega
      refine ⟨s', ?_, ⟨r1, r2, r3⟩, by rw [g2, hv]; omega, g3, g4⟩
      rw [hv]
      simp only [List.replicate, execAll, exec, e, Outcome.ok_bind, Op.executes, g3, and_self, if_true]
    · obtain ⟨s1, e1, b1, i1, re1, so1⟩ := ih u hu (by omega) hbu
      have htq : TameQ env.sem C (next env.sem (run env.sem u m)).1 := by
        rw [← run_succ]; exact h.tameQ (u + 1) (by omega)
      obtain ⟨j, s', e, r1, r2, r3, -, -, r6⟩ := run_stoppedQ env b1.rel (h.tame u (by omega)) htq b1.status so1
        (by rw [b1.bps]; exact hbu) k
      rw [b1.bps] at r3 r6
      rw [← run_succ] at r6
      obtain ⟨g1, g2, g3, g4⟩ := leg_visit h r6 hu htn hk hb (fun i hi hi' => hf i (by omega) hi')
      have hv : visits env.sem bps m t = visits env.sem bps m u + 1 := by
        have := visits_skip env.sem bps m (u + 1) (t - (u + 1)) (fun i h1 h2 => hf i (by omega) (by omega))
        rw [show u + 1 + (t - (u + 1)) = t by omega, visits_succ, hbu] at this
        exact this
      rw [run_run, show u + (1 + j) = t by omega] at r1
      refine ⟨s', ?_, ⟨r1, r2, r3⟩, by rw [g2, i1, hv]; omega, g3, g4⟩
      rw [hv, List.replicate_succ', show visits env.sem bps m u + 1 + 1 = 1 + (visits env.sem bps m u + 1) by omega]
      refine execAll_append env _ _ e1 ?_
      simp only [execAll, exec, e, Outcome.ok_bind, Op.executes, g3, and_self, if_true]

/-- The end. -/
theorem at_end {env : Env σ} {C : Nat → Bool} {m : Machine σ} {n : Nat} (h : Ends env.sem C m n) {bps : Nat → Bool} {s : St σ}
    (hs : Between env.sem C bps s m) (hso : s.stepOver = false) (hl : bps (run env.sem n m).pc.toNat = false) (k : Nat) (hk : n < k) :
    ∃ s', execAll env (List.replicate (visits env.sem bps m (n + 1) + 1) (.run k)) s = .ok (s', visits env.sem bps m (n + 1)) ∧
      Between env.sem C bps s' (run env.sem (n + 1) m) ∧ s'.instret = s.instret + (n + 1) + visits env.sem bps m (n + 1) ∧
      s'.reason = lastReason .none (next env.sem (run env.sem n m)).2 ∧ s'.stepOver = false := by
  have hre := (lastReason_ne (r := .none) h.halt).1
  rcases last_visit env.sem bps m (n + 1) with hf | ⟨u, hu, hbu, hf⟩
  · obtain ⟨j, s', e, r1, r2, r3, -, -, r6⟩ := run_cleanQ env hs.rel (h.tameQ 0 (Nat.zero_le _)) hs.status hso k
    rw [hs.bps] at r6 r3
    obtain ⟨g1, g2, g3, g4⟩ := leg_end h (p := 0) r6 (Nat.zero_le _) hk (fun i _ hi => hf i (by omega))
    have hv : visits env.sem bps m (n + 1) = 0 := by
      have := visits_skip env.sem bps m 0 (n + 1) (fun i _ hi => hf i (by omega))
      rw [Nat.zero_add] at this
      rw [this]; rfl
    obtain rfl : j = n + 1 := by omega
    refine ⟨s', ?_, ⟨r1, r2, r3⟩, by rw [g2, hv]; omega, g3, g4⟩
    rw [hv]
    simp only [List.replicate, execAll, exec, e, Outcome.ok_bind, Op.executes, true_and, Nat.zero_add]
    rw [if_neg (by rw [g3]; exact hre)]
  · have hun : u < n := Nat.lt_of_le_of_ne (by omega) (fun e => by rw [e, hl] at hbu; cases hbu)
    obtain ⟨s1, e1, b1, i1, re1, so1⟩ := at_visit h hs hso k hk u (by omega) hbu
    have htq : TameQ env.sem C (next env.sem (run env.sem u m)).1 := by
      rw [← run_succ]; exact h.tameQ (u + 1) (by omega)
    obtain ⟨j, s', e, r1, r2, r3, -, -, r6⟩ := run_stoppedQ env b1.rel (h.tame u (by omega)) htq b1.status so1
      (by rw [b1.bps]; exact hbu) k
    rw [b1.bps] at r3 r6
    rw [← run_succ] at r6
    obtain ⟨g1, g2, g3, g4⟩ := leg_end h r6 (by omega) hk (fun i hi hi' => hf i (by omega) (by omega))
    have hv : visits env.sem bps m (n + 1) = visits env.sem bps m u + 1 := by
      have := visits_skip env.sem bps m (u + 1) (n + 1 - (u + 1)) (fun i h1 h2 => hf i (by omega) (by omega))
      rw [show u + 1 + (n + 1 - (u + 1)) = n + 1 by omega, visits_succ _ _ _ u, hbu] at this
      exact this
    rw [run_run, show u + (1 + j) = n + 1 by omega] at r1
    refine ⟨s', ?_, ⟨r1, r2, r3⟩, by rw [g2, i1, hv]; omega, g3, g4⟩
    rw [hv, List.replicate_succ']
    refine (execAll_append env _ _ (h2 := 0) e1 ?_).trans (by rw [Nat.zero_add])
    simp only [execAll, exec, e, Outcome.ok_bind, Op.executes, true_and, Nat.zero_add]
    rw [if_neg (by rw [g3]; exact hre)]

/-- Breakpoints set one after the other. -/
theorem set_all (env : Env σ) {C : Nat → Bool} {m : Machine σ} : ∀ (l : List Nat) {s : St σ}, Rel env.sem C s m → s.status = .halted →
    (∀ a ∈ l, a % 4 = 0 ∧ C a = true ∧ word m.mem a ≠ ebreak ∧ (env.sem.host ≠ none → Spec.Program.Clear C (word m.mem) a)) →
    ∃ s', execAll env (l.map .setBp) s = .ok (s', 0) ∧ Between env.sem C (fun a => s.bps a || decide (a ∈ l)) s' m ∧
      s'.stepOver = s.stepOver ∧ s'.instret = s.instret
  | [], s, hr, hs, _ => ⟨s, rfl, ⟨hr, hs, by simp⟩, rfl, rfl⟩
  | a :: l, s, hr, hs, hl => by
    obtain ⟨h1, h2, h3, h4⟩ := hl a (by simp)
    have e1 : Rel env.sem C (setBp a s).2 m ∧ (setBp a s).2.status = .halted ∧ (∀ b, (setBp a s).2.bps b = (s.bps b || decide (b = a))) ∧
        (setBp a s).2.stepOver = s.stepOver ∧ (setBp a s).2.instret = s.instret := by
      unfold setBp
      rw [if_neg (by simp [hs])]
      cases hb : s.bps a with
      | true =>
        refine ⟨hr, hs, fun b => ?_, rfl, rfl⟩
        by_cases e : b = a
        · subst e; simp [hb]
        · simp [e]
      | false =>
        simp only [Bool.false_eq_true, if_false]
        refine ⟨rel_arm hr hb h1 h2 h3 h4, hs, fun b => ?_, rfl, rfl⟩
        show setAt s.bps a true b = _
        by_cases e : b = a
        · subst e; rw [setAt_self]; simp
        · rw [setAt_ne _ _ _ _ e]; simp [e]
    obtain ⟨r1, r2, r3, r4, r5⟩ := e1
    obtain ⟨s', e, hb, f1, f2⟩ := set_all env l r1 r2 (fun b hb => hl b (by simp [hb]))
    refine ⟨s', ?_, ⟨hb.rel, hb.status, hb.bps.trans ?_⟩, f1.trans r4, f2.trans r5⟩
    · rw [List.map_cons, execAll]
      simp only [exec, Outcome.ok_bind, e, Op.executes, Bool.false_eq_true, false_and, if_false]
    · funext b
      rw [r3 b]
      simp [Bool.or_assoc]

end Verif.Proofs.Top
