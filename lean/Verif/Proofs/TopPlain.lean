import Verif.Model.Session
import Verif.Spec.Plain
import Verif.Proofs.TopSeq

/-! # Running without breakpoints -/

namespace Verif.Proofs.Top

open Verif Verif.Model.Top
open Verif.Spec.Program (Machine Sem Ev Stop word ebreak next run Steady effect Marked)

variable {σ : Type}

/-- What the core would fetch in the next `n` instructions is what is in memory. -/
def Agrees (sem : Sem σ) (n : Nat) (cache : Nat → Option (BitVec 32)) (m : Machine σ) : Prop :=
  ∀ i < n, ∀ w, cache (run sem i m).pc.toNat = some w → w = word (run sem i m).mem (run sem i m).pc.toNat

theorem Steady.tail {sem : Sem σ} {m : Machine σ} {n : Nat} (h : Steady sem m (n + 1)) : Steady sem (next sem m).1 n := by
  intro i j hij hj
  have := h (i + 1) (j + 1) (by omega) (by omega)
  exact this

/-- One instruction from a coherent cache. -/
theorem fetchExec_step (env : Env σ) (s : St σ)
    (hc : ∀ w, s.cache s.m.pc.toNat = some w → w = word s.m.mem s.m.pc.toNat) {f : Machine σ → Machine σ × List Ev}
    (hf : effect env.sem s.m.mem s.m.pc.toNat (word s.m.mem s.m.pc.toNat) = some f) :
    ∃ cache, (∀ b w, cache b = some w → s.cache b = some w ∨ (b = s.m.pc.toNat ∧ w = word s.m.mem b)) ∧
      fetchExec env s.m.pc.toNat s =
        (let r := f { s.m with pc := s.m.pc + 4 }
        let t := r.2.foldl (fun s e => requestHalt (evReason e) s) { s with m := r.1, cache := cache }
        { t with instret := t.instret + 1 }) := by
  have hx : ∀ c, execInst env (word s.m.mem s.m.pc.toNat) s.m.pc.toNat (setPc (s.m.pc.toNat + 4) { s with cache := c }) =
      (f { s.m with pc := s.m.pc + 4 }).2.foldl (fun s e => requestHalt (evReason e) s)
        { s with m := (f { s.m with pc := s.m.pc + 4 }).1, cache := c } := by
    intro c
    unfold effect at hf
    have h0 := isCall_iff s.m.mem s.m.pc.toNat
    by_cases he : word s.m.mem s.m.pc.toNat = ebreak
    · rw [if_pos he] at hf
      simp only [execInst, setPc, ofNat_add4]
      rw [if_pos (he.trans ebreak_eq.symm)]
      simp only [h0, hf]
    · rw [if_neg he] at hf
      injection hf with hf
      subst hf
      simp only [execInst, setPc, ofNat_add4]
      rw [if_neg (by rw [ebreak_eq]; exact he)]
  unfold fetchExec getInst
  cases e : s.cache s.m.pc.toNat with
  | some w =>
    have hw := hc w e
    refine ⟨s.cache, fun b w h => .inl h, ?_⟩
    subst hw
    exact congrArg (fun t : St σ => { t with instret := t.instret + 1 }) (hx s.cache)
  | none =>
    refine ⟨fun b => if b = s.m.pc.toNat then some (word s.m.mem s.m.pc.toNat) else
      if env.keep s.m.pc.toNat b then s.cache b else none, ?_, ?_⟩
    · intro b w h
      simp only at h
      split at h
      · rename_i hb
        injection h with h
        exact .inr ⟨hb, by rw [hb]; exact h.symm⟩
      · split at h
        · exact .inl h
        · exact nomatch h
    · exact congrArg (fun t : St σ => { t with instret := t.instret + 1 }) (hx _)

theorem next_ne {sem : Sem σ} {m : Machine σ} (h : .fault ∉ (next sem m).2) : ∃ f, effect sem m.mem m.pc.toNat (word m.mem m.pc.toNat) = some f := by
  unfold next at h
  cases he : effect sem m.mem m.pc.toNat (word m.mem m.pc.toNat) with
  | none => rw [he] at h; exact absurd (List.mem_singleton.2 rfl) h
  | some f => exact ⟨f, rfl⟩

theorem next_sem {sem : Sem σ} {m : Machine σ} {f : Machine σ → Machine σ × List Ev}
    (h : effect sem m.mem m.pc.toNat (word m.mem m.pc.toNat) = some f) :
    (next sem m).1 = (f { m with pc := m.pc + 4 }).1 ∧ (next sem m).2 = (f { m with pc := m.pc + 4 }).2.map .ev := by
  simp [next, h]

/-- The state after a quiet execution. -/
structure After (sem : Sem σ) (k : Nat) (s s' : St σ) : Prop where
  m : s'.m = run sem k s.m
  halted : s'.halted = s.halted
  reason : s'.reason = s.reason
  stepOver : s'.stepOver = s.stepOver
  bps : s'.bps = s.bps
  orig : s'.orig = s.orig
  status : s'.status = s.status
  instret : s'.instret = s.instret + k
  cache : ∀ b w, s'.cache b = some w → s.cache b = some w ∨
    ∃ i < k, (run sem i s.m).pc.toNat = b ∧ w = word (run sem i s.m).mem b

/-- A quiet execution of `k` instructions inside the loop of `Step` or `Run`. -/
theorem execLoop_quiet (env : Env σ) (reset : Bool) (n : Nat) : ∀ (k fuel count : Nat) (last : Option Nat) (s : St σ),
    s.halted = false → count + k ≤ n → (∀ i < k, (next env.sem (run env.sem i s.m)).2 = []) → Agrees env.sem k s.cache s.m →
    Steady env.sem s.m k →
    ∃ last' s', execLoop env reset n (fuel + k) count last s.m.pc.toNat s =
      execLoop env reset n fuel (count + k) last' s'.m.pc.toNat s' ∧ After env.sem k s s'
  | 0, fuel, count, last, s, _, _, _, _, _ => ⟨last, s, rfl, rfl, rfl, rfl, rfl, rfl, rfl, rfl, rfl, fun _ _ h => .inl h⟩
  | k + 1, fuel, count, last, s, hh, hn, hq, ha, hst => by
    have h0 : (next env.sem s.m).2 = [] := hq 0 (by omega)
    obtain ⟨f, hne⟩ := next_ne (sem := env.sem) (m := s.m) (by rw [h0]; simp)
    obtain ⟨h1, h2⟩ := next_sem (sem := env.sem) hne
    obtain ⟨cache, hcache, e⟩ := fetchExec_step env s (fun w hw => ha 0 (by omega) w hw) hne
    have hev : (f { s.m with pc := s.m.pc + 4 }).2 = [] := by
      rw [h2] at h0
      exact List.map_eq_nil_iff.1 h0
    simp only [hev, List.foldl_nil, ← h1] at e
    obtain ⟨s1, hs1⟩ : ∃ t : St σ, t = { s with m := (next env.sem s.m).1, cache := cache, instret := s.instret + 1 } := ⟨_, rfl⟩
    have e1 : fetchExec env s.m.pc.toNat s = s1 := by rw [e, hs1]
    have hm1 : s1.m = (next env.sem s.m).1 := by rw [hs1]
    have hh1 : s1.halted = false := by rw [hs1]; exact hh
    have hc1 : s1.cache = cache := by rw [hs1]
    obtain ⟨last', s', e', hA⟩ := execLoop_quiet env reset n k fuel (count + 1) (some s.m.pc.toNat) s1 hh1 (by omega)
      (by intro i hi; rw [hm1]; exact hq (i + 1) (by omega))
      (by
        intro i hi w hw
        rw [hm1] at hw ⊢
        rw [hc1] at hw
        rcases hcache _ _ hw with h | ⟨hb, hw'⟩
        · exact ha (i + 1) (by omega) w h
        · rw [hw', hb]
          exact (hst 0 (i + 1) (by omega) (by omega)).symm)
      (by rw [hm1]; exact Steady.tail hst)
    refine ⟨last', s', ?_, ?_⟩
    · have h3 : execLoop env reset n (fuel + k + 1) count last s.m.pc.toNat s =
          execLoop env reset n (fuel + k) (count + 1) (some s.m.pc.toNat) s1.m.pc.toNat s1 := by
        rw [execLoop, if_neg (by rw [hh]; simp; omega)]
        simp only [e1, hh1, Bool.not_false, if_true]
      rw [show fuel + (k + 1) = fuel + k + 1 from rfl, h3, e', show count + 1 + k = count + (k + 1) from by omega]
    · constructor
      · rw [hA.m, hm1]; rfl
      · rw [hA.halted, hs1]
      · rw [hA.reason, hs1]
      · rw [hA.stepOver, hs1]
      · rw [hA.bps, hs1]
      · rw [hA.orig, hs1]
      · rw [hA.status, hs1]
      · rw [hA.instret, hs1]; show s.instret + 1 + k = _; omega
      · intro b w hw
        rcases hA.cache b w hw with h | ⟨i, hi, h4, h5⟩
        · rw [hc1] at h
          rcases hcache b w h with h | ⟨hb, hw'⟩
          · exact .inl h
          · exact .inr ⟨0, by omega, hb.symm, hw'⟩
        · rw [hm1] at h4 h5
          exact .inr ⟨i + 1, by omega, h4, h5⟩

theorem setPc_self (s : St σ) : setPc s.m.pc.toNat s = s := by
  unfold setPc
  rw [BitVec.ofNat_toNat, BitVec.setWidth_eq]

/-- `Step(n)` on a core with no pending breakpoint stop. -/
theorem step_quiet (env : Env σ) (s : St σ) (n : Nat) (hn : 0 < n) (hs : s.status = .halted) (ho : s.stepOver = false)
    (hr : s.reason ≠ .softwareBreakpoint) (hq : ∀ i < n, (next env.sem (run env.sem i s.m)).2 = [])
    (ha : Agrees env.sem n s.cache s.m) (hst : Steady env.sem s.m n) :
    ∃ s', step env n s = .ok (.ok n, s') ∧ s'.m = run env.sem n s.m ∧ s'.status = .halted ∧ s'.reason = .none ∧
      s'.stepOver = false ∧ s'.bps = s.bps ∧ s'.instret = s.instret + n ∧
      ∀ b w, s'.cache b = some w → s.cache b = some w ∨
        ∃ i < n, (run env.sem i s.m).pc.toNat = b ∧ w = word (run env.sem i s.m).mem b := by
  obtain ⟨last, s1, e, hA⟩ := execLoop_quiet env true n n 0 0 none { s with status := .singleStep, halted := false } rfl (by omega)
    hq ha hst
  have hr1 : s1.reason ≠ .softwareBreakpoint := by rw [hA.reason]; exact hr
  have hh1 : s1.halted = false := hA.halted
  refine ⟨{ s1 with reason := .none, status := .halted }, ?_, hA.m, rfl, rfl, hA.stepOver.trans ho, hA.bps, hA.instret, hA.cache⟩
  simp only [ho] at e
  unfold step
  rw [if_neg (by omega), if_neg (by rw [hs]; simp)]
  simp only [ho, Bool.false_eq_true, if_false, Int.toNat_natCast]
  rw [Nat.zero_add] at e
  rw [e, execLoop, stepEnd_other hr1, setPc_self]
  simp [hh1]

/-- The loop over a program that asks for a halt with instruction number `n`. -/
theorem loop_stops (env : Env σ) (reset : Bool) (s : St σ) (hh : s.halted = false) (n k : Nat) (hk : n < k)
    (hq : ∀ i < n, (next env.sem (run env.sem i s.m)).2 = [])
    (hlast : (next env.sem (run env.sem n s.m)).2 = [.ev .userRequest])
    (ha : Agrees env.sem (n + 1) s.cache s.m) (hst : Steady env.sem s.m (n + 1)) :
    ∃ last s2, execLoop env reset k k 0 none s.m.pc.toNat s = (n + 1, last, s2.m.pc.toNat, s2) ∧
      s2.m = run env.sem (n + 1) s.m ∧ s2.halted = true ∧ s2.reason = .userRequest ∧ s2.bps = s.bps ∧
      s2.stepOver = s.stepOver ∧ s2.instret = s.instret + (n + 1) := by
  obtain ⟨last, s1, e, hA⟩ := execLoop_quiet env reset k n (k - n) 0 none s hh (by omega)
    hq (fun i hi => ha i (by omega)) (fun i j hij hj => hst i j hij (by omega))
  have hm1 : s1.m = run env.sem n s.m := hA.m
  obtain ⟨f, hne⟩ := next_ne (sem := env.sem) (m := s1.m) (by rw [hm1, hlast]; simp)
  obtain ⟨h1, h2⟩ := next_sem (sem := env.sem) hne
  obtain ⟨cache, hcache, e2⟩ := fetchExec_step env s1 (fun w hw => by
    rcases hA.cache _ _ hw with h | ⟨i, hi, h4, h5⟩
    · rw [hm1]; rw [hm1] at h
      exact ha n (by omega) w h
    · rw [h5, hm1]
      rw [hm1] at h4
      have := hst i n (by omega) (by omega)
      rw [h4] at this
      exact this.symm) hne
  have hev : (f { s1.m with pc := s1.m.pc + 4 }).2 = [.userRequest] := by
    rw [← hm1, h2] at hlast
    cases hl : (f { s1.m with pc := s1.m.pc + 4 }).2 with
    | nil => rw [hl] at hlast; exact nomatch hlast
    | cons a l =>
      rw [hl, List.map_cons] at hlast
      injection hlast with ha hl'
      injection ha with ha
      rw [ha, List.map_eq_nil_iff.1 hl']
  simp only [hev, List.foldl_cons, List.foldl_nil, ← h1, evReason, requestHalt] at e2
  have hm2 : (next env.sem s1.m).1 = run env.sem (n + 1) s.m := by rw [hm1, run_succ]
  rw [hm2] at e2
  obtain ⟨s2, hs2⟩ : ∃ t : St σ, t = fetchExec env s1.m.pc.toNat s1 := ⟨_, rfl⟩
  have hh2 : s2.halted = true := by rw [hs2, e2]
  have hr2 : s2.reason = .userRequest := by rw [hs2, e2]
  refine ⟨some s1.m.pc.toNat, s2, ?_, by rw [hs2, e2], hh2, hr2, by rw [hs2, e2]; exact hA.bps, ?_, ?_⟩
  · rw [show k - n + n = k from by omega, Nat.zero_add] at e
    refine e.trans ?_
    obtain ⟨f, hf⟩ : ∃ f, k - n = f + 1 := ⟨k - n - 1, by omega⟩
    rw [hf, execLoop, if_neg (by rw [hA.halted, hh]; simp; omega)]
    simp only [← hs2, hh2, hr2]
    simp
  · rw [hs2, e2]
    simp [hA.stepOver]
  · rw [hs2, e2]
    show s1.instret + 1 = _
    rw [hA.instret]
    omega

/-- `Run` of a program that asks for a halt with instruction number `n`. -/
theorem run_stops (env : Env σ) (s : St σ) (n k : Nat) (hk : n < k) (hs : s.status ≠ .running) (ho : s.stepOver = false)
    (hq : ∀ i < n, (next env.sem (run env.sem i s.m)).2 = [])
    (hlast : (next env.sem (run env.sem n s.m)).2 = [.ev .userRequest])
    (ha : Agrees env.sem (n + 1) s.cache s.m) (hst : Steady env.sem s.m (n + 1)) :
    ∃ s', runHalt env k s = .ok (.ok (), s') ∧ s'.m = run env.sem (n + 1) s.m ∧ s'.status = .halted ∧
      s'.reason = .userRequest ∧ s'.halted = true ∧ s'.bps = s.bps ∧ s'.instret = s.instret + (n + 1) := by
  obtain ⟨last, s2, e, hm, hh, hr, hb, -, hi⟩ := loop_stops env false { s with status := .running, halted := false } rfl n k hk
    hq hlast ha hst
  refine ⟨{ s2 with status := .halted }, ?_, hm, rfl, hr, hh, hb, hi⟩
  unfold runHalt runStart
  rw [if_neg hs]
  simp only [ho, Bool.false_eq_true, if_false]
  simp only [ho] at e
  rw [e, runEnd_other hh (by rw [hr]; simp), setPc_self]

/-- `Step(k)` over a program that asks for a halt with instruction number `n < k`. -/
theorem step_stops (env : Env σ) (s : St σ) (n k : Nat) (hk : n < k) (hs : s.status = .halted) (ho : s.stepOver = false)
    (hq : ∀ i < n, (next env.sem (run env.sem i s.m)).2 = [])
    (hlast : (next env.sem (run env.sem n s.m)).2 = [.ev .userRequest])
    (ha : Agrees env.sem (n + 1) s.cache s.m) (hst : Steady env.sem s.m (n + 1)) :
    ∃ s', step env k s = .ok (.ok (n + 1), s') ∧ s'.m = run env.sem (n + 1) s.m ∧ s'.status = .halted ∧
      s'.reason = .userRequest ∧ s'.bps = s.bps ∧ s'.instret = s.instret + (n + 1) := by
  obtain ⟨last, s2, e, hm, hh, hr, hb, -, hi⟩ := loop_stops env true { s with status := .singleStep, halted := false } rfl n k hk
    hq hlast ha hst
  refine ⟨{ s2 with reason := .userRequest, status := .halted }, ?_, hm, rfl, rfl, hb, hi⟩
  unfold step
  rw [if_neg (by omega), if_neg (by rw [hs]; simp)]
  simp only [ho, Bool.false_eq_true, if_false, Int.toNat_natCast]
  simp only [ho] at e
  rw [e, stepEnd_other (by rw [hr]; simp), setPc_self]
  simp [hh, hr]

end Verif.Proofs.Top
