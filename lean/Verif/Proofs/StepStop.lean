import Verif.Proofs.TopSeq

/-! # `Step` from a breakpoint stop, when something stops it -/

namespace Verif.Proofs.Top
open Verif Verif.Model.Top Verif.Spec.Program

variable {σ : Type}

/-- `Step(n)`, `n ≥ 2`, from a breakpoint stop over an instruction that asks for nothing, when a later instruction asks for a halt or
carries a breakpoint: as if the debugger were not there. -/
theorem step_stopped_stops (env : Env σ) {C : Nat → Bool} {s : St σ} {m : Machine σ} (hr : Rel env.sem C s m)
    (ht : Tame env.sem C m) (hst : s.status = .halted) (hso : s.stepOver = true)
    (hb : s.bps m.pc.toNat = true) (n : Nat) (hn : 2 ≤ n)
    (he : (next env.sem m).2 = []) (hq : ¬ Quiet env.sem s.bps (next env.sem m).1 (n - 1)) :
    ∃ j s', Rel env.sem C s' (run env.sem (j + 1) m) ∧ s'.status = .halted ∧ s'.bps = s.bps ∧ s'.halted = true ∧
      ((step env n s = .ok (.ok (j + 1), s') ∧ 0 < j ∧ j + 1 ≤ n ∧ Quiet env.sem s.bps (next env.sem m).1 (j - 1) ∧
          s.bps (run env.sem j m).pc.toNat = false ∧ (next env.sem (run env.sem j m)).2 ≠ [] ∧
          s'.reason = lastReason .none (next env.sem (run env.sem j m)).2 ∧ s'.instret = s.instret + (j + 1) ∧ s'.stepOver = false) ∨
       (step env n s = .ok (.ok (j + 2), s') ∧ j + 2 ≤ n ∧ Quiet env.sem s.bps (next env.sem m).1 j ∧
          s.bps (run env.sem (j + 1) m).pc.toNat = true ∧ s'.reason = .softwareBreakpoint ∧
          s'.instret = s.instret + (j + 2) ∧ s'.stepOver = true)) := by
  have hr' : Rel env.sem C ({ s with status := .singleStep, halted := false, stepOver := false } : St σ) m :=
    rel_of_fields hr rfl rfl rfl rfl
  obtain ⟨h1, h2⟩ := stepPast_bp env hr' (ht 0) hb
  have e : step env n s = stepEnd (execLoop env true n n 1 none (next env.sem m).1.pc.toNat
      (stepPast env ({ s with status := .singleStep, halted := false, stepOver := false } : St σ))) := by
    unfold step
    rw [if_neg (by omega), if_neg (by simp [hst])]
    simp only [hso, if_true, ← h1.pc, Int.toNat_natCast]
  rw [e]
  have hsim := execLoop_sim env C true n n 1 none _ _ h1 (Tame.next ht)
    (by rw [h2.halted, he]; rfl) (by omega) (by omega)
  generalize execLoop env true n n 1 none (next env.sem m).1.pc.toNat
    (stepPast env ({ s with status := .singleStep, halted := false, stepOver := false } : St σ)) = res at hsim
  have hbps : (stepPast env ({ s with status := .singleStep, halted := false, stepOver := false } : St σ)).bps =
    s.bps := h2.bps
  have hins : (stepPast env ({ s with status := .singleStep, halted := false, stepOver := false } : St σ)).instret =
    s.instret + 1 := h2.instret
  have hrun : ∀ j, run env.sem j (next env.sem m).1 = run env.sem (j + 1) m := fun j => rfl
  cases hsim with
  | quiet j s' hj hq' hr2 hf hh hre2 hso2 =>
    rw [hbps, show j = n - 1 by omega] at hq'
    exact absurd hq' hq
  | event j s' hj hq' hb2 he2 hr2 hf hh hre2 hso2 =>
    rw [hbps] at hq' hb2
    rw [stepEnd_other (by rw [hre2]; exact (lastReason_ne he2).1)]
    refine ⟨j + 1, { setPc (run env.sem (j + 1) (next env.sem m).1).pc.toNat s' with
        reason := if s'.halted then s'.reason else .none, status := .halted }, rel_of_fields (rel_setPc hr2) rfl rfl rfl rfl, rfl, hf.bps.trans hbps, hh,
      Or.inl ⟨by rw [show 1 + j + 1 = j + 1 + 1 by omega], by omega, by omega, hq', hb2, he2, ?_, ?_, hso2.trans h2.stepOver⟩⟩
    · simp only [hh, if_true]; exact hre2
    · show s'.instret = _
      rw [hf.instret, hins]; omega
  | bp j s' hj hq' hb2 hr2 hf hh hre2 hso2 =>
    rw [hbps] at hq' hb2
    rw [stepEnd_bp hre2]
    refine ⟨j, { setPc (run env.sem j (next env.sem m).1).pc.toNat s' with
        reason := if s'.halted then s'.reason else .none, status := .halted }, rel_of_fields hr2 rfl rfl rfl rfl, rfl, hf.bps.trans hbps, hh,
      Or.inr ⟨by rw [show 1 + j + 1 = j + 2 by omega], by omega, hq', hb2, ?_, ?_, hso2⟩⟩
    · simp only [hh, if_true]; exact hre2
    · show s'.instret = _
      rw [hf.instret, hins]; omega

end Verif.Proofs.Top
