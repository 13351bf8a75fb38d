import Verif.Proofs.StepStop
import Verif.Props.RunControl

/-! # C104: exactly what `Step` does from a breakpoint stop -/

namespace Verif.Props

open Verif.Model.Top Verif.Proofs.Top
open Verif.Spec.Program (Machine Sem Ev Stop word ebreak next run TameAt Tame Quiet Shows)

variable {σ : Type}

/-- The first `j` instructions from `m` ask for nothing, and none but the first carries a breakpoint. -/
def Unhindered (sem : Sem σ) (bps : Nat → Bool) (m : Machine σ) (j : Nat) : Prop :=
  ∀ t < j, (next sem (run sem t m)).2 = [] ∧ (0 < t → bps (run sem t m).pc.toNat = false)

theorem unhindered_iff (sem : Sem σ) (bps : Nat → Bool) (m : Machine σ) (j : Nat) :
    Unhindered sem bps m (j + 1) ↔ (next sem m).2 = [] ∧ Quiet sem bps (next sem m).1 j := by
  constructor
  · exact fun h => ⟨(h 0 (by omega)).1, fun t ht => ⟨(h (t + 1) (by omega)).1, (h (t + 1) (by omega)).2 (by omega)⟩⟩
  · rintro ⟨h1, h2⟩ t ht
    cases t with
    | zero => exact ⟨h1, fun h => absurd h (by omega)⟩
    | succ t => exact ⟨(h2 t (by omega)).1, fun _ => (h2 t (by omega)).2⟩

/-- C104: after any legal session that ends at a breakpoint stop, `Step(n)` depends on whether anything hinders the next `n`
instructions. If nothing does, `Step(1)` is undefined, and `Step(n)` for larger `n` executes them, reports `n` and leaves the pc on the
last of them instead of behind it. If something does, `Step(n)` ends as it should: with the first instruction that asks for a halt, or
in front of the next breakpoint, whose `ebreak` it counts; the debugger then sees the program itself. -/
theorem C104_from_stop (env : Env σ) (C : Nat → Bool) (m0 : Machine σ) (ht : Tame env.sem C m0)
    (ops : List Op) (hl : LegalAll env C ops (fresh m0)) (s : St σ) (hits : Nat)
    (hs : execAll env ops (fresh m0) = .ok (s, hits)) (hr : s.reason = .softwareBreakpoint) (n : Nat) (hn : 0 < n) :
    ∃ i, Shows s.bps s.m (run env.sem i m0) ∧
      (Unhindered env.sem s.bps (run env.sem i m0) n →
        (n = 1 → step env n s = .ub) ∧
        (1 < n → ∃ s', step env n s = .ok (.ok n, s') ∧ s'.m.regs = (run env.sem (i + n) m0).regs ∧
          s'.m.pc = (run env.sem (i + (n - 1)) m0).pc ∧ s'.instret = s.instret + n)) ∧
      (¬ Unhindered env.sem s.bps (run env.sem i m0) n →
        ∃ k j s', step env n s = .ok (.ok k, s') ∧ k ≤ n ∧ 0 < j ∧ s'.status = .halted ∧ s'.bps = s.bps ∧
          Shows s.bps s'.m (run env.sem (i + j) m0) ∧ s'.instret = s.instret + k ∧
          ((k = j ∧ Unhindered env.sem s.bps (run env.sem i m0) (j - 1) ∧
              (∃ h : (next env.sem (run env.sem (i + (j - 1)) m0)).2 ≠ [], s'.reason = reasonOf (List.getLast _ h))) ∨
           (k = j + 1 ∧ Unhindered env.sem s.bps (run env.sem i m0) j ∧ s.bps (run env.sem (i + j) m0).pc.toNat = true ∧
              s'.reason = .softwareBreakpoint))) := by
  obtain ⟨i, s2, hits', e, hg, -⟩ := execAll_good ops (good_fresh ht) hl
  rw [hs] at e; injection e with e; injection e with e1 e2; subst e1
  have hst := hg.stopped hr
  refine ⟨i, hg.rel.shows, ?_, ?_⟩
  all_goals obtain ⟨p, rfl⟩ : ∃ p, n = p + 1 := ⟨n - 1, by omega⟩
  · intro hu
    have hu := (unhindered_iff ..).1 hu
    refine ⟨fun h1 => ?_, fun h1 => ?_⟩
    · have : p = 0 := by omega
      subst this
      exact step_stopped_one env hg.rel hg.tame hg.status hst.1 hr hst.2 hu.1
    · obtain ⟨s', e, g1, g2, g3⟩ := step_stopped_quiet env hg.rel hg.tame hg.status hst.1 hr hst.2 (p + 1) (by omega) hu.1 hu.2
      rw [← run_add] at g1 g2
      exact ⟨s', e, g2, g1, g3⟩
  · intro hu
    by_cases he : (next env.sem (run env.sem i m0)).2 = []
    · have hq : ¬ Quiet env.sem s.bps (next env.sem (run env.sem i m0)).1 (p + 1 - 1) := fun hq => hu ((unhindered_iff ..).2 ⟨he, hq⟩)
      have hp : 2 ≤ p + 1 := by
        rcases Nat.eq_zero_or_pos p with h0 | h0
        · subst h0
          exact absurd (fun t ht => by omega) hq
        · omega
      obtain ⟨j, s', g1, g2, g3, -, g⟩ := step_stopped_stops env hg.rel hg.tame hg.status hst.1 hst.2 (p + 1) hp he hq
      have hsh := g1.shows
      rw [g3, ← run_add] at hsh
      rcases g with ⟨e, hj, hjn, hq2, -, he2, hre, hi, -⟩ | ⟨e, hjn, hq2, hb, hre, hi, -⟩
      · rw [← run_add] at he2 hre
        refine ⟨j + 1, j + 1, s', e, hjn, by omega, g2, g3, hsh, hi, Or.inl ⟨rfl, ?_, he2, ?_⟩⟩
        · obtain ⟨q, rfl⟩ : ∃ q, j = q + 1 := ⟨j - 1, by omega⟩
          exact (unhindered_iff ..).2 ⟨he, hq2⟩
        · rw [hre, reasonOf_eq]; exact lastReason_getLast _ _ he2
      · rw [← run_add] at hb
        exact ⟨j + 2, j + 1, s', e, hjn, by omega, g2, g3, hsh, hi, Or.inr ⟨rfl, (unhindered_iff ..).2 ⟨he, hq2⟩, hb, hre⟩⟩
    · obtain ⟨s', e, h1, h2, h3, -, h5, h6, -⟩ :=
        step_stopped_event env hg.rel hg.tame hg.status hst.1 hst.2 ((p + 1 : Nat) : Int) (by omega) he
      have hsh := h1.shows
      rw [h3, ← run_succ] at hsh
      exact ⟨1, 1, s', e, by omega, by omega, h2, h3, hsh, h5, Or.inl ⟨rfl, fun t ht => by omega, he,
        by rw [h6, reasonOf_eq]; exact lastReason_getLast _ _ he⟩⟩

/-- From the stop at 4 `Step(2)` is not hindered and leaves the pc on the jump it executed; `Step(5)` meets the breakpoint at 4 again
after three instructions and stops there. -/
example : let s := (okOr (.ok 0, fresh demo) (step demoEnv 2 demo2)).2
    let t := okOr (.ok 0, fresh demo) (step demoEnv 5 demo2)
    s.m.pc = 8 ∧ t.2.m.pc = 4 ∧ t.2.reason = .softwareBreakpoint ∧ (match t.1 with | .ok k => k | .error _ => 0) = 4 := by
  decide +kernel

end Verif.Props
