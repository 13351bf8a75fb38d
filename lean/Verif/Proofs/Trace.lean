import Verif.Model.Trace
import Verif.Proofs.TopHist

/-! # Lemmas on traces -/

namespace Verif.Proofs.Trace
open Verif Verif.Model.Top Verif.Model.Trace Verif.Proofs.Top
open Verif.Spec.Program

variable {σ : Type}

/-- The first `j` instructions of the program: address and word. -/
def path (sem : Sem σ) : Nat → Machine σ → List Entry
  | 0, _ => []
  | j + 1, m => ⟨m.pc, word m.mem m.pc.toNat⟩ :: path sem j (next sem m).1

theorem path_succ (sem : Sem σ) : ∀ (j : Nat) (m : Machine σ), path sem (j + 1) m =
    path sem j m ++ [⟨(run sem j m).pc, word (run sem j m).mem (run sem j m).pc.toNat⟩]
  | 0, m => rfl
  | j + 1, m => by rw [path, path_succ sem j]; rfl

theorem ofNat_toNat (p : BitVec 32) : BitVec.ofNat 32 p.toNat = p := by simp

/-- The entry of an instruction without breakpoint. -/
theorem entry_plain {C : Nat → Bool} (env : Env σ) {s : St σ} {m : Machine σ} (h : Rel env.sem C s m) (ht : TameAt env.sem C m)
    (hb : s.bps m.pc.toNat = false) :
    entryAt m.pc.toNat (fetchExec env m.pc.toNat s) = ⟨m.pc, word m.mem m.pc.toNat⟩ := by
  obtain ⟨r1, r2⟩ := fetchExec_plain env h ht hb
  unfold entryAt
  rw [r1.word ht.1 (by rw [r2.bps]; exact hb), next_code_word ht _ ht.1 ht.2.1, ofNat_toNat]

/-- The entry of a breakpoint. -/
theorem entry_bp {C : Nat → Bool} (env : Env σ) {s : St σ} {m : Machine σ} (h : Rel env.sem C s m)
    (hb : s.bps m.pc.toNat = true) :
    entryAt m.pc.toNat (fetchExec env m.pc.toNat s) = ⟨m.pc, ebreak⟩ := by
  obtain ⟨q1, q2, -⟩ := fetchExec_bp env h hb
  have := (q1.bp m.pc.toNat (by show (fetchExec env m.pc.toNat s).bps _ = true; rw [q2]; exact hb)).2.2.1
  unfold entryAt
  rw [ofNat_toNat]
  exact congrArg _ this

/-- The entries of the loop, in terms of the count it returns. -/
theorem traceLoop_sim (env : Env σ) (C : Nat → Bool) (n : Nat) :
    ∀ (fuel count : Nat) (last : Option Nat) (s : St σ) (m : Machine σ), Rel env.sem C s m → Tame env.sem C m →
      s.halted = false → count ≤ n → n ≤ count + fuel →
      let r := execLoop env false n fuel count last m.pc.toNat s
      (¬ (r.2.2.2.halted = true ∧ r.2.2.2.reason = .softwareBreakpoint) ∧
          ∃ d, r.1 = count + d ∧ traceLoop env n fuel count m.pc.toNat s = path env.sem d m) ∨
      ((r.2.2.2.halted = true ∧ r.2.2.2.reason = .softwareBreakpoint) ∧
          ∃ d, r.1 = count + d + 1 ∧
            traceLoop env n fuel count m.pc.toNat s = path env.sem d m ++ [⟨(run env.sem d m).pc, ebreak⟩])
  | 0, count, last, s, m, hr, _, hh, h1, h2 => by
    left
    exact ⟨by simp [execLoop, hh], 0, rfl, rfl⟩
  | fuel + 1, count, last, s, m, hr, ht, hh, h1, h2 => by
    rw [execLoop, traceLoop]
    by_cases hc : n ≤ count
    · rw [if_pos (Or.inr hc), if_pos (Or.inr hc)]
      left
      exact ⟨by simp [hh], 0, rfl, rfl⟩
    · have hcond : ¬ (s.halted = true ∨ n ≤ count) := by simp [hh]; omega
      simp only [if_neg hcond]
      by_cases hb : s.bps m.pc.toNat = true
      · obtain ⟨q1, q2, q3, q4, q5, q6, q7, q8⟩ := fetchExec_bp env hr hb
        have he := entry_bp env hr hb
        right
        simp only [q6, q7, he, Bool.not_true, Bool.false_eq_true, if_false, reduceCtorEq]
        exact ⟨⟨trivial, trivial⟩, 0, rfl, rfl⟩
      · have hb' : s.bps m.pc.toNat = false := by simpa using hb
        obtain ⟨r1, r2⟩ := fetchExec_plain env hr (ht 0) hb'
        have hent := entry_plain env hr (ht 0) hb'
        by_cases he : (next env.sem m).2 = []
        · have hh' : (fetchExec env m.pc.toNat s).halted = false := by rw [r2.halted, hh, he]; rfl
          simp only [hh', hent, Bool.not_false, if_true]
          have ih := traceLoop_sim env C n fuel (count + 1) (some m.pc.toNat) (fetchExec env m.pc.toNat s)
            (next env.sem m).1 r1 (Tame.next ht) hh' (by omega) (by omega)
          rw [← r1.pc] at ih
          rcases ih with ⟨h3, d, h4, h5⟩ | ⟨h3, d, h4, h5⟩
          · left
            exact ⟨h3, d + 1, by rw [h4]; omega, by rw [h5]; rfl⟩
          · right
            exact ⟨h3, d + 1, by rw [h4]; omega, by rw [h5]; rfl⟩
        · have hh' : (fetchExec env m.pc.toNat s).halted = true := by
            rw [r2.halted]
            cases h' : (next env.sem m).2 with
            | nil => exact absurd h' he
            | cons a l => simp
          have hne := lastReason_ne (r := s.reason) he
          have hre' := r2.reason
          have hap : (fetchExec env m.pc.toNat s).reason ≠ .actionPoint := by rw [hre']; exact hne.2.1
          left
          simp only [hh', hent, Bool.not_true, Bool.false_eq_true, if_false, if_neg hap]
          exact ⟨by rw [hre']; exact fun h => hne.1 h.2, 1, rfl, rfl⟩

/-- The trace and the result of a run, from the state the thread starts in. -/
theorem traceRun_loop (env : Env σ) {C : Nat → Bool} {s : St σ} {m : Machine σ} (hr : Rel env.sem C s m) (ht : Tame env.sem C m)
    (hh : s.halted = false) (k : Nat) :
    ∃ j s', runEnd (execLoop env false k k 0 none s.m.pc.toNat s) = .ok (.ok (), s') ∧ Rel env.sem C s' (run env.sem j m) ∧
      ((s'.reason ≠ .softwareBreakpoint ∧ traceLoop env k k 0 s.m.pc.toNat s = path env.sem j m ∧ s'.instret = s.instret + j) ∨
       (s'.reason = .softwareBreakpoint ∧ s.bps (run env.sem j m).pc.toNat = true ∧ s'.instret = s.instret + j + 1 ∧
        traceLoop env k k 0 s.m.pc.toNat s = path env.sem j m ++ [⟨(run env.sem j m).pc, ebreak⟩])) := by
  have hsim := execLoop_sim env C false k k 0 none s m hr ht hh (by omega) (by omega)
  have htr := traceLoop_sim env C k k 0 none s m hr ht hh (by omega) (by omega)
  rw [hr.pc]
  generalize execLoop env false k k 0 none m.pc.toNat s = res at hsim htr
  cases hsim with
  | quiet j s' h1 hq h2 hf hh hre2 hso2 =>
    rw [runEnd_halt hh]
    refine ⟨j, _, rfl, rel_of_fields (rel_setPc h2) rfl rfl rfl rfl, .inl ⟨by simp [setPc, haltFlagPart, haltReasonPart], ?_, hf.instret⟩⟩
    rcases htr with ⟨-, d, h4, h5⟩ | ⟨⟨h3, -⟩, -⟩
    · dsimp only at h4
      rw [h5, show d = j by omega]
    · dsimp only at h3; rw [hh] at h3; cases h3
  | event j s' h1 hq hb he h2 hf hh hre2 hso2 =>
    have hns : s'.reason ≠ .softwareBreakpoint := by rw [hre2]; exact (lastReason_ne he).1
    rw [runEnd_other hh hns]
    refine ⟨j + 1, _, rfl, rel_of_fields (rel_setPc h2) rfl rfl rfl rfl, .inl ⟨hns, ?_, hf.instret⟩⟩
    rcases htr with ⟨-, d, h4, h5⟩ | ⟨⟨-, h3⟩, -⟩
    · dsimp only at h4
      rw [h5, show d = j + 1 by omega]
    · exact absurd h3 hns
  | bp j s' h1 hq hb h2 hf hh hre2 hso2 =>
    rw [runEnd_bp hh hre2]
    refine ⟨j, _, rfl, rel_of_fields h2 rfl rfl rfl rfl, .inr ⟨hre2, hb, hf.instret, ?_⟩⟩
    rcases htr with ⟨h3, -⟩ | ⟨-, d, h4, h5⟩
    · exact absurd ⟨hh, hre2⟩ h3
    · dsimp only at h4
      rw [h5, show d = j by omega]

end Verif.Proofs.Trace
