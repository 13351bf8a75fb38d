import Verif.Proofs.Teardown
import Verif.Props.RunControl

/-! # C76: destruction of the core -/

namespace Verif.Props

open Verif.Model.Top Verif.Model.Threads Verif.Proofs.Threads Verif.Proofs.Top
open Verif.Spec.Program (Machine word ebreak)

variable {σ : Type}

/-- C76 for callers that destroy the core while it runs or after its threads have ended, and are disciplined otherwise
(missing: other callers, for which it is false, see `C76_use_after`). No schedule has undefined behaviour, and when the
destructor has returned every run thread has ended. -/
theorem C76_safe_partial (env : Env σ) (m0 : Machine σ) (l : List LAct) (hd : LDisciplinedAll env l (newLife (fresh m0))) :
    ∃ x, lacts env l (newLife (fresh m0)) = .ok x ∧ (x.phase = .gone → ∀ i < x.w.n, (x.w.thr i).lbl = .done) := by
  obtain ⟨x, e, h⟩ := lacts_inv env l (linv_new m0) hd
  exact ⟨x, e, h.gone⟩

/-- C76 for a core whose halt flag is up when it is destroyed (missing: others, see `C76_hang`): in every continuation,
once the run thread has made six more steps the wait in the destructor ends. -/
theorem C76_returns_partial (env : Env σ) (m0 : Machine σ) (l : List LAct) (hd : LDisciplinedAll env l (newLife (fresh m0)))
    (x y : Life σ) (hx : lacts env l (newLife (fresh m0)) = .ok x) (hp : x.phase = .alive) (hu : x.w.user = .idle)
    (hr : x.w.core.status = .running) (hh : x.w.core.halted = true) (hy : lact env .destroy x = .ok y)
    (l' : List LAct) (z : Life σ) (hz : lacts env l' y = .ok z) (hc : 6 ≤ l'.count (.api (.thr (x.w.n - 1)))) :
    ∃ z', lact env (.api .cont) z = .ok z' ∧ z'.phase = .gone := by
  obtain ⟨x', e, h⟩ := lacts_inv env l (linv_new m0) hd
  rw [hx] at e; injection e with e; subst e
  obtain ⟨y', e, hi⟩ := lact_inv env h (a := .destroy) (fun _ _ => .inl hr)
  rw [hy] at e; injection e with e; subst e
  unfold lact at hy
  rw [hp] at hy
  dsimp only at hy
  rw [if_pos hu, if_pos hr] at hy
  injection hy with hy
  subst hy
  have hact := (h.inv.run hr).2
  have c : Closing 6 (⟨{ x.w with user := .waiting }, .ending⟩ : Life σ) := by
    refine ⟨hi, fun _ _ => hh, fun _ => ?_, fun _ hdn => absurd hdn hact.2, by simp⟩
    dsimp only
    cases (x.w.thr (x.w.n - 1)).lbl <;> simp [rank]
  have cz := (closing_acts env l' c hz).1
  have h0 : 6 - l'.count (.api (.thr (x.w.n - 1))) = 0 := by omega
  dsimp only at cz
  rw [h0] at cz
  exact closing_zero env cz

-- `Run`, `Halt` and the destructor, which returns after the thread has ended
def demoClose : List LAct :=
  [.api .run, .api (.thr 0), .api .halt, .api .cont, .api .cont, .destroy] ++ List.replicate 6 (.api (.thr 0)) ++ [.api .cont]

example : (match lacts demoEnv demoClose (newLife (fresh demo)) with
    | .ok x => x.phase == .gone && (x.w.thr 0).lbl == .done && x.w.core.reason == .userRequest
    | _ => false) = true := by decide +kernel

-- a program that starts with `mpause`
def pauseEnv : Env Unit := ⟨{ inst := fun w _ m => (m, if w = 0x08000073 then [.userRequest] else []) }, fun _ _ => true⟩
def pauseMachine : Machine Unit := ⟨0, fun q => if q = 0 then 0x73 else if q = 3 then 0x08 else 0, ()⟩

/-- `Run` and seven steps of its thread, up to the notification. -/
def pauseRun : List LAct := .api .run :: List.replicate 7 (.api (.thr 0))

/-- C76 is false for `main` of `coralnpu_sim.cc`: the run thread stores the halted status, `Wait` returns at once because
of it, `main` returns and destroys the core, and the run thread uses the destroyed object. -/
theorem C76_use_after :
    (match lacts pauseEnv (pauseRun ++ [.api .wait, .destroy]) (newLife (fresh pauseMachine)) with
      | .ok x => x.phase == .gone && (x.w.thr 0).lbl == .notify && x.w.core.reason == .userRequest
      | _ => false) = true ∧
    isUb (lacts pauseEnv (pauseRun ++ [.api .wait, .destroy, .api (.thr 0)]) (newLife (fresh pauseMachine))) = true := by
  decide +kernel

/-- C76 is false for a core that runs a program without stores, events and `ebreak`: its destructor does not ask it to
halt, and in no schedule does it return. -/
theorem C76_hang (env : Env σ) (m0 : Machine σ) (hs : ∀ w a m, (env.sem w a m).2 = [] ∧ (env.sem w a m).1.mem = m.mem)
    (hm : ∀ a, word m0.mem a ≠ ebreak) (l : List LAct)
    (hl : ∀ a ∈ l, a = .destroy ∨ a = .api .cont ∨ ∃ i, a = .api (.thr i)) (x : Life σ)
    (hx : lacts env (.api .run :: l) (newLife (fresh m0)) = .ok x) : x.phase ≠ .gone := by
  obtain ⟨x1, e1, h1⟩ := spins_run env m0
  unfold lacts at hx
  rw [e1, Outcome.ok_bind] at hx
  have h := lacts_spins ⟨hs, hm⟩ l h1 hl hx
  rcases h.ph with ⟨hp, -⟩ | ⟨hp, -⟩ <;> rw [hp] <;> simp

-- an endless loop: a jump to itself at every address
def loopEnv : Env Unit := ⟨{ inst := fun _ a m => ({ m with pc := BitVec.ofNat 32 a }, []) }, fun _ _ => true⟩
def loopMachine : Machine Unit := ⟨0, fun q => if q % 4 = 0 then 0x6f else 0, ()⟩

example : (match lacts loopEnv (.api .run :: .destroy :: List.replicate 40 (.api (.thr 0)) ++ [.api .cont]) (newLife (fresh loopMachine)) with
    | .ok x => x.phase == .ending && x.w.core.instret == 13
    | _ => false) = true := by decide +kernel

end Verif.Props
