import Verif.Model.CosimCore
import Verif.Spec.Feed
import Verif.Spec.Plain
import Verif.Proofs.TopPlain

/-! # Lemmas for the core behind the cosimulation interface -/

namespace Verif.Proofs.CosimCore

open Verif Verif.Model.Cosim Verif.Model.CosimCore Verif.Model.Top Verif.Spec.Feed
open Verif.Spec.Program (Machine Sem next run word Steady)

variable {σ : Type}

/-- The instance has executed the first `k` of the supplied words, from `m`. -/
structure Fed (P : Params σ) (ws : Nat → BitVec 32) (m : Machine σ) (k : Nat) (h : Handle (St σ) (Nat → BitVec 8)) (s : St σ) : Prop where
  core : h.core = some s
  running : h.halted = false
  status : s.status = .halted
  stepOver : s.stepOver = false
  reason : s.reason = .none
  at_ : (onMem s h.mem).m = fed P.env.sem ws k m
  cache : ∀ b w, s.cache b = some w → ∃ j < k, (fed P.env.sem ws j m).pc.toNat = b ∧ w = ws j

theorem word_supply (w : BitVec 32) (m : Machine σ) : word (supply w m).mem (supply w m).pc.toNat = w :=
  Top.word_putWord_self m.mem m.pc.toNat w

theorem Fed.pc {P : Params σ} {ws : Nat → BitVec 32} {m : Machine σ} {k : Nat} {h : Handle (St σ) (Nat → BitVec 8)} {s : St σ}
    (hf : Fed P ws m k h s) : s.m.pc = (fed P.env.sem ws k m).pc := by
  have := congrArg Machine.pc hf.at_
  exact this

/-- The state on which the core steps. -/
theorem Fed.given {P : Params σ} {ws : Nat → BitVec 32} {m : Machine σ} {k : Nat} {h : Handle (St σ) (Nat → BitVec 8)} {s : St σ}
    (hf : Fed P ws m k h s) :
    (onMem s (putWord h.mem s.m.pc.toNat (ws k))).m = supply (ws k) (fed P.env.sem ws k m) := by
  rw [← hf.at_]; rfl

theorem Fed.coherent {P : Params σ} {ws : Nat → BitVec 32} {m : Machine σ} {k : Nat} {h : Handle (St σ) (Nat → BitVec 8)} {s : St σ}
    (hf : Fed P ws m k h s) (hc : Consistent P.env.sem ws (k + 1) m) (w : BitVec 32) (hw : s.cache s.m.pc.toNat = some w) : w = ws k := by
  obtain ⟨j, hj, h1, h2⟩ := hf.cache _ _ hw
  rw [h2]
  refine hc j k hj (Nat.lt_succ_self k) (BitVec.eq_of_toNat_eq ?_)
  rw [h1, hf.pc]

theorem agrees_one {sem : Sem σ} {cache : Nat → Option (BitVec 32)} {m : Machine σ}
    (h : ∀ w, cache m.pc.toNat = some w → w = word m.mem m.pc.toNat) : Top.Agrees sem 1 cache m := by
  intro i hi w hw
  have : i = 0 := by omega
  subst this
  exact h w hw

theorem steady_one (sem : Sem σ) (m : Machine σ) : Steady sem m 1 := fun i j hij hj => by
  obtain ⟨rfl, rfl⟩ : i = 0 ∧ j = 0 := by omega
  rfl

theorem call_step_eq (P : Params σ) (h : Handle (St σ) (Nat → BitVec 8)) (s : St σ) (hc : h.core = some s) (hh : h.halted = false)
    (w : BitVec 32) : call (engine P) (.step (some w)) (some h) =
      (match Model.CosimCore.step1 P s (putWord h.mem s.m.pc.toNat w) with
      | (r, p, e, mm) => .ok ({ ret := if r = none then 2 else 0, paused := p }, some { core := some e, mem := mm, halted := p })) := by
  have hr : ready (engine P) h = .ok (h, s) := by unfold ready; rw [hc]
  have hpc : (engine P).readReg pcName s = some (s.m.pc.zeroExtend 64) := by
    simp [engine]
  have hz : (BitVec.truncate 32 (BitVec.zeroExtend 64 s.m.pc) : BitVec 32) = s.m.pc := by
    apply BitVec.eq_of_toNat_eq; simp
  have hz' : (BitVec.zeroExtend 64 s.m.pc).toNat = s.m.pc.toNat := by
    have := s.m.pc.isLt
    simp only [BitVec.truncate_eq_setWidth, BitVec.toNat_setWidth]
    omega
  simp only [call, Model.Cosim.step, hr, Outcome.ok_bind, hh, Bool.false_eq_true, if_false, hpc, hz]
  show (match (engine P).step1 (s, putWord h.mem (BitVec.zeroExtend 64 s.m.pc).toNat w) with
    | (r, p, e, mm) => Outcome.ok _) = _
  rw [hz']
  show (match Model.CosimCore.step1 P s (putWord h.mem s.m.pc.toNat w) with
    | (r, p, e, mm) => Outcome.ok _) = _
  simp only [Bool.false_or]
  rfl

/-- A word that asks for nothing. -/
theorem fed_step {P : Params σ} {ws : Nat → BitVec 32} {m : Machine σ} {k : Nat} {h : Handle (St σ) (Nat → BitVec 8)} {s : St σ}
    (hf : Fed P ws m k h s) (hc : Consistent P.env.sem ws (k + 1) m) (hq : stops P.env.sem ws k m = []) :
    ∃ h' s', call (engine P) (.step (some (ws k))) (some h) = .ok ({ ret := 0 }, some h') ∧ Fed P ws m (k + 1) h' s' := by
  have hw := word_supply (ws k) (fed P.env.sem ws k m)
  obtain ⟨s', e, hm, h1, h2, h3, -, -, h6⟩ := Top.step_quiet P.env (onMem s (putWord h.mem s.m.pc.toNat (ws k))) 1 (by omega)
    hf.status hf.stepOver (by show s.reason ≠ _; rw [hf.reason]; simp)
    (fun i hi => by
      have : i = 0 := by omega
      subst this
      show (next P.env.sem (onMem s _).m).2 = []
      rw [hf.given]; exact hq)
    (agrees_one fun w hw' => by
      rw [hf.given, hw]
      exact hf.coherent hc w hw')
    (steady_one _ _)
  refine ⟨{ core := some s', mem := s'.m.mem, halted := false }, s', ?_, rfl, rfl, h1, h3, h2, ?_, ?_⟩
  · rw [call_step_eq P h s hf.core hf.running]
    unfold Model.CosimCore.step1
    rw [show ((1 : Int)) = ((1 : Nat) : Int) from rfl, e]
    simp [h2]
  · show s'.m = _
    rw [hm]
    show (next P.env.sem (onMem s _).m).1 = _
    rw [hf.given]; rfl
  · intro b w hb
    rcases h6 b w hb with h7 | ⟨i, hi, h7, h8⟩
    · obtain ⟨j, hj, h9⟩ := hf.cache b w h7
      exact ⟨j, by omega, h9⟩
    · have : i = 0 := by omega
      subst this
      refine ⟨k, by omega, ?_, ?_⟩
      · rw [← hf.pc]; exact h7
      · rw [h8, ← h7]
        show word (onMem s _).m.mem (onMem s _).m.pc.toNat = _
        rw [hf.given, hw]

/-- A word that pauses. -/
theorem fed_pause {P : Params σ} {ws : Nat → BitVec 32} {m : Machine σ} {k : Nat} {h : Handle (St σ) (Nat → BitVec 8)} {s : St σ}
    (hf : Fed P ws m k h s) (hc : Consistent P.env.sem ws (k + 1) m) (hq : stops P.env.sem ws k m = [.ev .userRequest]) :
    ∃ h' s', call (engine P) (.step (some (ws k))) (some h) = .ok ({ ret := 0, paused := true }, some h') ∧
      h'.core = some s' ∧ h'.halted = true ∧ (onMem s' h'.mem).m = fed P.env.sem ws (k + 1) m := by
  have hw := word_supply (ws k) (fed P.env.sem ws k m)
  obtain ⟨s', e, hm, h1, h2, -, -⟩ := Top.step_stops P.env (onMem s (putWord h.mem s.m.pc.toNat (ws k))) 0 1 (by omega)
    hf.status hf.stepOver (fun i hi => by omega)
    (by
      show (next P.env.sem (onMem s _).m).2 = _
      rw [hf.given]; exact hq)
    (agrees_one fun w hw' => by
      rw [hf.given, hw]
      exact hf.coherent hc w hw')
    (steady_one _ _)
  refine ⟨{ core := some s', mem := s'.m.mem, halted := true }, s', ?_, rfl, rfl, ?_⟩
  · rw [call_step_eq P h s hf.core hf.running]
    unfold Model.CosimCore.step1
    rw [show ((1 : Int)) = ((1 : Nat) : Int) from rfl, e]
    simp [h2]
  · show s'.m = _
    rw [hm]
    show (next P.env.sem (onMem s _).m).1 = _
    rw [hf.given]; rfl

end Verif.Proofs.CosimCore
