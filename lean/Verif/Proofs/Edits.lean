import Verif.Model.Edits
import Verif.Proofs.DebugMem
import Verif.Proofs.TopBp
import Verif.Proofs.TopHist

/-!
# Sessions that change the machine
-/

namespace Verif.Proofs.Top

open Verif.Model.Top
open Verif.Spec.Program (Machine Sem Ev Stop word ebreak next run TameAt Tame Edit edited)

variable {σ : Type}

/-- The change a call asks for. -/
def editOf : Call σ → Option (Edit σ)
  | .poke a d => some (.mem a d)
  | .regs g => some (.regs g)
  | .pc v => some (.pc (BitVec.ofNat 32 v))
  | _ => none

theorem run_run (sem : Sem σ) (a b : Nat) (m : Machine σ) : run sem b (run sem a m) = run sem (a + b) m :=
  (run_add sem a b m).symm

/-- A set of machines closed under execution, each of which is tame. -/
theorem tame_of {sem : Sem σ} {C : Nat → Bool} {P : Machine σ → Prop}
    (hP : ∀ m, P m → TameAt sem C m ∧ P (next sem m).1) {m : Machine σ} (h : P m) :
    Tame sem C m ∧ ∀ k, P (run sem k m) := by
  have h2 : ∀ k, P (run sem k m) := by
    intro k
    induction k with
    | zero => exact h
    | succ k ih => rw [run_succ]; exact (hP _ ih).2
  exact ⟨fun k => (hP _ (h2 k)).1, h2⟩

/-- Bytes outside the code change in the same way on both sides. -/
theorem rel_mem {sem : Sem σ} {C : Nat → Bool} {s : St σ} {m : Machine σ} (h : Rel sem C s m) {f g : Nat → BitVec 8} (D : Nat → Prop)
    (hD : ∀ q, D q → C (q / 4 * 4) = false) (hf : ∀ q, ¬ D q → f q = s.m.mem q) (hg : ∀ q, ¬ D q → g q = m.mem q)
    (hfg : ∀ q, D q → f q = g q) :
    Rel sem C { s with m := { s.m with mem := f } } { m with mem := g } := by
  have wf : ∀ a, a % 4 = 0 → C a = true → word f a = word s.m.mem a := by
    intro a ha hC
    refine word_congr fun k hk => hf _ fun hd => ?_
    have := hD _ hd
    rw [show (a + k) / 4 * 4 = a by omega, hC] at this
    cases this
  have wg : ∀ a, a % 4 = 0 → C a = true → word g a = word m.mem a := by
    intro a ha hC
    refine word_congr fun k hk => hg _ fun hd => ?_
    have := hD _ hd
    rw [show (a + k) / 4 * 4 = a by omega, hC] at this
    cases this
  refine ⟨h.pc, h.regs, ?_, ?_, ?_, ?_, fun hs a ha => clear_congr (h.clear hs a ha) (wg a (h.bp a ha).1 (h.bp a ha).2.1)
    fun b hb hC => wg b (by have := (h.bp a ha).1; omega) hC⟩
  · intro q hq
    show f q = g q
    by_cases hd : D q
    · exact hfg q hd
    · rw [hf q hd, hg q hd]; exact h.mem q hq
  · intro a ha
    obtain ⟨h1, h2, h3, h4, h5⟩ := h.bp a ha
    refine ⟨h1, h2, ?_, ?_, ?_⟩
    · show word f a = ebreak; rw [wf a h1 h2]; exact h3
    · show word g a ≠ ebreak; rw [wg a h1 h2]; exact h4
    · show s.orig a = some (word g a); rw [wg a h1 h2]; exact h5
  · intro a w hw
    obtain ⟨h1, h2, h3⟩ := h.orig a w hw
    exact ⟨h1, h2, by show w = word g a; rw [wg a h1 h2]; exact h3⟩
  · intro a w h1 h2 hw
    show w = word f a
    rw [wf a h1 h2]; exact h.cache a w h1 h2 hw

theorem poke_good {env : Env σ} {C : Nat → Bool} {s : St σ} {m : Machine σ} (h : Good env C s m) {a : Nat}
    {d : List (BitVec 8)} (hl : LegalCall env C s (.poke a d)) :
    ∃ s', execCall env (.poke a d) s = .ok s' ∧ Rel env.sem C s' ((Edit.mem a d).apply m) ∧ s'.status = s.status ∧
      s'.stepOver = s.stepOver ∧ s'.reason = s.reason ∧ s'.bps = s.bps ∧ s'.instret = s.instret := by
  obtain ⟨h1, h2, h3⟩ := hl
  have hlen : 0 < d.length := List.length_pos_iff.2 h1
  unfold Model.DebugMem.maxAddr at h2
  have e : execCall env (.poke a d) s = .ok { s with m := { s.m with mem := DebugMem.put s.m.mem a d } } := by
    show (Model.DebugMem.writeMemory _ _ _ _ >>= _) = _
    rw [show decide (s.status = .halted) = true by simp [h.status],
      DebugMem.writeMemory_ok _ _ _ (by unfold Model.DebugMem.maxAddr; omega) h1, List.take_of_length_le (by omega)]
    rfl
  refine ⟨_, e, ?_, rfl, rfl, rfl, rfl, rfl⟩
  refine rel_mem h.rel (fun q => a ≤ q ∧ q < a + d.length) (fun q hq => h3 q hq.1 hq.2) ?_ ?_ ?_
  · intro q hq
    unfold DebugMem.put
    rw [dif_neg (by omega)]
  · intro q hq
    show (if a ≤ q then d.getD (q - a) (m.mem q) else m.mem q) = _
    split
    · rw [List.getD_eq_getElem?_getD, List.getElem?_eq_none (by omega)]; rfl
    · rfl
  · intro q hq
    show _ = (if a ≤ q then d.getD (q - a) (m.mem q) else m.mem q)
    unfold DebugMem.put
    rw [dif_pos (by omega), if_pos hq.1, List.getD_eq_getElem?_getD, List.getElem?_eq_getElem (by omega)]; rfl

/-- One breakpoint after the other is cleared. -/
theorem clearAll_rel {sem : Sem σ} {C : Nat → Bool} {m : Machine σ} : ∀ (l : List Nat) {s : St σ}, Rel sem C s m → l.Nodup →
    (∀ a ∈ l, s.bps a = true) →
    Rel sem C (l.foldl (fun s a => { writeOriginal a s with bps := setAt s.bps a false }) s) m ∧
    (∀ a, (l.foldl (fun s a => { writeOriginal a s with bps := setAt s.bps a false }) s).bps a =
      (s.bps a && !decide (a ∈ l))) ∧
    (l.foldl (fun s a => { writeOriginal a s with bps := setAt s.bps a false }) s).status = s.status ∧
    (l.foldl (fun s a => { writeOriginal a s with bps := setAt s.bps a false }) s).instret = s.instret ∧
    (l.foldl (fun s a => { writeOriginal a s with bps := setAt s.bps a false }) s).reason = s.reason ∧
    (l.foldl (fun s a => { writeOriginal a s with bps := setAt s.bps a false }) s).stepOver = s.stepOver
  | [], s, h, _, _ => ⟨h, by simp, rfl, rfl, rfl, rfl⟩
  | b :: l, s, h, hn, hb => by
    obtain ⟨f1, f2, f3, f4, f5, f6, f7, f8, f9⟩ := writeOriginal_fields b s
    have hn' := List.nodup_cons.1 hn
    obtain ⟨g1, g2, g3, g4, g5, g6⟩ := clearAll_rel l (rel_disarm h (hb b (by simp))) hn'.2 (by
      intro a ha
      show setAt s.bps b false a = true
      rw [setAt_ne _ _ _ _ (by rintro rfl; exact hn'.1 ha)]
      exact hb a (by simp [ha]))
    rw [List.foldl_cons]
    refine ⟨g1, fun a => ?_, g3.trans f3, g4.trans f4, g5.trans f6, g6.trans f7⟩
    rw [g2 a]
    show (setAt s.bps b false a && _) = _
    by_cases e : a = b
    · subst e; rw [setAt_self]; simp
    · rw [setAt_ne _ _ _ _ e]; simp [e]

/-- One legal call: some instructions, then the change asked for. -/
theorem call_good {env : Env σ} {C : Nat → Bool} {P : Machine σ → Prop}
    (hP : ∀ m, P m → TameAt env.sem C m ∧ P (next env.sem m).1) {s : St σ} {m : Machine σ} (h : Good env C s m) (hm : P m)
    {c : Call σ} (hl : LegalCall env C s c) {P' : Machine σ → Prop}
    (hP' : ∀ m, P' m → TameAt env.sem C m ∧ P' (next env.sem m).1)
    (hE : match editOf c with | some e => ∀ m, P m → P' (e.apply m) | none => P = P') :
    ∃ j s' m', execCall env c s = .ok s' ∧ Good env C s' m' ∧ P' m' ∧
      (match editOf c with | some e => j = 0 ∧ m' = e.apply m | none => m' = run env.sem j m) ∧
      s'.instret = s.instret + j + (if c.executes ∧ s'.reason = .softwareBreakpoint then 1 else 0) ∧
      (∀ l, c = .clearAll l → ∀ a, s'.bps a = false) := by
  cases c with
  | dbg op =>
    obtain ⟨j, s', e, hg, hi⟩ := exec_good h hl
    have hE' : P = P' := hE
    subst hE'
    exact ⟨j, s', _, e, hg, (tame_of hP hm).2 j, rfl, hi, fun l hc => by cases hc⟩
  | poke a d =>
    obtain ⟨s', e, hr, e1, e2, e3, e4, e5⟩ := poke_good h hl
    have hm' := hE m hm
    refine ⟨0, s', _, e, ⟨hr, (tame_of hP' hm').1, e1.trans h.status, ?_⟩, hm', ⟨rfl, rfl⟩, ?_, fun l hc => by cases hc⟩
    · rw [e2, e3, e4]; exact h.kind
    · simp [Call.executes, e5]
  | regs g =>
    have hm' := hE m hm
    have e : execCall env (.regs g) s = .ok { s with m := { s.m with regs := g s.m.regs } } := by
      show Outcome.ok (writeRegs g s).2 = _
      unfold writeRegs
      rw [if_neg (by simp [h.status])]
    refine ⟨0, _, _, e, ⟨?_, (tame_of hP' hm').1, h.status, h.kind⟩, hm', ⟨rfl, rfl⟩, ?_, fun l hc => by cases hc⟩
    · exact ⟨h.rel.pc, by show g s.m.regs = g m.regs; rw [h.rel.regs], h.rel.mem, h.rel.bp, h.rel.orig, h.rel.cache, h.rel.clear⟩
    · simp [Call.executes]
  | pc v =>
    obtain ⟨hv, hre⟩ := hl
    have hm' := hE m hm
    have e : execCall env (.pc v) s = .ok (setPc v s) := by
      show Outcome.ok (writePc v s).2 = _
      unfold writePc
      rw [if_neg (by simp [h.status])]
      simp only [hre, if_false]
    refine ⟨0, _, _, e, ⟨?_, (tame_of hP' hm').1, h.status, Or.inl ⟨h.clean hre, hre⟩⟩, hm', ⟨rfl, rfl⟩, ?_,
      fun l hc => by cases hc⟩
    · exact ⟨rfl, h.rel.regs, h.rel.mem, h.rel.bp, h.rel.orig, h.rel.cache, h.rel.clear⟩
    · simp [Call.executes, setPc]
  | clearAll l =>
    obtain ⟨hn, hb, hre⟩ := hl
    have hE' : P = P' := hE
    subst hE'
    obtain ⟨g1, g2, g3, g4, g5, g6⟩ := clearAll_rel l h.rel hn (fun a ha => (hb a).1 ha)
    have e : execCall env (.clearAll l) s = .ok (l.foldl (fun s a => { writeOriginal a s with bps := setAt s.bps a false }) s) := by
      show Outcome.ok (clearAll l s).2 = _
      unfold clearAll
      rw [if_neg (by simp [h.status])]
    refine ⟨0, _, _, e, ⟨g1, h.tame, g3.trans h.status, Or.inl ⟨g6.trans (h.clean hre), by rw [g5]; exact hre⟩⟩, hm, rfl, ?_, ?_⟩
    · rw [g4]; simp [Call.executes]
    · intro l' hc a
      rw [g2 a]
      cases hs : s.bps a with
      | false => rfl
      | true => simp [(hb a).2 hs]

end Verif.Proofs.Top
