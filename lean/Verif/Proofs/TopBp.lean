import Verif.Proofs.TopHist

/-!
# Lists of breakpoint requests
-/

namespace Verif.Proofs.Top

open Verif.Model.Top
open Verif.Spec.Program (Machine Sem word ebreak armed Shows Apart)

variable {σ : Type}

structure BpInv (A : Nat → Prop) (s : St σ) (m : Machine σ) : Prop where
  status : s.status = .halted
  pc : s.m.pc = m.pc
  regs : s.m.regs = m.regs
  mem : ∀ q, (∀ a, s.bps a = true → ¬ (a ≤ q ∧ q < a + 4)) → s.m.mem q = m.mem q
  bp : ∀ a, s.bps a = true → A a ∧ word s.m.mem a = ebreak ∧ s.orig a = some (word m.mem a)
  orig : ∀ a w, s.orig a = some w → w = word m.mem a

theorem BpInv.set {A : Nat → Prop} (hA : ∀ a b, A a → A b → Apart a b) {s : St σ} {m : Machine σ} (h : BpInv A s m)
    {a : Nat} (ha : A a) : BpInv A (setBp a s).2 m ∧ (setBp a s).2.bps = setAt s.bps a true := by
  unfold setBp
  rw [if_neg (by simp [h.status])]
  cases hb : s.bps a with
  | true => exact ⟨h, (setAt_eq _ _ _ hb).symm⟩
  | false =>
    refine ⟨?_, rfl⟩
    have hw : word s.m.mem a = word m.mem a := by
      apply word_congr
      intro k hk
      apply h.mem
      intro b hbb hc
      have hba : b ≠ a := by intro e; subst e; rw [hb] at hbb; cases hbb
      rcases hA a b ha (h.bp b hbb).1 with e | e | e <;> omega
    refine ⟨h.status, h.pc, h.regs, ?_, ?_, ?_⟩
    · intro q hq
      have h1 := hq a (setAt_self _ _ _)
      show putWord s.m.mem a kEBreak32 q = _
      unfold putWord
      rw [if_neg h1]
      apply h.mem
      intro b hbb
      by_cases hba : b = a
      · subst hba; exact h1
      · exact hq b (by show setAt s.bps a true b = true; rw [setAt_ne _ _ _ _ hba]; exact hbb)
    · intro b hbb
      change setAt s.bps a true b = true at hbb
      by_cases hba : b = a
      · subst hba
        refine ⟨ha, word_putWord_self _ _ _, ?_⟩
        show (match s.orig b with | none => setAt s.orig b (some (word s.m.mem b)) | some _ => s.orig) b = _
        cases ho : s.orig b with
        | none => simp only [setAt_self]; rw [hw]
        | some w => simp only [ho]; rw [h.orig b w ho]
      · rw [setAt_ne _ _ _ _ hba] at hbb
        obtain ⟨i1, i2, i3⟩ := h.bp b hbb
        refine ⟨i1, ?_, ?_⟩
        · show word (putWord s.m.mem a kEBreak32) b = _
          rw [word_putWord_ne _ _ _ _ (by rcases hA a b ha i1 with e | e | e <;> omega)]; exact i2
        · show (match s.orig a with | none => setAt s.orig a (some (word s.m.mem a)) | some _ => s.orig) b = _
          cases ho : s.orig a with
          | none => simp only; rw [setAt_ne _ _ _ _ hba]; exact i3
          | some w => exact i3
    · intro b w hbw
      change (match s.orig a with | none => setAt s.orig a (some (word s.m.mem a)) | some _ => s.orig) b = _ at hbw
      cases ho : s.orig a with
      | none =>
        simp only [ho] at hbw
        by_cases hba : b = a
        · subst hba; rw [setAt_self] at hbw; injection hbw with hbw; rw [← hbw, hw]
        · rw [setAt_ne _ _ _ _ hba] at hbw; exact h.orig b w hbw
      | some w' => simp only [ho] at hbw; exact h.orig b w hbw

theorem BpInv.clear {A : Nat → Prop} (hA : ∀ a b, A a → A b → Apart a b) {s : St σ} {m : Machine σ} (h : BpInv A s m)
    (a : Nat) : BpInv A (clearBp a s).2 m ∧ (clearBp a s).2.bps = setAt s.bps a false := by
  unfold clearBp
  rw [if_neg (by simp [h.status])]
  cases hb : s.bps a with
  | false => exact ⟨h, (setAt_eq _ _ _ hb).symm⟩
  | true =>
    refine ⟨?_, rfl⟩
    obtain ⟨i1, i2, i3⟩ := h.bp a hb
    have e : writeOriginal a s = { s with m := { s.m with mem := putWord s.m.mem a (word m.mem a) },
                                          cache := setAt s.cache a none } := by
      unfold writeOriginal; rw [i3]
    simp only [e, if_true]
    refine ⟨h.status, h.pc, h.regs, ?_, ?_, h.orig⟩
    · intro q hq
      by_cases hqa : a ≤ q ∧ q < a + 4
      · exact putWord_word _ _ _ _ hqa
      · show putWord s.m.mem a (word m.mem a) q = _
        unfold putWord
        rw [if_neg hqa]
        apply h.mem
        intro b hbb
        by_cases hba : b = a
        · subst hba; exact hqa
        · exact hq b (by show setAt s.bps a false b = true; rw [setAt_ne _ _ _ _ hba]; exact hbb)
    · intro b hbb
      change setAt s.bps a false b = true at hbb
      by_cases hba : b = a
      · subst hba; rw [setAt_self] at hbb; cases hbb
      · rw [setAt_ne _ _ _ _ hba] at hbb
        obtain ⟨j1, j2, j3⟩ := h.bp b hbb
        refine ⟨j1, ?_, j3⟩
        show word (putWord s.m.mem a (word m.mem a)) b = _
        rw [word_putWord_ne _ _ _ _ (by rcases hA a b i1 j1 with e | e | e <;> omega)]; exact j2

theorem bpOps_inv {A : Nat → Prop} (hA : ∀ a b, A a → A b → Apart a b) : ∀ (l : List (Bool × Nat)) {s : St σ}
    {m : Machine σ}, BpInv A s m → (∀ r ∈ l, r.1 = true → A r.2) →
    BpInv A (bpOps l s) m ∧ ∀ a, (bpOps l s).bps a = l.foldl (fun b r => if r.2 = a then r.1 else b) (s.bps a)
  | [], s, m, h, _ => ⟨h, fun _ => rfl⟩
  | (b, x) :: l, s, m, h, hl => by
    have hl' : ∀ r ∈ l, r.1 = true → A r.2 := fun r hr => hl r (by simp [hr])
    cases b with
    | true =>
      obtain ⟨h1, h2⟩ := h.set hA (hl (true, x) (by simp) rfl)
      obtain ⟨g1, g2⟩ := bpOps_inv hA l h1 hl'
      refine ⟨g1, fun a => ?_⟩
      show (bpOps l (setBp x s).2).bps a = _
      rw [g2 a, h2]
      simp only [List.foldl_cons, setAt]
      by_cases e : a = x
      · subst e; simp
      · simp [e, Ne.symm e]
    | false =>
      obtain ⟨h1, h2⟩ := h.clear hA x
      obtain ⟨g1, g2⟩ := bpOps_inv hA l h1 hl'
      refine ⟨g1, fun a => ?_⟩
      show (bpOps l (clearBp x s).2).bps a = _
      rw [g2 a, h2]
      simp only [List.foldl_cons, setAt]
      by_cases e : a = x
      · subst e; simp
      · simp [e, Ne.symm e]

theorem bpInv_fresh (A : Nat → Prop) (m : Machine σ) : BpInv A (fresh m) m :=
  ⟨rfl, rfl, rfl, fun _ _ => rfl, (fun _ h => by cases h), (fun _ _ h => by cases h)⟩

theorem Rel.shows {sem : Sem σ} {C : Nat → Bool} {s : St σ} {m : Machine σ} (h : Rel sem C s m) : Shows s.bps s.m m :=
  ⟨h.pc, h.regs, h.mem, fun a ha => (h.bp a ha).2.2.1⟩

end Verif.Proofs.Top
