import Verif.Model.Session
import Verif.Proofs.TopSeq

/-!
# Debugger sessions keep the program undisturbed
-/

namespace Verif.Proofs.Top

open Verif.Model.Top
open Verif.Spec.Program (Machine Sem Ev Stop word ebreak next run TameAt Tame Clear)

variable {σ : Type}

/-- The states between the calls of a session. -/
structure Good (env : Env σ) (C : Nat → Bool) (s : St σ) (m : Machine σ) : Prop where
  rel : Rel env.sem C s m
  tame : Tame env.sem C m
  status : s.status = .halted
  kind : (s.stepOver = false ∧ s.reason ≠ .softwareBreakpoint) ∨
    (s.stepOver = true ∧ s.reason = .softwareBreakpoint ∧ s.bps m.pc.toNat = true)

theorem Good.clean {env : Env σ} {C : Nat → Bool} {s : St σ} {m : Machine σ} (h : Good env C s m)
    (hr : s.reason ≠ .softwareBreakpoint) : s.stepOver = false := by
  rcases h.kind with k | k
  · exact k.1
  · exact absurd k.2.1 hr

theorem Good.stopped {env : Env σ} {C : Nat → Bool} {s : St σ} {m : Machine σ} (h : Good env C s m)
    (hr : s.reason = .softwareBreakpoint) : s.stepOver = true ∧ s.bps m.pc.toNat = true := by
  rcases h.kind with k | k
  · exact absurd hr k.2
  · exact ⟨k.1, k.2.2⟩

theorem lastReason_getLast (r : HaltReason) (l : List Stop) (h : l ≠ []) : lastReason r l = stopReason (l.getLast h) := by
  obtain ⟨l', a, rfl⟩ : ∃ l' a, l = l' ++ [a] := ⟨l.dropLast, l.getLast h, (List.dropLast_concat_getLast h).symm⟩
  simp [lastReason, List.foldl_append]

theorem LegalAll.cons {env : Env σ} {C : Nat → Bool} {op : Op} {l : List Op} {s s1 : St σ} (h : Legal env C s op)
    (e : exec env op s = .ok s1) (hl : LegalAll env C l s1) : LegalAll env C (op :: l) s :=
  ⟨h, fun s' e' => by rw [e] at e'; injection e' with e'; subst e'; exact hl⟩

theorem rel_fresh {sem : Sem σ} (C : Nat → Bool) (m : Machine σ) : Rel sem C (fresh m) m :=
  ⟨rfl, rfl, fun _ _ => rfl, (fun _ h => by cases h), (fun _ _ h => by cases h), (fun _ _ _ _ h => by cases h), (fun _ _ h => by cases h)⟩

theorem good_fresh {env : Env σ} {C : Nat → Bool} {m : Machine σ} (h : Tame env.sem C m) : Good env C (fresh m) m :=
  ⟨rel_fresh C m, h, rfl, Or.inl ⟨rfl, by simp [fresh]⟩⟩

theorem Rel.progWord {sem : Sem σ} {C : Nat → Bool} {s : St σ} {m : Machine σ} (h : Rel sem C s m) {a : Nat} (ha : a % 4 = 0) :
    progWord s a = Spec.Program.word m.mem a := by
  unfold Model.Top.progWord
  cases hb : s.bps a with
  | true => simp [(h.bp a hb).2.2.2.2]
  | false => simp [h.word ha hb]

theorem Rel.progClear {sem : Sem σ} {C : Nat → Bool} {s : St σ} {m : Machine σ} (h : Rel sem C s m) {a : Nat} (ha : a % 4 = 0)
    (hc : Clear C (Model.Top.progWord s) a) : Clear C (Spec.Program.word m.mem) a :=
  clear_congr hc (h.progWord ha).symm fun _ hb _ => (h.progWord (by omega)).symm

/-- Memory and breakpoints agree when no breakpoint is set. -/
theorem Rel.eq {sem : Sem σ} {C : Nat → Bool} {s : St σ} {m : Machine σ} (h : Rel sem C s m) (hb : ∀ a, s.bps a = false) : s.m = m := by
  have hm : s.m.mem = m.mem := by funext q; exact h.mem q (hb _)
  have h1 := h.pc; have h2 := h.regs
  cases hs : s.m with
  | mk a b c =>
    rw [hs] at hm h1 h2
    cases m
    simp only at hm h1 h2
    subst hm h1 h2; rfl

theorem set_good {env : Env σ} {C : Nat → Bool} {s : St σ} {m : Machine σ} (h : Good env C s m) {a : Nat}
    (hl : Legal env C s (.setBp a)) : Good env C (setBp a s).2 m ∧ (setBp a s).2.instret = s.instret := by
  obtain ⟨h1, h2, h3, hcl⟩ := hl
  unfold setBp
  rw [if_neg (by simp [h.status])]
  cases hb : s.bps a with
  | true => exact ⟨h, rfl⟩
  | false =>
    simp only [Bool.false_eq_true, if_false]
    refine ⟨⟨rel_arm h.rel hb h1 h2 (by rw [← h.rel.progWord h1]; exact h3)
      fun hs => h.rel.progClear h1 (hcl hs), h.tame, h.status, ?_⟩, rfl⟩
    rcases h.kind with k | ⟨k1, k2, k3⟩
    · exact Or.inl k
    · refine Or.inr ⟨k1, k2, ?_⟩
      show setAt s.bps a true m.pc.toNat = true
      unfold setAt; split
      · rfl
      · exact k3

theorem clear_good {env : Env σ} {C : Nat → Bool} {s : St σ} {m : Machine σ} (h : Good env C s m) {a : Nat}
    (hl : Legal env C s (.clearBp a)) : Good env C (clearBp a s).2 m ∧ (clearBp a s).2.instret = s.instret := by
  unfold clearBp
  rw [if_neg (by simp [h.status])]
  cases hb : s.bps a with
  | false => exact ⟨h, rfl⟩
  | true =>
    simp only [if_true]
    obtain ⟨f1, f2, f3, f4, f5, f6, f7, f8, f9⟩ := writeOriginal_fields a s
    refine ⟨⟨rel_disarm h.rel hb, h.tame, f3.trans h.status, ?_⟩, f4⟩
    rcases h.kind with ⟨k1, k2⟩ | ⟨k1, k2, k3⟩
    · exact Or.inl ⟨f7.trans k1, by show (writeOriginal a s).reason ≠ _; rw [f6]; exact k2⟩
    · refine Or.inr ⟨f7.trans k1, f6.trans k2, ?_⟩
      show setAt s.bps a false m.pc.toNat = true
      rw [setAt_ne]
      · exact k3
      · intro e; exact hl ⟨k2, by rw [h.rel.pc]; exact e⟩

/-- A breakpoint's word lifted, decoded and put back: nothing but the decode cache changes, and what is decoded is the
program's word. -/
theorem disasm_rel {C : Nat → Bool} (env : Env σ) {s : St σ} {m : Machine σ} (h : Rel env.sem C s m) (hst : s.status = .halted)
    (a : Nat) : ∃ c mem, (disasm env a s).2 = { s with cache := c, m := { s.m with mem := mem } } ∧
      Rel env.sem C { s with cache := c, m := { s.m with mem := mem } } m ∧
      (a % 4 = 0 → C a = true → (disasm env a s).1 = .ok (word m.mem a)) := by
  unfold disasm
  rw [if_neg (by simp [hst])]
  cases hb : s.bps a with
  | false =>
    simp only [Bool.false_eq_true, if_false]
    by_cases hC : a % 4 = 0 ∧ C a = true
    · obtain ⟨c, e, hr⟩ := getInst_spec env h hC.1 hC.2
      exact ⟨c, s.m.mem, by rw [e], hr, fun _ _ => by rw [e, h.word hC.1 hb]⟩
    · unfold getInst
      cases hc : s.cache a with
      | some w => exact ⟨s.cache, s.m.mem, rfl, h, fun h1 h2 => absurd ⟨h1, h2⟩ hC⟩
      | none =>
        refine ⟨_, s.m.mem, rfl, ⟨h.pc, h.regs, h.mem, h.bp, h.orig, ?_, h.clear⟩, fun h1 h2 => absurd ⟨h1, h2⟩ hC⟩
        intro b w h1 h2 hw
        simp only at hw ⊢
        split at hw
        · next e => subst e; exact absurd ⟨h1, h2⟩ hC
        · split at hw
          · exact h.cache b w h1 h2 hw
          · cases hw
  | true =>
    simp only [if_true]
    obtain ⟨h1, h2, h3, h4, h5⟩ := h.bp a hb
    have hd := rel_disarm h hb
    obtain ⟨f1, f2, f3, f4, f5, f6, f7, f8, f9⟩ := writeOriginal_fields a s
    have hbf : ({ writeOriginal a s with bps := setAt s.bps a false } : St σ).bps a = false := setAt_self _ _ _
    obtain ⟨c, e, hr⟩ := getInst_spec env hd h1 h2
    have e2 : getInst env a (writeOriginal a s) = (word m.mem a, { writeOriginal a s with cache := c }) := by
      have e3 := getInst_bps env a (writeOriginal a s) (setAt s.bps a false)
      rw [e, hd.word h1 hbf] at e3
      have i1 := congrArg Prod.fst e3
      have i2 := congrArg (fun x => ({ x.2 with bps := s.bps } : St σ)) e3
      simp only at i1 i2
      rw [Prod.ext_iff]
      refine ⟨i1.symm, ?_⟩
      have i3 : (getInst env a (writeOriginal a s)).2.bps = s.bps := by
        unfold getInst
        cases (writeOriginal a s).cache a <;> exact f1
      have i4 : ({ (getInst env a (writeOriginal a s)).2 with bps := s.bps } : St σ) =
          (getInst env a (writeOriginal a s)).2 := by rw [← i3]
      rw [i4] at i2
      rw [← i2, ← f1]
    rw [e2]
    have harm := rel_arm hr hbf h1 h2 h4 fun hs => h.clear hs a hb
    have eo : writeOriginal a s = { s with m := { s.m with mem := putWord s.m.mem a (word m.mem a) },
                                           cache := setAt s.cache a none } := by
      unfold writeOriginal; rw [h5]
    rw [eo] at harm ⊢
    have ew : writeBreakpoint a ({ s with m := { s.m with mem := putWord s.m.mem a (word m.mem a) }, cache := c } :
        St σ) = { s with
          m := { s.m with mem := putWord (putWord s.m.mem a (word m.mem a)) a kEBreak32 }
          cache := setAt c a none } := by
      unfold writeBreakpoint
      simp only [h5]
    refine ⟨setAt c a none, putWord (putWord s.m.mem a (word m.mem a)) a kEBreak32, ew, ?_, fun _ _ => rfl⟩
    have : setAt (setAt s.bps a false) a true = s.bps := by rw [setAt_setAt, setAt_eq _ _ _ hb]
    have ew2 : writeBreakpoint a ({ s with m := { s.m with mem := putWord s.m.mem a (word m.mem a) }, cache := c,
                                           bps := setAt s.bps a false } : St σ) = { s with
          m := { s.m with mem := putWord (putWord s.m.mem a (word m.mem a)) a kEBreak32 }
          bps := setAt s.bps a false
          cache := setAt c a none } := by
      unfold writeBreakpoint
      simp only [h5]
    rw [ew2] at harm
    simp only [this] at harm
    exact harm

/-- One legal call. -/
theorem exec_good {env : Env σ} {C : Nat → Bool} {s : St σ} {m : Machine σ} (h : Good env C s m) {op : Op}
    (hl : Legal env C s op) : ∃ j s', exec env op s = .ok s' ∧ Good env C s' (run env.sem j m) ∧
      s'.instret = s.instret + j + (if op.executes ∧ s'.reason = .softwareBreakpoint then 1 else 0) := by
  cases op with
  | setBp a =>
    obtain ⟨g, i⟩ := set_good h hl
    exact ⟨0, _, rfl, g, by simp [Op.executes, i]⟩
  | clearBp a =>
    obtain ⟨g, i⟩ := clear_good h hl
    exact ⟨0, _, rfl, g, by simp [Op.executes, i]⟩
  | disasm a =>
    obtain ⟨c, mem, e, hr, -⟩ := disasm_rel env h.rel h.status a
    refine ⟨0, _, rfl, ?_, ?_⟩
    · rw [e]; exact ⟨hr, h.tame, h.status, h.kind⟩
    · rw [e]; simp [Op.executes]
  | step n =>
    obtain ⟨hn, hre⟩ := hl
    have hso : s.stepOver = false := by
      rcases h.kind with k | k
      · exact k.1
      · exact absurd k.2.1 hre
    obtain ⟨k, j, s', e, hr, hst, hb, -, -, -, hres⟩ := step_clean env h.rel h.tame h.status hso hre n hn
    refine ⟨j, s', by simp only [exec, e, Outcome.ok_bind], ?_, ?_⟩
    · refine ⟨hr, Tame.run h.tame j, hst, ?_⟩
      cases hres with
      | quiet _ _ _ _ h3 h4 => exact Or.inl ⟨h4, by rw [h3]; simp⟩
      | event _ _ _ _ h1 _ _ h3 h4 => exact Or.inl ⟨h4, by rw [h3]; exact (lastReason_ne h1).1⟩
      | bp _ _ h1 _ _ h3 h4 => exact Or.inr ⟨h4, h3, by rw [hb]; exact h1⟩
    · cases hres with
      | quiet _ _ h2 _ h3 h4 => rw [h2, if_neg (by rw [h3]; simp)]; rfl
      | event _ _ _ _ h1 h2 _ h3 h4 => rw [h2, if_neg (by rw [h3]; intro h'; exact (lastReason_ne h1).1 h'.2)]; rfl
      | bp _ _ h1 h2 _ h3 h4 => rw [h2, if_pos ⟨rfl, h3⟩]
  | run k =>
    cases hso : s.stepOver with
    | false =>
      obtain ⟨j, s', e, hr, hst, hb, -, -, hres⟩ := run_clean env h.rel h.tame h.status hso k
      refine ⟨j, s', by simp only [exec, e, Outcome.ok_bind], ?_, ?_⟩
      · refine ⟨hr, Tame.run h.tame j, hst, ?_⟩
        cases hres with
        | user _ _ _ h3 h4 => exact Or.inl ⟨h4, by rw [h3]; simp⟩
        | event _ _ _ _ h1 _ h3 h4 => exact Or.inl ⟨h4, by rw [h3]; exact (lastReason_ne h1).1⟩
        | bp _ _ h1 _ h3 h4 => exact Or.inr ⟨h4, h3, by rw [hb]; exact h1⟩
      · cases hres with
        | user _ _ h2 h3 h4 => rw [h2, if_neg (by rw [h3]; simp)]; rfl
        | event _ _ _ _ h1 h2 h3 h4 => rw [h2, if_neg (by rw [h3]; intro h'; exact (lastReason_ne h1).1 h'.2)]; rfl
        | bp _ _ h1 h2 h3 h4 => rw [h2, if_pos ⟨rfl, h3⟩]
    | true =>
      have hbp : s.bps m.pc.toNat = true := by
        rcases h.kind with k | k
        · rw [hso] at k; cases k.1
        · exact k.2.2
      obtain ⟨j, s', e, hr, hst, hb, -, -, hres⟩ := run_stopped env h.rel h.tame h.status hso hbp k
      refine ⟨1 + j, s', by simp only [exec, e, Outcome.ok_bind], ?_, ?_⟩
      · refine ⟨hr, Tame.run h.tame _, hst, ?_⟩
        rw [run_add]
        cases hres with
        | user _ _ _ h3 h4 => exact Or.inl ⟨h4, by rw [h3]; simp⟩
        | event _ _ _ _ h1 _ h3 h4 => exact Or.inl ⟨h4, by rw [h3]; exact (lastReason_ne h1).1⟩
        | bp _ _ h1 _ h3 h4 => exact Or.inr ⟨h4, h3, by rw [hb]; exact h1⟩
      · cases hres with
        | user _ _ h2 h3 h4 => rw [h2, if_neg (by rw [h3]; simp)]; omega
        | event _ _ _ _ h1 h2 h3 h4 =>
          rw [h2, if_neg (by rw [h3]; intro h'; exact (lastReason_ne h1).1 h'.2)]; omega
        | bp _ _ h1 h2 h3 h4 => rw [h2, if_pos ⟨rfl, h3⟩]; omega

/-- Any legal session. -/
theorem execAll_good {env : Env σ} {C : Nat → Bool} : ∀ (l : List Op) {s : St σ} {m : Machine σ}, Good env C s m →
    LegalAll env C l s → ∃ j s' hits, execAll env l s = .ok (s', hits) ∧ Good env C s' (run env.sem j m) ∧
      s'.instret = s.instret + j + hits
  | [], s, m, h, _ => ⟨0, s, 0, rfl, h, rfl⟩
  | op :: l, s, m, h, hl => by
    obtain ⟨j, s1, e, hg, hi⟩ := exec_good h hl.1
    obtain ⟨j2, s2, hits, e2, hg2, hi2⟩ := execAll_good l hg (hl.2 s1 e)
    refine ⟨j + j2, s2, hits + (if op.executes ∧ s1.reason = .softwareBreakpoint then 1 else 0), ?_,
      by rw [run_add]; exact hg2, ?_⟩
    · unfold execAll
      rw [e, Outcome.ok_bind, e2, Outcome.ok_bind]
    · rw [hi2, hi]; omega

end Verif.Proofs.Top
