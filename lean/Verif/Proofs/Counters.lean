import Verif.Model.Counters
import Verif.Spec.Counters
import Verif.Proofs.TopHist
import Verif.Proofs.DecodeTotal

/-! # Lemmas on counters -/

namespace Verif.Proofs.Counters
open Verif Verif.Model.Top Verif.Model.Counters Verif.Proofs.Top Verif.Spec.Counters
open Verif.Spec.Program (Machine Sem Ev Stop word ebreak next run TameAt Tame)

variable {σ κ : Type} [DecidableEq κ]

/-- The counters advanced by the words of `l`. -/
structure Adds (opc : BitVec 32 → κ) (c c' : Counters κ) (l : List (BitVec 32)) : Prop where
  cycles : c'.cycles = c.cycles + l.length
  insts : c'.insts = c.insts + l.length
  ops : ∀ o, c'.ops o = c.ops o + ofKind opc o l

theorem Adds.nil (opc : BitVec 32 → κ) (c : Counters κ) : Adds opc c c [] := ⟨rfl, rfl, fun _ => rfl⟩

theorem Adds.one (opc : BitVec 32 → κ) (c : Counters κ) (w : BitVec 32) :
    Adds opc c (incInsts (incOpcode (opc w) (incCycles c))) [w] := by
  refine ⟨rfl, rfl, fun o => ?_⟩
  simp only [incInsts, incOpcode, incCycles, ofKind]
  by_cases h : o = opc w
  · subst h; simp
  · rw [if_neg h, List.filter_cons_of_neg (by simpa using fun e => h e.symm)]; rfl

theorem ofKind_append (opc : BitVec 32 → κ) (o : κ) (l l' : List (BitVec 32)) :
    ofKind opc o (l ++ l') = ofKind opc o l + ofKind opc o l' := by simp [ofKind]

theorem Adds.trans {opc : BitVec 32 → κ} {c c' c'' : Counters κ} {l l' : List (BitVec 32)} (h : Adds opc c c' l)
    (h' : Adds opc c' c'' l') : Adds opc c c'' (l ++ l') :=
  ⟨by rw [h'.cycles, h.cycles, List.length_append]; omega, by rw [h'.insts, h.insts, List.length_append]; omega,
    fun o => by rw [h'.ops, h.ops, ofKind_append]; omega⟩

theorem Adds.perm {opc : BitVec 32 → κ} {c c' : Counters κ} {l l' : List (BitVec 32)} (h : Adds opc c c' l)
    (hp : l.Perm l') : Adds opc c c' l' :=
  ⟨by rw [h.cycles, hp.length_eq], by rw [h.insts, hp.length_eq], fun o => by
    rw [h.ops]; unfold ofKind; rw [(hp.filter _).length_eq]⟩

theorem words_cons (sem : Sem σ) (m : Machine σ) (j : Nat) :
    words sem m (j + 1) = word m.mem m.pc.toNat :: words sem (next sem m).1 j := by
  unfold words
  rw [List.range_succ_eq_map, List.map_cons, List.map_map]
  rfl

theorem words_add (sem : Sem σ) : ∀ (i j : Nat) (m : Machine σ),
    words sem m (i + j) = words sem m i ++ words sem (run sem i m) j
  | 0, j, m => by rw [Nat.zero_add]; rfl
  | i + 1, j, m => by
    rw [show i + 1 + j = (i + j) + 1 by omega, words_cons, words_cons, words_add sem i j]; rfl

theorem words_length (sem : Sem σ) (m : Machine σ) (j : Nat) : (words sem m j).length = j := by simp [words]

/-! ## Without any assumption -/

theorem getInst_instret (env : Env σ) (a : Nat) (s : St σ) : (getInst env a s).2.instret = s.instret := by
  unfold getInst; cases s.cache a <;> rfl

theorem foldl_instret (l : List Ev) : ∀ s : St σ,
    (l.foldl (fun s e => requestHalt (evReason e) s) s).instret = s.instret := by
  induction l with
  | nil => intro s; rfl
  | cons e l ih => intro s; rw [List.foldl_cons, ih]; rfl

theorem execInst_instret (env : Env σ) (w : BitVec 32) (a : Nat) (s : St σ) :
    (execInst env w a s).instret = s.instret := by
  unfold execInst
  split
  · split
    · rw [foldl_instret]
    · split <;> rfl
  · rw [foldl_instret]

theorem fetchExec_instret (env : Env σ) (pc : Nat) (s : St σ) : (fetchExec env pc s).instret = s.instret + 1 := by
  unfold fetchExec
  simp only [execInst_instret]
  show (getInst env pc s).2.instret + 1 = _
  rw [getInst_instret]

theorem stepPast_instret (env : Env σ) (s : St σ) : (stepPast env s).instret = s.instret + 1 := by
  unfold stepPast
  show (fetchExec env _ (writeOriginal _ s)).instret = _
  rw [fetchExec_instret, (writeOriginal_fields _ s).2.2.2.1]

theorem pastC_adds (env : Env σ) (opc : BitVec 32 → κ) (s : St σ) (c : Counters κ) :
    ∃ w, Adds opc c (pastC env opc s c) [w] := ⟨_, Adds.one opc c _⟩

theorem loopC_adds (env : Env σ) (opc : BitVec 32 → κ) (reset : Bool) (n : Nat) :
    ∀ (fuel count : Nat) (last : Option Nat) (next : Nat) (s : St σ) (c : Counters κ),
      ∃ l, Adds opc c (loopC env opc reset n fuel count next s c) l ∧
        (execLoop env reset n fuel count last next s).2.2.2.instret = s.instret + l.length
  | 0, count, last, next, s, c => ⟨[], Adds.nil _ _, rfl⟩
  | fuel + 1, count, last, next, s, c => by
    rw [loopC, execLoop]
    by_cases hc : s.halted = true ∨ n ≤ count
    · rw [if_pos hc, if_pos hc]; exact ⟨[], Adds.nil _ _, rfl⟩
    · rw [if_neg hc, if_neg hc]
      have h1 := Adds.one opc c (getInst env next s).1
      by_cases hh : (!(fetchExec env next s).halted) = true
      · simp only [hh, if_true]
        obtain ⟨l, h2, h3⟩ := loopC_adds env opc reset n fuel (count + 1) (some next) (fetchExec env next s).m.pc.toNat
          (fetchExec env next s) (incInsts (incOpcode (opc (getInst env next s).1) (incCycles c)))
        exact ⟨_, h1.trans h2, by rw [h3, fetchExec_instret, List.length_append]; simp; omega⟩
      · simp only [hh, Bool.false_eq_true, if_false]
        by_cases hr : (fetchExec env next s).reason = .actionPoint
        · simp only [hr, if_true]
          obtain ⟨w, h2⟩ := pastC_adds env opc (fetchExec env next s)
            (incInsts (incOpcode (opc (getInst env next s).1) (incCycles c)))
          obtain ⟨l, h3, h4⟩ := loopC_adds env opc reset n fuel (count + 1) (some next)
            (fetchExec env next s).m.pc.toNat
            { stepPast env (fetchExec env next s) with
              halted := false, reason := .none,
              stepOver := if reset then false else (stepPast env (fetchExec env next s)).stepOver }
            (pastC env opc (fetchExec env next s)
              (incInsts (incOpcode (opc (getInst env next s).1) (incCycles c))))
          refine ⟨_, (h1.trans h2).trans h3, ?_⟩
          rw [h4]
          show (stepPast env (fetchExec env next s)).instret + _ = _
          rw [stepPast_instret, fetchExec_instret]
          simp; omega
        · simp only [hr, if_false]
          exact ⟨_, h1, fetchExec_instret env next s⟩

theorem finishPc_instret {last : Option Nat} {nx : Nat} {s s' : St σ} (h : finishPc last nx s = .ok s') :
    s'.instret = s.instret := by
  unfold finishPc at h
  split at h
  · split at h
    · injection h with h; subst h; rfl
    · cases h
  · injection h with h; subst h; rfl

theorem stepEnd_instret {r : Nat × Option Nat × Nat × St σ} {x : Except Err Nat × St σ} (h : stepEnd r = .ok x) :
    x.2.instret = r.2.2.2.instret := by
  unfold stepEnd at h
  obtain ⟨s1, e1, e2⟩ := bind_ok_inv h
  injection e2 with e2; subst e2
  show s1.instret = _
  exact finishPc_instret e1

theorem runEnd_instret {r : Nat × Option Nat × Nat × St σ} {x : Except Err Unit × St σ} (h : runEnd r = .ok x) :
    x.2.instret = r.2.2.2.instret := by
  unfold runEnd at h
  obtain ⟨s1, e1, e2⟩ := bind_ok_inv h
  injection e2 with e2; subst e2
  refine (finishPc_instret e1).trans ?_
  split <;> rfl

theorem stepC_adds (env : Env σ) (opc : BitVec 32 → κ) (num : Int) (s : St σ) (c : Counters κ)
    {x : Except Err Nat × St σ} (h : step env num s = .ok x) :
    ∃ l, Adds opc c (stepC env opc num s c) l ∧ x.2.instret = s.instret + l.length := by
  unfold step at h
  unfold stepC
  split at h
  · next h1 => rw [if_pos h1]; injection h with h; subst h; exact ⟨[], Adds.nil _ _, rfl⟩
  · next h1 =>
    rw [if_neg h1]
    split at h
    · next h2 => rw [if_pos h2]; injection h with h; subst h; exact ⟨[], Adds.nil _ _, rfl⟩
    · next h2 =>
      rw [if_neg h2]
      have hx := stepEnd_instret h
      cases hso : s.stepOver with
      | true =>
        simp only [hso, if_true] at hx ⊢
        obtain ⟨w, g1⟩ := pastC_adds env opc { s with status := .singleStep, halted := false, stepOver := false } c
        obtain ⟨l, g2, g3⟩ := loopC_adds env opc true num.toNat num.toNat 1 none
          (stepPast env { s with status := .singleStep, halted := false, stepOver := false }).m.pc.toNat
          (stepPast env { s with status := .singleStep, halted := false, stepOver := false })
          (pastC env opc { s with status := .singleStep, halted := false, stepOver := false } c)
        refine ⟨_, g1.trans g2, ?_⟩
        rw [hx, g3, stepPast_instret]
        show s.instret + 1 + l.length = _
        simp; omega
      | false =>
        simp only [hso, Bool.false_eq_true, if_false] at hx ⊢
        obtain ⟨l, g2, g3⟩ := loopC_adds env opc true num.toNat num.toNat 0 none s.m.pc.toNat
          { s with status := .singleStep, halted := false } c
        rw [hso] at g2 g3
        exact ⟨l, g2, by rw [hx]; exact g3⟩

theorem runC_adds (env : Env σ) (opc : BitVec 32 → κ) (k : Nat) (s : St σ) (c : Counters κ)
    {x : Except Err Unit × St σ} (h : runHalt env k s = .ok x) :
    ∃ l, Adds opc c (runC env opc k s c) l ∧ x.2.instret = s.instret + l.length := by
  unfold runHalt runStart at h
  unfold runC
  by_cases hst : s.status = .running
  · rw [if_pos hst] at h ⊢
    injection h with h; subst h; exact ⟨[], Adds.nil _ _, rfl⟩
  · rw [if_neg hst] at h ⊢
    have hx := runEnd_instret h
    cases hso : s.stepOver with
    | true =>
      simp only [hso, if_true] at hx ⊢
      obtain ⟨w, g1⟩ := pastC_adds env opc { s with stepOver := false } c
      obtain ⟨l, g2, g3⟩ := loopC_adds env opc false k k 0 none
        (stepPast env { s with stepOver := false }).m.pc.toNat
        { stepPast env { s with stepOver := false } with status := .running, halted := false }
        (pastC env opc { s with stepOver := false } c)
      refine ⟨_, g1.trans g2, ?_⟩
      rw [hx, g3]
      show (stepPast env { s with stepOver := false }).instret + _ = _
      rw [stepPast_instret]
      show s.instret + 1 + l.length = _
      simp; omega
    | false =>
      simp only [hso, Bool.false_eq_true, if_false] at hx ⊢
      obtain ⟨l, g2, g3⟩ := loopC_adds env opc false k k 0 none s.m.pc.toNat
        { s with status := .running, halted := false } c
      rw [hso] at g2 g3
      exact ⟨l, g2, by rw [hx]; exact g3⟩

theorem setBp_instret (a : Nat) (s : St σ) : (setBp a s).2.instret = s.instret := by
  unfold setBp; split
  · rfl
  · split <;> rfl

theorem clearBp_instret (a : Nat) (s : St σ) : (clearBp a s).2.instret = s.instret := by
  unfold clearBp; split
  · rfl
  · split
    · exact (writeOriginal_fields a s).2.2.2.1
    · rfl

theorem disasm_instret (env : Env σ) (a : Nat) (s : St σ) : (disasm env a s).2.instret = s.instret := by
  unfold disasm; split
  · rfl
  · split
    · show (getInst env a (writeOriginal a s)).2.instret = _
      rw [getInst_instret, (writeOriginal_fields a s).2.2.2.1]
    · exact getInst_instret env a s

theorem execC_adds (env : Env σ) (opc : BitVec 32 → κ) (op : Op) (s s' : St σ) (c : Counters κ)
    (h : exec env op s = .ok s') :
    ∃ l, Adds opc c (execC env opc op s c) l ∧ s'.instret = s.instret + l.length := by
  cases op with
  | setBp a => injection h with h; subst h; exact ⟨[], Adds.nil _ _, setBp_instret a s⟩
  | clearBp a => injection h with h; subst h; exact ⟨[], Adds.nil _ _, clearBp_instret a s⟩
  | disasm a => injection h with h; subst h; exact ⟨[], Adds.nil _ _, disasm_instret env a s⟩
  | step n =>
    simp only [exec] at h
    obtain ⟨x, e1, e2⟩ := bind_ok_inv h
    injection e2 with e2; subst e2
    exact stepC_adds env opc n s c e1
  | run k =>
    simp only [exec] at h
    obtain ⟨x, e1, e2⟩ := bind_ok_inv h
    injection e2 with e2; subst e2
    exact runC_adds env opc k s c e1

theorem execAllC_adds (env : Env σ) (opc : BitVec 32 → κ) : ∀ (ops : List Op) (s s' : St σ) (hits : Nat) (c : Counters κ),
    execAll env ops s = .ok (s', hits) →
    ∃ l c', execAllC env opc ops s c = .ok c' ∧ Adds opc c c' l ∧ s'.instret = s.instret + l.length
  | [], s, s', hits, c, h => by
    injection h with h; injection h with h1 h2; subst h1
    exact ⟨[], c, rfl, Adds.nil _ _, rfl⟩
  | op :: ops, s, s', hits, c, h => by
    unfold execAll at h
    obtain ⟨s1, e1, h⟩ := bind_ok_inv h
    obtain ⟨r, e2, h⟩ := bind_ok_inv h
    injection h with h; injection h with h1 h2; subst h1
    obtain ⟨l1, g1, g2⟩ := execC_adds env opc op s s1 c e1
    obtain ⟨l2, c', g3, g4, g5⟩ := execAllC_adds env opc ops s1 r.1 r.2 (execC env opc op s c) e2
    exact ⟨l1 ++ l2, c', by rw [execAllC, e1, Outcome.ok_bind]; exact g3, g1.trans g4,
      by rw [g5, g2, List.length_append]; omega⟩

/-! ## Legal sessions -/

theorem word_plain {C : Nat → Bool} (env : Env σ) {s : St σ} {m : Machine σ} (h : Rel env.sem C s m) (ht : TameAt env.sem C m)
    (hb : s.bps m.pc.toNat = false) : (getInst env m.pc.toNat s).1 = word m.mem m.pc.toNat := by
  obtain ⟨c, e, -⟩ := getInst_spec env h ht.1 ht.2.1
  rw [e]; exact h.word ht.1 hb

theorem word_bp {C : Nat → Bool} (env : Env σ) {s : St σ} {m : Machine σ} (h : Rel env.sem C s m)
    (hb : s.bps m.pc.toNat = true) : (getInst env m.pc.toNat s).1 = ebreak := by
  obtain ⟨h1, h2, h3, -⟩ := h.bp _ hb
  obtain ⟨c, e, -⟩ := getInst_spec env h h1 h2
  rw [e]; exact h3

theorem word_past {C : Nat → Bool} (env : Env σ) {s : St σ} {m : Machine σ} (h : Rel env.sem C s m) (ht : TameAt env.sem C m)
    (hb : s.bps m.pc.toNat = true) :
    (getInst env s.m.pc.toNat (writeOriginal s.m.pc.toNat s)).1 = word m.mem m.pc.toNat := by
  rw [h.pc]
  have hd := rel_disarm h hb
  obtain ⟨c, e, -⟩ := getInst_spec env hd ht.1 ht.2.1
  have e3 := getInst_bps env m.pc.toNat (writeOriginal m.pc.toNat s) (setAt s.bps m.pc.toNat false)
  rw [e, hd.word ht.1 (setAt_self _ _ _)] at e3
  exact (congrArg Prod.fst e3).symm

/-- Whether the loop ended at a breakpoint. -/
def AtBp (s : St σ) : Prop := s.halted = true ∧ s.reason = .softwareBreakpoint

instance (s : St σ) : Decidable (AtBp s) := inferInstanceAs (Decidable (_ ∧ _))

/-- The `ebreak` counted for a breakpoint. -/
def hitWord (b : Prop) [Decidable b] : List (BitVec 32) := if b then [ebreak] else []

theorem loopC_sim (env : Env σ) (opc : BitVec 32 → κ) (C : Nat → Bool) (reset : Bool) (n : Nat) :
    ∀ (fuel count : Nat) (last : Option Nat) (s : St σ) (m : Machine σ) (c : Counters κ), Rel env.sem C s m → Tame env.sem C m →
      s.halted = false →
      let r := execLoop env reset n fuel count last m.pc.toNat s
      ∃ d, Adds opc c (loopC env opc reset n fuel count m.pc.toNat s c)
        (words env.sem m d ++ hitWord (AtBp r.2.2.2)) ∧
        r.2.2.2.instret = s.instret + (d + (hitWord (AtBp r.2.2.2)).length)
  | 0, count, last, s, m, c, hr, _, hh => by
    refine ⟨0, ?_, ?_⟩
    · rw [execLoop]; simp only [hitWord, AtBp, hh]; exact Adds.nil _ _
    · rw [execLoop]; simp [hitWord, AtBp, hh]
  | fuel + 1, count, last, s, m, c, hr, ht, hh => by
    rw [execLoop, loopC]
    by_cases hc : n ≤ count
    · rw [if_pos (Or.inr hc), if_pos (Or.inr hc)]
      refine ⟨0, ?_, ?_⟩
      · simp only [hitWord, AtBp, hh]; exact Adds.nil _ _
      · simp [hitWord, AtBp, hh]
    · have hcond : ¬ (s.halted = true ∨ n ≤ count) := by simp [hh]; omega
      simp only [if_neg hcond]
      by_cases hb : s.bps m.pc.toNat = true
      · obtain ⟨q1, q2, q3, q4, q5, q6, q7, q8⟩ := fetchExec_bp env hr hb
        have he := word_bp env hr hb
        simp only [q6, q7, he, Bool.not_true, Bool.false_eq_true, if_false, reduceCtorEq]
        have hw : hitWord (AtBp (fetchExec env m.pc.toNat s)) = [ebreak] := by
          unfold hitWord; rw [if_pos ⟨q6, q7⟩]
        rw [hw]
        exact ⟨0, Adds.one opc c ebreak, fetchExec_instret env _ s⟩
      · have hb' : s.bps m.pc.toNat = false := by simpa using hb
        obtain ⟨r1, r2⟩ := fetchExec_plain env hr (ht 0) hb'
        have hent := word_plain env hr (ht 0) hb'
        have h1 := Adds.one opc c (word m.mem m.pc.toNat)
        by_cases he : (next env.sem m).2 = []
        · have hh' : (fetchExec env m.pc.toNat s).halted = false := by rw [r2.halted, hh, he]; rfl
          simp only [hh', hent, Bool.not_false, if_true]
          have ih := loopC_sim env opc C reset n fuel (count + 1) (some m.pc.toNat) (fetchExec env m.pc.toNat s)
            (next env.sem m).1 (incInsts (incOpcode (opc (word m.mem m.pc.toNat)) (incCycles c))) r1 (Tame.next ht) hh'
          rw [← r1.pc] at ih
          obtain ⟨d, h4, h5⟩ := ih
          refine ⟨d + 1, ?_, ?_⟩
          · rw [words_cons]; exact h1.trans h4
          · rw [h5, fetchExec_instret]; omega
        · have hh' : (fetchExec env m.pc.toNat s).halted = true := by
            rw [r2.halted]
            cases h' : (next env.sem m).2 with
            | nil => exact absurd h' he
            | cons a l => simp
          have hne := lastReason_ne (r := s.reason) he
          have hre' := r2.reason
          have hap : (fetchExec env m.pc.toNat s).reason ≠ .actionPoint := by rw [hre']; exact hne.2.1
          simp only [hh', hent, Bool.not_true, Bool.false_eq_true, if_false, if_neg hap]
          have hw : hitWord (AtBp (fetchExec env m.pc.toNat s)) = [] := by
            unfold hitWord; rw [if_neg]; intro h; rw [AtBp, hre'] at h; exact hne.1 h.2
          rw [hw]
          exact ⟨1, h1, fetchExec_instret env _ s⟩

theorem finishPc_fields {last : Option Nat} {nx : Nat} {s s' : St σ} (h : finishPc last nx s = .ok s') :
    s'.reason = s.reason ∧ s'.halted = s.halted := by
  unfold finishPc at h
  split at h
  · split at h
    · injection h with h; subst h; exact ⟨rfl, rfl⟩
    · cases h
  · injection h with h; subst h; exact ⟨rfl, rfl⟩

theorem stepEnd_bp_iff {r : Nat × Option Nat × Nat × St σ} {x : Except Err Nat × St σ} (h : stepEnd r = .ok x) :
    x.2.reason = .softwareBreakpoint ↔ AtBp r.2.2.2 := by
  unfold stepEnd at h
  obtain ⟨s1, e1, e2⟩ := bind_ok_inv h
  injection e2 with e2; subst e2
  obtain ⟨h1, h2⟩ := finishPc_fields e1
  unfold AtBp
  simp only [h1, h2]
  cases r.2.2.2.halted <;> simp

theorem runEnd_bp_iff {r : Nat × Option Nat × Nat × St σ} {x : Except Err Unit × St σ} (h : runEnd r = .ok x) :
    x.2.reason = .softwareBreakpoint ↔ AtBp r.2.2.2 := by
  unfold runEnd at h
  obtain ⟨s1, e1, e2⟩ := bind_ok_inv h
  injection e2 with e2; subst e2
  obtain ⟨h1, -⟩ := finishPc_fields e1
  unfold AtBp
  simp only [h1]
  cases r.2.2.2.halted <;> simp [haltFlagPart, haltReasonPart]

theorem hitWord_congr {a b : Prop} [Decidable a] [Decidable b] (h : a ↔ b) : hitWord a = hitWord b := by
  unfold hitWord
  by_cases ha : a
  · rw [if_pos ha, if_pos (h.1 ha)]
  · rw [if_neg ha, if_neg (fun hb => ha (h.2 hb))]

theorem execC_sim {env : Env σ} {C : Nat → Bool} (opc : BitVec 32 → κ) {s : St σ} {m : Machine σ} (h : Good env C s m)
    {op : Op} (hl : Legal env C s op) (c : Counters κ) {s' : St σ} (he : exec env op s = .ok s') :
    ∃ d, Adds opc c (execC env opc op s c)
        (words env.sem m d ++ hitWord (op.executes = true ∧ s'.reason = .softwareBreakpoint)) ∧
      s'.instret = s.instret + (d + (hitWord (op.executes = true ∧ s'.reason = .softwareBreakpoint)).length) := by
  have hno : ∀ {b : Prop} [Decidable b], ¬ b → hitWord b = [] := fun hb => by unfold hitWord; rw [if_neg hb]
  cases op with
  | setBp a =>
    injection he with he; subst he
    rw [hno (by simp [Op.executes])]; exact ⟨0, Adds.nil _ _, setBp_instret a s⟩
  | clearBp a =>
    injection he with he; subst he
    rw [hno (by simp [Op.executes])]; exact ⟨0, Adds.nil _ _, clearBp_instret a s⟩
  | disasm a =>
    injection he with he; subst he
    rw [hno (by simp [Op.executes])]; exact ⟨0, Adds.nil _ _, disasm_instret env a s⟩
  | step n =>
    simp only [exec] at he
    obtain ⟨x, e1, e2⟩ := bind_ok_inv he
    injection e2 with e2; subst e2
    obtain ⟨hn, hre⟩ := hl
    have hso := h.clean hre
    have e : step env n s = stepEnd (execLoop env true n.toNat n.toNat 0 none m.pc.toNat
        ({ s with status := .singleStep, halted := false } : St σ)) := by
      unfold step
      rw [if_neg (by omega), if_neg (by simp [h.status])]
      simp only [hso, Bool.false_eq_true, if_false, h.rel.pc]
    have ec : stepC env opc n s c = loopC env opc true n.toNat n.toNat 0 m.pc.toNat
        ({ s with status := .singleStep, halted := false } : St σ) c := by
      unfold stepC
      rw [if_neg (by omega), if_neg (by simp [h.status])]
      simp only [hso, Bool.false_eq_true, if_false, h.rel.pc]
    rw [e] at e1
    obtain ⟨d, g1, g2⟩ := loopC_sim env opc C true n.toNat n.toNat 0 none
      ({ s with status := .singleStep, halted := false } : St σ) m c (rel_of_fields h.rel rfl rfl rfl rfl) h.tame rfl
    have hb := stepEnd_bp_iff e1
    rw [hitWord_congr (b := AtBp (execLoop env true n.toNat n.toNat 0 none m.pc.toNat
        ({ s with status := .singleStep, halted := false } : St σ)).2.2.2) (by simp only [Op.executes, true_and]; exact hb)]
    exact ⟨d, by rw [show execC env opc (.step n) s c = stepC env opc n s c from rfl, ec]; exact g1,
      by rw [stepEnd_instret e1]; exact g2⟩
  | run k =>
    simp only [exec] at he
    obtain ⟨x, e1, e2⟩ := bind_ok_inv he
    injection e2 with e2; subst e2
    have hst : ¬ s.status = .running := by rw [h.status]; simp
    unfold runHalt runStart at e1
    rw [if_neg hst] at e1
    show ∃ d, Adds opc c (runC env opc k s c) _ ∧ _
    unfold runC
    rw [if_neg hst]
    cases hso : s.stepOver with
    | false =>
      simp only [hso, Bool.false_eq_true, if_false, h.rel.pc] at e1 ⊢
      obtain ⟨d, g1, g2⟩ := loopC_sim env opc C false k k 0 none
        ({ s with status := .running, halted := false } : St σ) m c (rel_of_fields h.rel rfl rfl rfl rfl) h.tame rfl
      have hb := runEnd_bp_iff e1
      rw [hitWord_congr (a := _ ∧ _) (by simp only [Op.executes, true_and]; exact hb)]
      rw [runEnd_instret e1]
      rw [hso] at g1 g2
      exact ⟨d, g1, g2⟩
    | true =>
      have hbp : s.bps m.pc.toNat = true := by
        rcases h.kind with k | k
        · rw [hso] at k; cases k.1
        · exact k.2.2
      have hr' : Rel env.sem C ({ s with stepOver := false } : St σ) m := rel_of_fields h.rel rfl rfl rfl rfl
      obtain ⟨h1, h2⟩ := stepPast_bp env hr' (h.tame 0) hbp
      simp only [hso, if_true, h1.pc] at e1 ⊢
      obtain ⟨d, g1, g2⟩ := loopC_sim env opc C false k k 0 none
        ({ stepPast env { s with stepOver := false } with status := .running, halted := false } : St σ) _
        (pastC env opc { s with stepOver := false } c) (rel_of_fields h1 rfl rfl rfl rfl) (Tame.next h.tame) rfl
      have hb := runEnd_bp_iff e1
      rw [hitWord_congr (a := _ ∧ _) (by simp only [Op.executes, true_and]; exact hb)]
      rw [runEnd_instret e1]
      have hp : Adds opc c (pastC env opc { s with stepOver := false } c) [word m.mem m.pc.toNat] := by
        have := Adds.one opc c
          (getInst env s.m.pc.toNat (writeOriginal s.m.pc.toNat ({ s with stepOver := false } : St σ))).1
        rw [word_past env hr' (h.tame 0) hbp] at this
        have hp := word_past env hr' (h.tame 0) hbp
        unfold pastC
        simp only at hp ⊢
        rw [hp]
        exact this
      refine ⟨d + 1, ?_, ?_⟩
      · rw [words_cons]; exact hp.trans g1
      · have hi : (stepPast env { s with stepOver := false }).instret = s.instret + 1 := stepPast_instret _ _
        have hy : ∀ y, (stepPast env { s with stepOver := false }).instret + (d + y) = s.instret + (d + 1 + y) := by
          intro y; rw [hi]; omega
        exact g2.trans (hy _)

theorem execAllC_sim {env : Env σ} {C : Nat → Bool} (opc : BitVec 32 → κ) : ∀ (l : List Op) {s : St σ} {m : Machine σ}
    (c : Counters κ), Good env C s m → LegalAll env C l s →
    ∃ j s' hits c', execAll env l s = .ok (s', hits) ∧ Good env C s' (run env.sem j m) ∧
      execAllC env opc l s c = .ok c' ∧ Adds opc c c' (words env.sem m j ++ List.replicate hits ebreak)
  | [], s, m, c, h, _ => ⟨0, s, 0, c, rfl, h, rfl, Adds.nil _ _⟩
  | op :: l, s, m, c, h, hl => by
    obtain ⟨j, s1, e, hg, hi⟩ := exec_good h hl.1
    obtain ⟨d, hd, hdi⟩ := execC_sim opc h hl.1 c e
    obtain ⟨j2, s2, hits, c', e2, hg2, e3, h3⟩ := execAllC_sim opc l (execC env opc op s c) hg (hl.2 s1 e)
    have hdj : d = j := by
      rw [hi] at hdi
      unfold hitWord at hdi
      by_cases hx : op.executes = true ∧ s1.reason = .softwareBreakpoint
      · simp only [if_pos hx, List.length_singleton] at hdi; omega
      · simp only [if_neg hx, List.length_nil] at hdi; omega
    subst hdj
    refine ⟨d + j2, s2, hits + (if op.executes ∧ s1.reason = .softwareBreakpoint then 1 else 0), c', ?_,
      by rw [run_add]; exact hg2, ?_, ?_⟩
    · unfold execAll
      rw [e, Outcome.ok_bind, e2, Outcome.ok_bind]
    · rw [execAllC, e, Outcome.ok_bind]; exact e3
    · refine (hd.trans h3).perm ?_
      rw [words_add, List.append_assoc, List.append_assoc]
      refine List.Perm.append_left _ ?_
      have : List.replicate (hits + (if op.executes = true ∧ s1.reason = .softwareBreakpoint then 1 else 0)) ebreak =
          List.replicate hits ebreak ++ hitWord (op.executes = true ∧ s1.reason = .softwareBreakpoint) := by
        unfold hitWord
        split
        · rw [List.replicate_succ']
        · simp
      rw [this, ← List.append_assoc (words _ _ _)]
      exact List.perm_append_comm

end Verif.Proofs.Counters
