import Verif.Proofs.VecTame
import Verif.Props.Footprint
import Verif.Props.RunControl
import Verif.Props.VecCore

/-!
# C96: a program that ends, debugged with breakpoints

`Run` is called again and again from a fresh core with breakpoints set; `visits` (`Verif/Spec/Visits.lean`) counts how often
the undisturbed program comes by.
-/

namespace Verif.Props
open Verif Verif.Model Verif.Proofs
open Verif.Spec.Program (Machine Sem Stop word ebreak next run TameAt Shows visits Clear semiEntry semiExit)

section General
variable {σ : Type}

/-- The calls: set the breakpoints of `l`, then `h` times `Run` (with the limit `k`). -/
def debugCalls (l : List Nat) (k h : Nat) : List Top.Op := l.map .setBp ++ List.replicate h (.run k)

/-- C96 (missing: a breakpoint on the instruction that ends the program, for which it is false, see `C96_last_lost`): a program asks
for its first halt with its instruction number `n` (counted from 0), and does not touch its code area until then. With
breakpoints on words of the code, but not on that instruction, `Run` stops at every visit of a breakpoint, in the order of the
program, showing exactly the state of the program there; the `Run` after the last of them ends with the reason the program
gives. The instruction counter is the number of instructions plus one for each stop. Clearing the breakpoints then gives exactly
the state in which the program ends. -/
theorem C96_debugged_partial (env : Top.Env σ) (C : Nat → Bool) (m : Machine σ) (n : Nat)
    (hq : ∀ i < n, (next env.sem (run env.sem i m)).2 = []) (hh : (next env.sem (run env.sem n m)).2 ≠ [])
    (ht : ∀ i ≤ n, TameAt env.sem C (run env.sem i m)) (l : List Nat)
    (hl : ∀ a ∈ l, a % 4 = 0 ∧ C a = true ∧ word m.mem a ≠ ebreak ∧ (env.sem.host ≠ none → Clear C (word m.mem) a)) (hlast : (run env.sem n m).pc.toNat ∉ l) (k : Nat) (hk : n < k)
    (bps : Nat → Bool) (hbps : bps = fun a => decide (a ∈ l)) (V : Nat → Nat) (hV : V = visits env.sem bps m) :
    (∀ t ≤ n, (run env.sem t m).pc.toNat ∈ l → ∃ s, Top.execAll env (debugCalls l k (V t + 1)) (Top.fresh m) = .ok (s, V t + 1) ∧
      s.reason = .softwareBreakpoint ∧ s.status = .halted ∧ Shows bps s.m (run env.sem t m) ∧ s.instret = t + V t + 1) ∧
    ∃ s, Top.execAll env (debugCalls l k (V (n + 1) + 1)) (Top.fresh m) = .ok (s, V (n + 1)) ∧
      s.reason = reasonOf (List.getLast _ hh) ∧ s.status = .halted ∧ Shows bps s.m (run env.sem (n + 1) m) ∧
      s.instret = n + 1 + V (n + 1) ∧
      ∀ l', l'.Nodup → (∀ a, a ∈ l' ↔ a ∈ l) → ∃ s', Top.clearAll l' s = (.ok (), s') ∧ s'.m = run env.sem (n + 1) m := by
  obtain ⟨s0, e0, b0, f1, f2⟩ := Top.set_all env l (Top.rel_fresh C m) rfl hl
  have hb0 : (fun a => (Top.fresh m).bps a || decide (a ∈ l)) = bps := by rw [hbps]; funext a; simp [Top.fresh]
  rw [hb0] at b0
  have hE : Top.Ends env.sem C m n := ⟨hq, hh, ht⟩
  have hlb : bps (run env.sem n m).pc.toNat = false := by rw [hbps]; simpa using hlast
  subst hV
  refine ⟨fun t htn hm => ?_, ?_⟩
  · obtain ⟨s, e, b, i, r, -⟩ := Top.at_visit hE b0 f1 k hk t htn (by rw [hbps]; simpa using hm)
    refine ⟨s, ?_, r, b.status, ?_, by rw [i, f2]; show 0 + t + _ + 1 = _; omega⟩
    · have := Top.execAll_append env _ _ e0 e
      exact this
    · rw [← b.bps]; exact b.rel.shows
  · obtain ⟨s, e, b, i, r, so⟩ := Top.at_end hE b0 f1 hlb k hk
    refine ⟨s, ?_, ?_, b.status, ?_, by rw [i, f2]; show 0 + (n + 1) + _ = _; omega, fun l' hn hm => ?_⟩
    · have := Top.execAll_append env _ _ e0 e
      exact this
    · rw [r, Top.lastReason_getLast _ _ hh, reasonOf_eq]
    · rw [← b.bps]; exact b.rel.shows
    · obtain ⟨g1, g2, -⟩ := Top.clearAll_rel l' b.rel hn (fun a ha => by rw [b.bps, hbps]; simpa using (hm a).1 ha)
      refine ⟨_, by unfold Top.clearAll; rw [if_neg (by simp [b.status])], Top.Rel.eq g1 fun a => ?_⟩
      rw [g2 a, b.bps, hbps]
      by_cases ha : a ∈ l
      · simp [(hm a).2 ha]
      · simp [ha]

/-- C96 is false for a breakpoint on the instruction that ends the program: `Run` stops there, and the next `Run` executes it and
goes on behind the end. Whatever number `j` of instructions that ask for nothing are found there, they are executed. -/
theorem C96_last_lost (env : Top.Env σ) (C : Nat → Bool) (m : Machine σ) (n : Nat)
    (hq : ∀ i < n, (next env.sem (run env.sem i m)).2 = []) (hh : (next env.sem (run env.sem n m)).2 ≠ [])
    (ht : Spec.Program.Tame env.sem C m) (l : List Nat)
    (hl : ∀ a ∈ l, a % 4 = 0 ∧ C a = true ∧ word m.mem a ≠ ebreak ∧ (env.sem.host ≠ none → Clear C (word m.mem) a))
    (hlast : (run env.sem n m).pc.toNat ∈ l) (k : Nat) (hk : n < k) (bps : Nat → Bool) (hbps : bps = fun a => decide (a ∈ l))
    (V : Nat → Nat) (hV : V = visits env.sem bps m) (j : Nat) (hj : Spec.Program.Quiet env.sem bps (run env.sem (n + 1) m) j) :
    ∃ s, Top.execAll env (debugCalls l k (V n + 1) ++ [.run j]) (Top.fresh m) = .ok (s, V n + 1) ∧
      s.reason = .userRequest ∧ Shows bps s.m (run env.sem (n + 1 + j) m) ∧ s.instret = n + 1 + j + V n + 1 := by
  obtain ⟨s0, e0, b0, f1, f2⟩ := Top.set_all env l (Top.rel_fresh C m) rfl hl
  have hb0 : (fun a => (Top.fresh m).bps a || decide (a ∈ l)) = bps := by rw [hbps]; funext a; simp [Top.fresh]
  rw [hb0] at b0
  have hlb : bps (run env.sem n m).pc.toNat = true := by rw [hbps]; simpa using hlast
  subst hV
  obtain ⟨s, e, b, i, r, so⟩ := Top.at_visit ⟨hq, hh, fun i _ => ht i⟩ b0 f1 k hk n (Nat.le_refl _) hlb
  obtain ⟨j', s', e', r1, r2, r3, -, -, r6⟩ := Top.run_stopped env b.rel (Top.Tame.run ht n) b.status so (by rw [b.bps]; exact hlb) j
  rw [b.bps] at r6
  rw [← Top.run_succ] at r6
  have key : j' = j ∧ s'.instret = s.instret + 1 + j' ∧ s'.reason = .userRequest := by
    cases r6 with
    | user h1 _ h2 h3 => exact ⟨h1, h2, h3⟩
    | event h1 h2 _ _ h3 => exact absurd (hj _ (by omega)).1 h3
    | bp h1 _ h2 => rw [(hj _ h1).2] at h2; cases h2
  obtain ⟨rfl, k2, k3⟩ := key
  refine ⟨s', ?_, k3, ?_, by rw [k2, i, f2]; show 0 + n + _ + 1 + 1 + _ = _; omega⟩
  · refine (Top.execAll_append env _ [.run j'] (h2 := 0) (Top.execAll_append env _ _ e0 e) ?_).trans (by rw [Nat.zero_add])
    simp only [Top.execAll, Top.exec, e', Outcome.ok_bind, Top.Op.executes, true_and, Nat.zero_add]
    rw [if_neg (by rw [k3]; simp)]
  · rw [← b.bps, ← r3]
    have := r1.shows
    rwa [Top.run_run, show n + (1 + j') = n + 1 + j' by omega] at this

end General

/-- The `mpause` of C47: the program ends with its first instruction, and runs on through the zeros behind it when a breakpoint is set
there. -/
example : (match Top.execAll Top.demoEnv (debugCalls [0] 3 1 ++ [.run 5]) (Top.fresh pauseMem) with
    | .ok (s, h) => decide (h = 1 ∧ s.reason = .userRequest ∧ s.m.pc = 24 ∧ s.instret = 7)
    | _ => false) = true := by decide +kernel

/-- The words of a loop of eight words at `pc`. -/
def loopArea (pc : BitVec 32) (q : Nat) : Bool := decide (pc.toNat ≤ q ∧ q < pc.toNat + 32)

/-- The loop of C91 asks for nothing until its `mpause`, has nothing to do with its own words, and comes by each of its first seven
words once in every round. -/
theorem vector_loop_tame (P : VecParams) (p : MapLoop) (T : CTy) (v : VOp) (strip : Bool)
    (hp : p.Ok T v strip) (hd : Known P p.insts) (sub bne mpause : BitVec 32) (hB : LoopBase P 5 p.rn p.rl sub bne mpause)
    (sd ss : Bool) (f : Int → Int → Int) (hf : Computes p T v strip sd ss f) (N a b d : Nat)
    (hpl : Placed P.maxPhys (N * (T.bits / 8)) a b d) (s : Arch) (hs : Entry p N a b d s) (pc : BitVec 32)
    (hw : CodeAt (p.insts.map Inst.word ++ [sub, bne, mpause]) s pc) (hal : pc.toNat % 4 = 0)
    (hcode : ∀ q ∈ [a, b, d], pc.toNat + 32 ≤ q ∨ q + N * (T.bits / 8) ≤ pc.toNat) (c K : Nat)
    (hc : c = (if strip then 4 else 1) * Spec.lanes T.bits) (hK : K = max 1 ((N + c - 1) / c)) :
    (∀ i ≤ 7 * K, TameAt (vecSem P) (loopArea pc) (run (vecSem P) i (s.machine pc))) ∧
    (∀ k < K, ∀ j < 7, (run (vecSem P) (7 * k + j) (s.machine pc)).pc = pc + BitVec.ofNat 32 (4 * j)) ∧
    (run (vecSem P) (7 * K) (s.machine pc)).pc = pc + 28 ∧
    (∀ k < K, ∃ t : Arch, run (vecSem P) (7 * k) (s.machine pc) = t.machine pc ∧
      Spec.Mapped sd ss T.bits f d a b (min N (k * c)) s.mem t.mem) ∧
    ∀ j < 8, word s.mem (pc.toNat + 4 * j) ≠ ebreak ∧ word s.mem (pc.toNat + 4 * j) ≠ semiEntry ∧
      word s.mem (pc.toNat + 4 * j) ≠ semiExit := by
  have hc0 : 0 < c := by subst hc; cases T <;> cases strip <;> decide
  have hrounds := fun k => C85_rounds P.maxPhys P.fresh p T v strip hp sd ss f hf N a b d hpl s hs k _ rfl
  choose S hS hM hE hX using hrounds
  have hS0 : S 0 = s := by
    have := hS 0
    simp only [times, Outcome.ok.injEq] at this
    exact this.symm
  have hstep : ∀ k, loopBody P.maxPhys P.fresh p.insts p.rn p.rl (S k) = .ok (S (k + 1)) := by
    intro k
    have := hS (k + 1)
    rwa [times, hS k, Outcome.ok_bind] at this
  have hlen : (p.insts.map Inst.word ++ [sub, bne, mpause]).length = 8 := rfl
  have hpc := hw.2
  rw [hlen] at hpc
  have hcd := hcode d (by simp)
  have hC : ∀ k q, (pc.toNat ≤ q ∧ q < pc.toNat + 32) → (S k).mem q = (S 0).mem q := by
    intro k q hq
    rw [hS0]
    refine (hM k).2 q ?_
    have : min N (k * ((if strip = true then 4 else 1) * Spec.lanes T.bits)) * (T.bits / 8) ≤ N * (T.bits / 8) :=
      Nat.mul_le_mul_right _ (Nat.min_le_left ..)
    omega
  obtain ⟨hnz, sK, hsK, hz, -⟩ := C85_loop P.maxPhys P.fresh p T v strip hp sd ss f hf N a b d hpl s hs c _ hc rfl
  have hn : ∀ k, 0 < k → k < K → (S k).x p.rn ≠ 0 := by
    intro k h0 hk
    obtain ⟨s', h, hx⟩ := hnz k (by omega)
    rw [hS k] at h
    cases h
    exact hx
  have hKc : N ≤ K * c := by
    have h1 : (N + c - 1) / c ≤ K := by omega
    have := Nat.lt_div_mul_add (a := N + c - 1) hc0
    have := Nat.mul_le_mul_right c h1
    omega
  have hmin : min N (K * ((if strip = true then 4 else 1) * Spec.lanes T.bits)) = N := by rw [← hc]; omega
  have h0 : (S K).x p.rn = 0 := by
    have := (hE K).1
    rw [hmin, Nat.sub_self] at this
    exact this
  have hst : ∀ j ∈ [p.vl, p.lda, p.ldb, p.op], stores j = false := by
    intro j hj
    simp only [List.mem_cons, List.not_mem_nil, or_false] at hj
    rcases hj with rfl | rfl | rfl | rfl
    · simp [stores, hp.vl]
    · simp [stores, hp.lda]
    · simp [stores, hp.ldb]
    · simp [stores, hp.op]
  obtain ⟨-, rK⟩ := loop P (fun q => pc.toNat ≤ q ∧ q < pc.toNat + 32) [p.vl, p.lda, p.ldb, p.op] p.st p.rn p.rl sub bne mpause
    mpause hB hd hst S K (fun k _ => hstep k) (fun k _ => hC k) pc (by rw [hS0]; exact hw.1) (by simp only [List.length_append, List.length_cons, List.length_nil]; omega)
    (fun q h1 h2 => ⟨h1, by simpa only [List.length_append, List.length_cons, List.length_nil] using h2⟩) (by omega) hn h0
  have rk := loop_at P (fun q => pc.toNat ≤ q ∧ q < pc.toNat + 32) [p.vl, p.lda, p.ldb, p.op] p.st p.rn p.rl sub bne mpause hB hd
    hst S hstep hC pc (by rw [hS0]; exact hw.1) (by simp only [List.length_append, List.length_cons, List.length_nil]; omega)
    (fun q h1 h2 => ⟨h1, by simpa only [List.length_append, List.length_cons, List.length_nil] using h2⟩) K hn
  rw [hS0] at rK rk
  have rk' : ∀ k < K, run (vecSem P) (7 * k) (s.machine pc) = (S k).machine pc := rk
  have rK' : run (vecSem P) (7 * K) (s.machine pc) = (S K).machine (pc + BitVec.ofNat 32 28) := rK
  have inC : ∀ j < 8, loopArea pc (pc.toNat + 4 * j) = true := by
    intro j hj; simp only [loopArea, decide_eq_true_eq]; omega
  have tn : ∀ j < 8, (pc + BitVec.ofNat 32 (4 * j)).toNat = pc.toNat + 4 * j := fun j hj => toNat_addOfNat (by omega)
  have hword : ∀ k j (hj : j < 8) (t : Arch), (∀ q, (pc.toNat ≤ q ∧ q < pc.toNat + 32) → t.mem q = (S k).mem q) →
      word t.mem (pc + BitVec.ofNat 32 (4 * j)).toNat = (p.insts.map Inst.word ++ [sub, bne, mpause])[j]'(by rw [hlen]; exact hj) := by
    intro k j hj t ht
    rw [tn j hj, word_congr (g := s.mem) (fun q hq => by
      have hi : pc.toNat ≤ pc.toNat + 4 * j + q ∧ pc.toNat + 4 * j + q < pc.toNat + 32 := by omega
      rw [ht _ hi, hC k _ hi, hS0])]
    exact hw.1 j (by rw [hlen]; exact hj)
  have out : ∀ q, (q < pc.toNat ∨ pc.toNat + 32 ≤ q) → loopArea pc (q / 4 * 4) = false := by
    intro q hq; simp only [loopArea, decide_eq_false_iff_not]; omega
  have inside : ∀ k < K, ∀ j < 7, TameAt (vecSem P) (loopArea pc) (run (vecSem P) j ((S k).machine pc)) ∧
      (run (vecSem P) j ((S k).machine pc)).pc = pc + BitVec.ofNat 32 (4 * j) := by
    intro k hk j hj
    have hb := hstep k
    unfold loopBody at hb
    obtain ⟨u, hu, htt⟩ := bind_ok_inv hb
    simp only [Outcome.ok.injEq] at htt
    have hum : (S (k + 1)).mem = u.mem := by rw [← htt]
    have hCu : ∀ q, (pc.toNat ≤ q ∧ q < pc.toNat + 32) → u.mem q = (S k).mem q := fun q hq => by
      rw [← hum, hC (k + 1) q hq, hC k q hq]
    have hmid := round_mid P (fun q => pc.toNat ≤ q ∧ q < pc.toNat + 32) [p.vl, p.lda, p.ldb, p.op] p.st hd hst (S k) u hu hCu pc
      (fun j hj => by
        have hj' : j < 5 := by simpa using hj
        have := hword k j (by omega) (S k) (fun _ _ => rfl)
        rw [tn j (by omega)] at this
        rw [this]; exact List.getElem_append_left hj)
      (by simp only [List.length_append, List.length_cons, List.length_nil]; omega)
      (fun q h1 h2 => ⟨h1, by simp only [List.length_append, List.length_cons, List.length_nil] at h2; omega⟩)
    by_cases h5 : j < 5
    · obtain ⟨t, ht, hr, hm⟩ := hmid j (by simp only [List.length_append, List.length_cons, List.length_nil]; omega)
      rw [hr]
      refine ⟨?_, rfl⟩
      have hji : j < p.insts.length := h5
      have hwj : word t.mem (pc + BitVec.ofNat 32 (4 * j)).toNat = p.insts[j].word := by
        rw [hword k j (by omega) t hm, List.getElem_append_left (by simpa using hji), List.getElem_map]
      have hmem : p.insts[j] ∈ p.insts := List.getElem_mem hji
      obtain ⟨t2, ht2, hr2, -⟩ := hmid (j + 1) (by simp only [List.length_append, List.length_cons, List.length_nil]; omega)
      have hx : ∃ t2, p.insts[j].run P.maxPhys P.fresh t = .ok t2 := by
        have e1 : ∀ (l1 : List Inst) (i : Inst) (s t t2 : Arch), runAll P.maxPhys P.fresh l1 s = .ok t →
            runAll P.maxPhys P.fresh (l1 ++ [i]) s = .ok t2 → i.run P.maxPhys P.fresh t = .ok t2 := by
          intro l1 i
          induction l1 with
          | nil =>
            intro s t t2 h1 h2
            cases h1
            simp only [List.nil_append, runAll] at h2
            obtain ⟨t3, h3, h4⟩ := bind_ok_inv h2
            cases h4; exact h3
          | cons i' l1 ih =>
            intro s t t2 h1 h2
            rw [runAll] at h1
            rw [List.cons_append, runAll] at h2
            obtain ⟨s1, g1, g2⟩ := bind_ok_inv h1
            rw [g1, Outcome.ok_bind] at h2
            exact ih s1 t t2 g2 h2
        refine ⟨t2, e1 (p.insts.take j) p.insts[j] (S k) t t2 ht ?_⟩
        rw [← List.take_succ_eq_append_getElem hji]
        exact ht2
      obtain ⟨t2', hx⟩ := hx
      have hnn : min N (k * c) + (N - min N (k * c)) = N := by omega
      have hsum : min N (k * c) * (T.bits / 8) + (N - min N (k * c)) * (T.bits / 8) = N * (T.bits / 8) := by
        rw [← Nat.add_mul, hnn]
      have hEk := hE k
      rw [← hc] at hEk
      have lim : ∀ q ∈ [a, b, d], q + min N (k * c) * (T.bits / 8) + (N - min N (k * c)) * (T.bits / 8) <
          if P.maxPhys ≤ 0x3fffff then 2 ^ 31 else 2 ^ 32 := fun q hq => by
        rw [Nat.add_assoc, hsum]; exact hpl.1 q hq
      have feet := map_feet P.maxPhys P.fresh p T v strip hp (N - min N (k * c)) _ _ _ _ rfl (lim a (by simp)) (lim b (by simp))
        (lim d (by simp)) (S k) hEk.1 hEk.2.1 hEk.2.2.1 hEk.2.2.2 j hji t ht
      have hca := hcode a (by simp)
      have hcb := hcode b (by simp)
      refine C95_tame P (loopArea pc) (t.machine (pc + BitVec.ofNat 32 (4 * j))) p.insts[j].row (hp.dec _ hmem).1 ?_ (false, t2') ?_
        (by show word t.mem (pc + BitVec.ofNat 32 (4 * j)).toNat ≠ _; rw [hwj]; exact exec_ne_ebreak (hp.dec _ hmem) (run_exec hx)) ?_ ?_ ?_ ?_
      · show P.dec (word t.mem (pc + BitVec.ofNat 32 (4 * j)).toNat) = _
        rw [hwj]; exact (hd _ hmem).2
      · show execRow P.maxPhys P.fresh p.insts[j].row (word t.mem (pc + BitVec.ofNat 32 (4 * j)).toNat) t = _
        rw [hwj]; exact run_exec hx
      · show (pc + BitVec.ofNat 32 (4 * j)).toNat % 4 = 0
        rw [tn j (by omega)]; omega
      · show loopArea pc (pc + BitVec.ofNat 32 (4 * j)).toNat = true
        rw [tn j (by omega)]; exact inC j (by omega)
      · intro q hq
        change Spec.Reads P.maxPhys _ (word t.mem (pc + BitVec.ofNat 32 (4 * j)).toNat) t.x q at hq
        rw [hwj] at hq
        refine out q ?_
        rcases (feet q).1 hq with h | h <;> omega
      · intro q hq
        change Spec.Writes P.maxPhys _ (word t.mem (pc + BitVec.ofNat 32 (4 * j)).toNat) t.x q at hq
        rw [hwj] at hq
        refine out q ?_
        have := (feet q).2 hq
        omega
    · obtain ⟨t, ht, hr, hm⟩ := hmid 5 (by simp)
      have htu : t = u := by
        have e : List.take 5 ([p.vl, p.lda, p.ldb, p.op] ++ [p.st]) = p.insts := rfl
        rw [e, hu] at ht
        cases ht; rfl
      subst htu
      have ws := hword k 5 (by omega) t hm
      have n1 := next_base P (hB.rows sub (by simp)).1 (hB.rows sub (by simp)).2 t _ ws
      rw [hB.sub, addOfNat_add4] at n1
      have r6 : run (vecSem P) 6 ((S k).machine pc) = (S (k + 1)).machine (pc + BitVec.ofNat 32 24) := by
        rw [Top.run_succ, hr, n1, ← htt]; rfl
      by_cases h6 : j = 5
      · subst h6
        rw [hr]
        refine ⟨?_, rfl⟩
        refine tame_base P (hB.rows sub (by simp)).2 (loopArea pc) _ ws (hB.rows sub (by simp)).1 ?_ ?_ (fun x _ => x)
          (fun r => { r with x := writeX r.x p.rn (r.x p.rn - r.x p.rl) }) [] (fun m' => hB.sub _ m')
        · show (pc + BitVec.ofNat 32 (4 * 5)).toNat % 4 = 0
          rw [tn 5 (by omega)]; omega
        · show loopArea pc (pc + BitVec.ofNat 32 (4 * 5)).toNat = true
          rw [tn 5 (by omega)]; exact inC 5 (by omega)
      · obtain rfl : j = 6 := by omega
        rw [r6]
        refine ⟨?_, rfl⟩
        have wb := hword (k + 1) 6 (by omega) (S (k + 1)) (fun _ _ => rfl)
        refine tame_base P (hB.rows bne (by simp)).2 (loopArea pc) _ wb (hB.rows bne (by simp)).1 ?_ ?_
          (fun x r => if r.x p.rn = 0 then x else BitVec.ofNat 32 ((pc + BitVec.ofNat 32 (4 * 6)).toNat - 4 * (5 + 1)))
          (fun r => r) [] (fun m' => ?_)
        · show (pc + BitVec.ofNat 32 (4 * 6)).toNat % 4 = 0
          rw [tn 6 (by omega)]; omega
        · show loopArea pc (pc + BitVec.ofNat 32 (4 * 6)).toNat = true
          rw [tn 6 (by omega)]; exact inC 6 (by omega)
        · refine (hB.bne _ m').trans ?_
          split <;> rfl
  refine ⟨fun i hi => ?_, fun k hk j hj => ?_, by rw [rK']; rfl,
    fun k hk => ⟨S k, rk' k hk, by have := hM k; rwa [← hc] at this⟩, fun j hj => ?_⟩
  · by_cases e : i = 7 * K
    · subst e
      rw [rK']
      have wm := hword K 7 (by omega) (S K) (fun _ _ => rfl)
      refine tame_base P (hB.rows mpause (by simp)).2 (loopArea pc) _ wm (hB.rows mpause (by simp)).1 ?_ ?_ (fun x _ => x) (fun r => r) [.userRequest]
        (fun m' => hB.mpause _ m')
      · show (pc + BitVec.ofNat 32 (4 * 7)).toNat % 4 = 0
        rw [tn 7 (by omega)]; omega
      · show loopArea pc (pc + BitVec.ofNat 32 (4 * 7)).toNat = true
        rw [tn 7 (by omega)]; exact inC 7 (by omega)
    · obtain ⟨k, j, hj, rfl⟩ : ∃ k j, j < 7 ∧ i = 7 * k + j := ⟨i / 7, i % 7, Nat.mod_lt _ (by decide), (Nat.div_add_mod i 7).symm⟩
      have hk : k < K := by omega
      rw [Top.run_add, rk' k hk]
      exact (inside k hk j hj).1
  · rw [Top.run_add, rk' k hk]
    exact (inside k hk j hj).2
  · rw [hw.1 j (by rw [hlen]; exact hj)]
    by_cases h5 : j < 5
    · have hji : j < p.insts.length := h5
      rw [List.getElem_append_left (by simpa using hji), List.getElem_map]
      have : ∀ i ∈ p.insts, i.row.sem ≠ .scalar := by
        intro i hi
        simp only [MapLoop.insts, List.cons_append, List.nil_append, List.mem_cons, List.not_mem_nil, or_false] at hi
        rcases hi with rfl | rfl | rfl | rfl | rfl
        · simp [hp.vl]
        · simp [hp.lda]
        · simp [hp.ldb]
        · simp [hp.op]
        · simp [hp.st]
      have hs := this _ (List.getElem_mem hji)
      exact ⟨ne_ebreak (hp.dec _ (List.getElem_mem hji)) hs, ne_marks (hp.dec _ (List.getElem_mem hji)) hs⟩
    · rw [List.getElem_append_right (by simp only [List.length_map]; show 5 ≤ j; omega)]
      exact ⟨(hB.rows _ (List.getElem_mem _)).1, hB.marks _ (List.getElem_mem _)⟩

/-- What a debugger sees of the vector loops. With breakpoints on any of the first seven words of a loop (`js` are their numbers),
`Run` stops in every round at each of them, in order; at the head of the loop exactly the elements of the rounds before are
computed. The `Run` after the last of them ends in the `mpause`, and after clearing the breakpoints the result is that of C91. -/
theorem C96_vector (env : Top.Env VecRegs) (P : VecParams) (henv : env.sem = vecSem P) (p : MapLoop) (T : CTy) (v : VOp) (strip : Bool)
    (hp : p.Ok T v strip) (hd : Known P p.insts) (sub bne mpause : BitVec 32) (hB : LoopBase P 5 p.rn p.rl sub bne mpause)
    (sd ss : Bool) (f : Int → Int → Int) (hf : Computes p T v strip sd ss f) (N a b d : Nat)
    (hpl : Placed P.maxPhys (N * (T.bits / 8)) a b d) (s : Arch) (hs : Entry p N a b d s) (pc : BitVec 32)
    (hw : CodeAt (p.insts.map Inst.word ++ [sub, bne, mpause]) s pc) (hal : pc.toNat % 4 = 0)
    (hcode : ∀ q ∈ [a, b, d], pc.toNat + 32 ≤ q ∨ q + N * (T.bits / 8) ≤ pc.toNat) (c K : Nat)
    (hc : c = (if strip then 4 else 1) * Spec.lanes T.bits) (hK : K = max 1 ((N + c - 1) / c))
    (js : List Nat) (hjs : ∀ j ∈ js, j < 7) (l : List Nat) (hl : l = js.map fun j => pc.toNat + 4 * j) (limit : Nat) (hlim : 7 * K < limit)
    (B : Nat → Nat) (hBj : B = fun j => ((List.range j).filter fun i => decide (i ∈ js)).length) (bps : Nat → Bool)
    (hbps : bps = fun a => decide (a ∈ l)) :
    (∀ k < K, ∀ j ∈ js, ∃ s1, Top.execAll env (debugCalls l limit (k * B 7 + B j + 1)) (Top.fresh (s.machine pc)) =
        .ok (s1, k * B 7 + B j + 1) ∧ s1.reason = .softwareBreakpoint ∧ s1.m.pc = pc + BitVec.ofNat 32 (4 * j) ∧
        (j = 0 → ∃ t : Arch, Shows bps s1.m (t.machine pc) ∧ Spec.Mapped sd ss T.bits f d a b (min N (k * c)) s.mem t.mem)) ∧
    ∃ s1, Top.execAll env (debugCalls l limit (K * B 7 + 1)) (Top.fresh (s.machine pc)) = .ok (s1, K * B 7) ∧
      s1.reason = .userRequest ∧ s1.status = .halted ∧ s1.m.pc = pc + 32 ∧ s1.instret = 7 * K + 1 + K * B 7 ∧
      ∀ l', l'.Nodup → (∀ a, a ∈ l' ↔ a ∈ l) → ∃ s2, Top.clearAll l' s1 = (.ok (), s2) ∧
        Spec.Mapped sd ss T.bits f d a b N s.mem s2.m.mem ∧ s2.m.regs.x p.rn = 0 ∧
        ∀ q, q ∉ [p.rn, p.rl, p.ra, p.rb, p.rd] → s2.m.regs.x q = s.x q := by
  obtain ⟨hq, hl1, hst, t, ht, hM, h0, hX⟩ := vector_loop P p T v strip hp hd sub bne mpause hB sd ss f hf N a b d hpl s hs pc hw
    (hcode d (by simp)) c K hc hK
  obtain ⟨htame, hpcs, hpcK, hhead, hne⟩ := vector_loop_tame P p T v strip hp hd sub bne mpause hB sd ss f hf N a b d hpl s hs pc hw
    hal hcode c K hc hK
  rw [← henv] at hq hl1 ht htame hpcs hpcK hhead
  have hpc : pc.toNat + 4 * 8 < 2 ^ 32 := hw.2
  have tn : ∀ j < 8, (pc + BitVec.ofNat 32 (4 * j)).toNat = pc.toNat + 4 * j := fun j hj => toNat_addOfNat (by omega)
  have inl : ∀ j, pc.toNat + 4 * j ∈ l ↔ j ∈ js := by
    intro j
    rw [hl, List.mem_map]
    refine ⟨fun ⟨i, hi, e⟩ => ?_, fun h => ⟨j, h, rfl⟩⟩
    obtain rfl : i = j := by omega
    exact hi
  have hlast : (run env.sem (7 * K) (s.machine pc)).pc.toNat ∉ l := by
    rw [hpcK, show pc + 28 = pc + BitVec.ofNat 32 (4 * 7) from rfl, tn 7 (by omega), inl 7]
    intro h
    exact absurd (hjs 7 h) (by omega)
  have at' : ∀ k < K, ∀ j < 7, bps (run env.sem (7 * k + j) (s.machine pc)).pc.toNat = decide (j ∈ js) := by
    intro k hk j hj
    rw [hpcs k hk j hj, tn j (by omega), hbps]
    simp only [inl j]
  have hBs : ∀ j, B (j + 1) = B j + if j ∈ js then 1 else 0 := by
    intro j
    rw [hBj]
    simp only [List.range_succ, List.filter_append, List.length_append]
    by_cases h : j ∈ js <;> simp [h]
  have hB0 : B 0 = 0 := by rw [hBj]; rfl
  have part : ∀ k < K, visits env.sem bps (s.machine pc) (7 * k) = k * B 7 → ∀ j ≤ 7,
      visits env.sem bps (s.machine pc) (7 * k + j) = k * B 7 + B j := by
    intro k hk h j
    induction j with
    | zero => intro _; rw [hB0]; exact h
    | succ j ih =>
      intro hj
      rw [← Nat.add_assoc, Top.visits_succ, ih (by omega), at' k hk j (by omega), hBs j]
      simp only [decide_eq_true_eq, Nat.add_assoc]
  have full : ∀ k ≤ K, visits env.sem bps (s.machine pc) (7 * k) = k * B 7 := by
    intro k
    induction k with
    | zero => intro _; simp [visits]
    | succ k ih =>
      intro hk
      have := part k (by omega) (ih (by omega)) 7 (Nat.le_refl _)
      rw [show 7 * (k + 1) = 7 * k + 7 by omega, this, Nat.succ_mul]
  have total : visits env.sem bps (s.machine pc) (7 * K + 1) = K * B 7 := by
    rw [Top.visits_succ, full K (Nat.le_refl _), if_neg]
    · rfl
    · rw [hbps]; simpa using hlast
  have hh : (next env.sem (run env.sem (7 * K) (s.machine pc))).2 ≠ [] := by rw [hl1]; simp
  obtain ⟨g1, s1, e1, e2, e3, e4, e5, e6⟩ := C96_debugged_partial env (loopArea pc) (s.machine pc) (7 * K) hq hh htame l
    (by
      intro q hq'
      rw [hl, List.mem_map] at hq'
      obtain ⟨j, hj, rfl⟩ := hq'
      have := hjs j hj
      refine ⟨by omega, ?_, (hne j (by omega)).1, fun _ => ⟨(hne j (by omega)).2.1, (hne j (by omega)).2.2, fun _ => .inr ⟨?_, ?_⟩⟩⟩
      · simp only [loopArea, decide_eq_true_eq]; omega
      · simp only [loopArea, decide_eq_true_eq]; omega
      · exact (hne (j + 1) (by omega)).2.2)
    hlast limit hlim bps hbps _ rfl
  rw [total] at e1 e5
  refine ⟨fun k hk j hj => ?_, s1, e1, ?_, e3, ?_, by rw [e5], fun l' hn hm => ?_⟩
  · have h7 := hjs j hj
    obtain ⟨s2, k1, k2, k3, k4, k5⟩ := g1 (7 * k + j) (by
      have : 7 * (k + 1) ≤ 7 * K := Nat.mul_le_mul_left _ hk
      omega) (by rw [hpcs k hk j h7, tn j (by omega)]; exact (inl j).2 hj)
    rw [part k hk (full k (by omega)) j (by omega)] at k1
    refine ⟨s2, k1, k2, k4.1.trans (hpcs k hk j h7), fun e => ?_⟩
    subst e
    obtain ⟨t', ht', hm'⟩ := hhead k hk
    refine ⟨t', ?_, hm'⟩
    rw [← ht']; exact k4
  · rw [e2]
    have : ∀ (L : List Stop) (h : L ≠ []), L = [.ev .userRequest] → reasonOf (L.getLast h) = .userRequest := by
      intro L h e; subst e; rfl
    exact this _ hh hl1
  · rw [e4.1, ht]; rfl
  · obtain ⟨s2, k1, k2⟩ := e6 l' hn hm
    refine ⟨s2, k1, ?_, ?_, ?_⟩
    · rw [k2, ht]; exact hM
    · rw [k2, ht]; exact h0
    · intro q hq'; rw [k2, ht]; exact hX q hq'

/-- 1000 bytes added in place with breakpoints on the head of the loop and on its `sub`: sixteen stops, the fifteenth at the head with
896 elements done, then the end. -/
example (keep : Nat → Nat → Bool) (s : Arch) (h6 : s.x 6 = 1000#32) (h7 : s.x 7 = 0x1000#32) (h8 : s.x 8 = 0x2000#32)
    (h9 : s.x 9 = 0x1000#32) (hw : ∀ k, (h : k < addCode.length) → word s.mem (0x100 + 4 * k) = addCode[k]) :
    (∃ s1, Top.execAll ⟨vecSem addParams, keep⟩ (debugCalls [0x114, 0x100] 100 15) (Top.fresh (s.machine 0x100)) = .ok (s1, 15) ∧
      s1.m.pc = 0x100 ∧ ∃ t : Arch, Shows (fun a => decide (a ∈ [0x114, 0x100])) s1.m (t.machine 0x100) ∧
        Spec.Mapped true true 8 (fun a b => Spec.sat true 8 (a + b)) 0x1000 0x1000 0x2000 896 s.mem t.mem) ∧
    ∃ s1, Top.execAll ⟨vecSem addParams, keep⟩ (debugCalls [0x114, 0x100] 100 17) (Top.fresh (s.machine 0x100)) = .ok (s1, 16) ∧
      s1.reason = .userRequest ∧ s1.m.pc = 0x120 ∧ s1.instret = 73 ∧
      ∃ s2, Top.clearAll [0x100, 0x114] s1 = (.ok (), s2) ∧
        Spec.Mapped true true 8 (fun a b => Spec.sat true 8 (a + b)) 0x1000 0x1000 0x2000 1000 s.mem s2.m.mem := by
  have hf : Computes addBytes .i8 (.bin .adds .i8) true true true (fun a b => Spec.sat true 8 (a + b)) := by
    intro i rf e1 e2 e3 e4
    refine C01_vadds .i8 rfl (by decide) i rf ?_ ?_
    · rw [e1, e2, VInst.n, e4]; decide +kernel
    · rw [e1, e3, VInst.n, e4]; show Spec.NoOverlap (Spec.bitsAt addBytes.op.word 6 6) (Spec.bitsAt addBytes.op.word 20 6) _
      decide +kernel
  have hcode : CodeAt addCode s 0x100 := by
    refine ⟨fun k hk => ?_, by decide +kernel⟩
    rw [show (0x100 : BitVec 32).toNat = 0x100 from by decide]
    exact hw k hk
  obtain ⟨g, s1, e1, e2, -, e4, e5, e6⟩ := C96_vector ⟨vecSem addParams, keep⟩ addParams rfl addBytes .i8 _ true addBytes_ok
    addParams_known _ _ _ addParams_base true true _ hf 1000 0x1000 0x2000 0x1000
    (by refine ⟨?_, ?_, ?_⟩ <;> decide +kernel) s ⟨h6, h7, h8, h9⟩ 0x100 hcode (by decide) (by decide) 128 8 (by decide) (by decide)
    [5, 0] (by decide) [0x114, 0x100] (by decide) 100 (by decide) _ rfl _ rfl
  refine ⟨?_, s1, e1, e2, e4.trans (by decide), e5, ?_⟩
  · obtain ⟨s3, k1, -, k3, k4⟩ := g 7 (by decide) 0 (by decide)
    obtain ⟨t, k5, k6⟩ := k4 rfl
    exact ⟨s3, k1, k3.trans (by decide), t, k5, k6⟩
  · obtain ⟨s2, k1, k2, -⟩ := e6 [0x100, 0x114] (by decide) (by intro a; simp [or_comm])
    exact ⟨s2, k1, k2⟩

end Verif.Props
