import Verif.Props.DwDebugged
import Verif.Model.Asm

/-!
# Property C121: assembly programs on the core

Any program of vector instructions and base instructions on registers, with any control flow, executed by the core from memory, stepped,
run, debugged with breakpoints, and carried out for a Renode host.
-/

namespace Verif.Props
open Verif Verif.Model Verif.Proofs
open Verif.Spec.Program (Machine Sem Stop word ebreak next run TameAt Shows visits Clear semiEntry semiExit Steady)

/-- The words of the program are in memory from `lo` on. -/
def AsmAt (code : List AsmOp) (mem : Nat → BitVec 8) (lo : Nat) : Prop :=
  (∀ k (h : k < code.length), word mem (lo + 4 * k) = code[k].word) ∧ lo + 4 * code.length < 2 ^ 32

/-- The program does not write its own words in the first `n` operations. -/
def WritesOff (P : VecParams) (code : List AsmOp) (c0 : Nat × Arch) (n lo : Nat) : Prop :=
  ∀ i < n, ∀ c, walk P.maxPhys P.fresh code i c0 = .ok c → ∀ v, code[c.1]? = some (.vec v) → ∀ q,
    Spec.Writes P.maxPhys v.row.sem v.word c.2.x q → q < lo ∨ lo + 4 * code.length ≤ q

/-- It does not read them either. -/
def ReadsOff (P : VecParams) (code : List AsmOp) (c0 : Nat × Arch) (n lo : Nat) : Prop :=
  ∀ i < n, ∀ c, walk P.maxPhys P.fresh code i c0 = .ok c → ∀ v, code[c.1]? = some (.vec v) → ∀ q,
    Spec.Reads P.maxPhys v.row.sem v.word c.2.x q → q < lo ∨ lo + 4 * code.length ≤ q

/-- The machine at a position of the program. -/
def machineAt (lo : Nat) (c : Nat × Arch) : Machine VecRegs := c.2.machine (BitVec.ofNat 32 (lo + 4 * c.1))

theorem walk_before {maxPhys : Nat} {fresh : Nat → VReg} {code : List AsmOp} {c0 : Nat × Arch} : ∀ {n : Nat} {c : Nat × Arch},
    walk maxPhys fresh code n c0 = .ok c → ∀ i ≤ n, ∃ c', walk maxPhys fresh code i c0 = .ok c'
  | 0, c, h, i, hi => ⟨c, by rw [Nat.le_zero.1 hi]; exact h⟩
  | n + 1, c, h, i, hi => by
    by_cases e : i = n + 1
    · exact ⟨c, e ▸ h⟩
    · rw [walk] at h
      obtain ⟨c1, h1, -⟩ := bind_ok_inv h
      exact walk_before h1 i (by omega)

theorem walk_next {maxPhys : Nat} {fresh : Nat → VReg} {code : List AsmOp} {c0 c1 c2 : Nat × Arch} {i : Nat}
    (h1 : walk maxPhys fresh code i c0 = .ok c1) (h2 : walk maxPhys fresh code (i + 1) c0 = .ok c2) :
    advance maxPhys fresh code c1 = .ok c2 := by
  rw [walk, h1, Outcome.ok_bind] at h2
  exact h2

theorem pcAt_add4 (lo j : Nat) : BitVec.ofNat 32 (lo + 4 * j) + 4 = BitVec.ofNat 32 (lo + 4 * (j + 1)) := by
  apply BitVec.eq_of_toNat_eq
  rw [BitVec.toNat_add, BitVec.toNat_ofNat, BitVec.toNat_ofNat]
  show (_ + 4) % _ = _
  omega

theorem word_at {code : List AsmOp} {mem mem' : Nat → BitVec 8} {lo : Nat} (hw : AsmAt code mem lo)
    (hm : ∀ q, lo ≤ q → q < lo + 4 * code.length → mem' q = mem q) {j : Nat} {o : AsmOp} (h : code[j]? = some o) :
    (BitVec.ofNat 32 (lo + 4 * j)).toNat = lo + 4 * j ∧ word mem' (lo + 4 * j) = o.word ∧ o ∈ code ∧ j < code.length := by
  obtain ⟨hj, rfl⟩ := List.getElem?_eq_some_iff.1 h
  have := hw.2
  refine ⟨?_, ?_, List.getElem_mem hj, hj⟩
  · rw [BitVec.toNat_ofNat]; exact Nat.mod_eq_of_lt (by omega)
  · rw [word_congr (g := mem) (fun q hq => hm _ (by omega) (by omega))]
    exact hw.1 j hj

/-- The undisturbed execution from memory goes through the positions and states of the program. -/
theorem asm_line (P : VecParams) (code : List AsmOp) (lo : Nat) (hP : AsmOk P code lo) (c0 : Nat × Arch)
    (hw : AsmAt code c0.2.mem lo) (n : Nat) (hoff : WritesOff P code c0 n lo) : ∀ i ≤ n, ∀ c, walk P.maxPhys P.fresh code i c0 = .ok c →
      run (vecSem P) i (machineAt lo c0) = machineAt lo c ∧ (∀ q, lo ≤ q → q < lo + 4 * code.length → c.2.mem q = c0.2.mem q) ∧
      ∀ c', advance P.maxPhys P.fresh code c = .ok c' → next (vecSem P) (machineAt lo c) = (machineAt lo c', []) := by
  have step : ∀ c : Nat × Arch, (∀ q, lo ≤ q → q < lo + 4 * code.length → c.2.mem q = c0.2.mem q) →
      ∀ c', advance P.maxPhys P.fresh code c = .ok c' → next (vecSem P) (machineAt lo c) = (machineAt lo c', []) := by
    intro c hm c' h
    unfold advance at h
    split at h
    · next v hv =>
      obtain ⟨e1, e2, e3, -⟩ := word_at hw hm hv
      obtain ⟨t, h1, h2⟩ := bind_ok_inv h
      cases h2
      have hk := hP.vec v e3
      have := next_vec P hk.1 hk.2.1 (run_exec h1) (BitVec.ofNat 32 (lo + 4 * c.1)) (by rw [e1]; exact e2)
      rw [pcAt_add4] at this
      exact this
    · next b hb =>
      obtain ⟨e1, e2, e3, -⟩ := word_at hw hm hb
      cases h
      have hk := hP.plain b.word (.inr ⟨b, e3, rfl⟩)
      have := next_base P hk.1 hk.2.2 c.2 (BitVec.ofNat 32 (lo + 4 * c.1)) (by rw [e1]; exact e2)
      rw [e1, hP.reg _ b hb, pcAt_add4] at this
      refine this.trans ?_
      show (_, []) = (_, [])
      congr 1
      show (⟨(b.jump c.2.regs).elim _ _, _, _⟩ : Machine VecRegs) = ⟨_, _, _⟩
      cases b.jump c.2.regs <;> rfl
    · cases h
  intro i
  induction i with
  | zero => intro _ c h; cases h; exact ⟨rfl, fun _ _ _ => rfl, step c0 (fun _ _ _ => rfl)⟩
  | succ i ih =>
    intro hi c h
    obtain ⟨c1, h1⟩ := walk_before h i (by omega)
    obtain ⟨r, hm, hn⟩ := ih (by omega) c1 h1
    have ha := walk_next h1 h
    have hmem : ∀ q, lo ≤ q → q < lo + 4 * code.length → c.2.mem q = c0.2.mem q := by
      intro q q1 q2
      rw [← hm q q1 q2]
      unfold advance at ha
      split at ha
      · next v hv =>
        obtain ⟨t, g1, g2⟩ := bind_ok_inv ha
        cases g2
        refine C95_confined P.maxPhys P.fresh _ (hP.vec v (List.mem_of_getElem? hv)).1.1 _ c1.2 t false (run_exec g1) q (fun hq => ?_)
        have := hoff i (by omega) c1 h1 v hv q hq
        omega
      · cases ha; rfl
      · cases ha
    refine ⟨?_, hmem, step c hmem⟩
    rw [Top.run_succ, r, hn c ha]

/-- The program as an undisturbed execution. -/
theorem asm_quiet (P : VecParams) (code : List AsmOp) (lo : Nat) (hP : AsmOk P code lo) (c0 : Nat × Arch)
    (hw : AsmAt code c0.2.mem lo) (n : Nat) (hoff : WritesOff P code c0 n lo) (c : Nat × Arch)
    (hc : walk P.maxPhys P.fresh code n c0 = .ok c) :
    (∀ i < n, (next (vecSem P) (run (vecSem P) i (machineAt lo c0))).2 = []) ∧
    run (vecSem P) n (machineAt lo c0) = machineAt lo c ∧ Steady (vecSem P) (machineAt lo c0) n ∧
    (∀ w, code[c.1]? = some (.pause w) →
      next (vecSem P) (machineAt lo c) = (machineAt lo (c.1 + 1, c.2), [.ev .userRequest]) ∧
      Steady (vecSem P) (machineAt lo c0) (n + 1)) := by
  have line := asm_line P code lo hP c0 hw n hoff
  have hlt : ∀ i < n, ∃ c1 c2, walk P.maxPhys P.fresh code i c0 = .ok c1 ∧ walk P.maxPhys P.fresh code (i + 1) c0 = .ok c2 := by
    intro i hi
    obtain ⟨c1, h1⟩ := walk_before hc i (by omega)
    obtain ⟨c2, h2⟩ := walk_before hc (i + 1) (by omega)
    exact ⟨c1, c2, h1, h2⟩
  have steady : ∀ n', n' ≤ n + 1 → (∀ i < n', ∀ c', walk P.maxPhys P.fresh code i c0 = .ok c' → c'.1 < code.length) →
      Steady (vecSem P) (machineAt lo c0) n' := by
    intro n' hn' hin i j hij hj
    obtain ⟨ci, hi⟩ := walk_before hc i (by omega)
    obtain ⟨cj, hj'⟩ := walk_before hc j (by omega)
    obtain ⟨ri, mi, -⟩ := line i (by omega) ci hi
    obtain ⟨rj, mj, -⟩ := line j (by omega) cj hj'
    rw [ri, rj]
    have hl := hin i (by omega) ci hi
    have e1 := (word_at hw mi (List.getElem?_eq_getElem hl)).1
    show word cj.2.mem (BitVec.ofNat 32 (lo + 4 * ci.1)).toNat = word ci.2.mem (BitVec.ofNat 32 (lo + 4 * ci.1)).toNat
    rw [e1]
    exact word_congr fun q hq => by rw [mj _ (by omega) (by omega), mi _ (by omega) (by omega)]
  have inside : ∀ i < n, ∀ c', walk P.maxPhys P.fresh code i c0 = .ok c' → c'.1 < code.length := by
    intro i hi c' h'
    obtain ⟨c1, c2, h1, h2⟩ := hlt i hi
    rw [h1] at h'
    cases h'
    have := walk_next h1 h2
    by_contra hge
    unfold advance at this
    rw [List.getElem?_eq_none (by omega)] at this
    cases this
  refine ⟨fun i hi => ?_, (line n (Nat.le_refl _) c hc).1, steady n (by omega) inside, fun w hpw => ⟨?_, ?_⟩⟩
  · obtain ⟨c1, c2, h1, h2⟩ := hlt i hi
    obtain ⟨r, -, hn⟩ := line i (by omega) c1 h1
    rw [r, hn c2 (walk_next h1 h2)]
  · obtain ⟨-, hm, -⟩ := line n (Nat.le_refl _) c hc
    obtain ⟨e1, e2, e3, -⟩ := word_at hw hm hpw
    have hk := hP.plain w (.inl e3)
    have := next_base P hk.1 hk.2.2 c.2 (BitVec.ofNat 32 (lo + 4 * c.1)) (by rw [e1]; exact e2)
    rw [hP.pause w e3, pcAt_add4] at this
    exact this
  · refine steady (n + 1) (by omega) (fun i hi c' h' => ?_)
    by_cases e : i = n
    · subst e
      rw [hc] at h'
      cases h'
      exact (List.getElem?_eq_some_iff.1 hpw).1
    · exact inside i (by omega) c' h'

/-- C121: `Step` over `n` operations of any program of vector instructions and base instructions on registers, with any control
flow, anywhere in memory: the core reports `n` steps and is where the program is after `n` operations. Needed: no operation writes a
word of the program. -/
theorem C121_step (env : Top.Env VecRegs) (P : VecParams) (henv : env.sem = vecSem P) (code : List AsmOp) (lo : Nat)
    (hP : AsmOk P code lo) (c0 : Nat × Arch) (hw : AsmAt code c0.2.mem lo) (n : Nat) (hn : 0 < n) (hoff : WritesOff P code c0 n lo)
    (c : Nat × Arch) (hc : walk P.maxPhys P.fresh code n c0 = .ok c) :
    ∃ s', Top.step env n (Top.fresh (machineAt lo c0)) = .ok (.ok n, s') ∧ s'.m = machineAt lo c ∧ s'.status = .halted ∧
      s'.reason = .none ∧ s'.instret = n := by
  obtain ⟨hq, hr, hst, -⟩ := asm_quiet P code lo hP c0 hw n hoff c hc
  rw [← henv] at hq hr hst
  obtain ⟨s', e, hm, hs, hr', -, -, hi, -⟩ := Top.step_quiet env (Top.fresh (machineAt lo c0)) n hn rfl rfl (by simp [Top.fresh]) hq
    (fun i hi w hw => nomatch hw) hst
  exact ⟨s', e, hm.trans hr, hs, hr', by rw [hi]; simp [Top.fresh]⟩

/-- C121: `Run` of any such program that comes to an `mpause` after `n` operations: the core stops by itself behind it, with exactly
the registers and memory of the program, having retired `n + 1` instructions. -/
theorem C121_run (env : Top.Env VecRegs) (P : VecParams) (henv : env.sem = vecSem P) (code : List AsmOp) (lo : Nat)
    (hP : AsmOk P code lo) (c0 : Nat × Arch) (hw : AsmAt code c0.2.mem lo) (n : Nat) (hoff : WritesOff P code c0 n lo)
    (c : Nat × Arch) (hc : walk P.maxPhys P.fresh code n c0 = .ok c) (w : BitVec 32) (hpw : code[c.1]? = some (.pause w))
    (limit : Nat) (hl : n < limit) :
    ∃ s', Top.runHalt env limit (Top.fresh (machineAt lo c0)) = .ok (.ok (), s') ∧ s'.m = machineAt lo (c.1 + 1, c.2) ∧
      s'.status = .halted ∧ s'.reason = .userRequest ∧ s'.instret = n + 1 := by
  obtain ⟨hq, hr, -, hz⟩ := asm_quiet P code lo hP c0 hw n hoff c hc
  obtain ⟨hl1, hst⟩ := hz w hpw
  rw [← henv] at hq hr hst hl1
  obtain ⟨s', e, hm, hs, hr', -, -, hi⟩ := Top.run_stops env (Top.fresh (machineAt lo c0)) n limit hl (by simp [Top.fresh]) rfl hq
    (by show (next env.sem (run env.sem n (machineAt lo c0))).2 = _; rw [hr, hl1]) (fun i hi w hw => nomatch hw) hst
  refine ⟨s', e, ?_, hs, hr', by rw [hi]; simp [Top.fresh]⟩
  rw [hm, show (Top.fresh (machineAt lo c0)).m = machineAt lo c0 from rfl, Top.run_succ, hr, hl1]

/-- A program of `n` operations with an end: the next instruction leaves the state `e` and asks for a halt. -/
theorem asm_debugged (env : Top.Env VecRegs) (P : VecParams) (henv : env.sem = vecSem P) (code : List AsmOp) (lo : Nat)
    (hal : lo % 4 = 0) (hP : AsmOk P code lo) (c0 : Nat × Arch) (hw : AsmAt code c0.2.mem lo) (n : Nat)
    (hoff : WritesOff P code c0 n lo) (hrd : ReadsOff P code c0 n lo)
    (C : Nat → Nat × Arch) (hc : ∀ i ≤ n, walk P.maxPhys P.fresh code i c0 = .ok (C i)) (e : Arch)
    (hin : (C n).1 < code.length) (hl1 : next (vecSem P) (machineAt lo (C n)) = (machineAt lo ((C n).1 + 1, e), [.ev .userRequest]))
    (hte : TameAt (vecSem P) (fun q => decide (lo ≤ q ∧ q < lo + 4 * code.length)) (machineAt lo (C n))) (js : List Nat) (hjs : ∀ j ∈ js, j + 1 < code.length) (hlast : (C n).1 ∉ js)
    (l : List Nat) (hl : l = js.map fun j => lo + 4 * j) (limit : Nat) (hlim : n < limit)
    (V : Nat → Nat) (hV : V = fun i => ((List.range i).filter fun k => decide ((C k).1 ∈ js)).length) (bps : Nat → Bool)
    (hbps : bps = fun a => decide (a ∈ l)) :
    (∀ i < n, (C i).1 ∈ js → ∃ s1, Top.execAll env (debugCalls l limit (V i + 1)) (Top.fresh (machineAt lo c0)) = .ok (s1, V i + 1) ∧
      s1.reason = .softwareBreakpoint ∧ s1.status = .halted ∧ Shows bps s1.m (machineAt lo (C i)) ∧ s1.instret = i + V i + 1) ∧
    ∃ s1, Top.execAll env (debugCalls l limit (V n + 1)) (Top.fresh (machineAt lo c0)) = .ok (s1, V n) ∧
      s1.reason = .userRequest ∧ s1.status = .halted ∧ Shows bps s1.m (machineAt lo ((C n).1 + 1, e)) ∧
      s1.instret = n + 1 + V n ∧
      ∀ l', l'.Nodup → (∀ a, a ∈ l' ↔ a ∈ l) → ∃ s2, Top.clearAll l' s1 = (.ok (), s2) ∧
        s2.m = machineAt lo ((C n).1 + 1, e) := by
  have line := asm_line P code lo hP c0 hw n hoff
  obtain ⟨hq, hr, -, -⟩ := asm_quiet P code lo hP c0 hw n hoff (C n) (hc n (Nat.le_refl _))
  have hlen := hw.2
  obtain ⟨A, hA⟩ : ∃ A : Nat → Bool, A = fun q => decide (lo ≤ q ∧ q < lo + 4 * code.length) := ⟨_, rfl⟩
  have inA : ∀ j < code.length, A (lo + 4 * j) = true := by
    intro j hj; rw [hA]; simp only [decide_eq_true_eq]; omega
  have outA : ∀ q, (q < lo ∨ lo + 4 * code.length ≤ q) → A (q / 4 * 4) = false := by
    intro q hq; rw [hA]; simp only [decide_eq_false_iff_not]; omega
  have at' : ∀ i ≤ n, run (vecSem P) i (machineAt lo c0) = machineAt lo (C i) := fun i hi => (line i hi _ (hc i hi)).1
  have inside : ∀ i ≤ n, (C i).1 < code.length := by
    intro i hi
    by_cases e : i = n
    · subst e; exact hin
    · have := walk_next (hc i hi) (hc (i + 1) (by omega))
      by_contra hge
      unfold advance at this
      rw [List.getElem?_eq_none (by omega)] at this
      cases this
  have tn : ∀ j < code.length, (BitVec.ofNat 32 (lo + 4 * j)).toNat = lo + 4 * j := fun j hj => by
    rw [BitVec.toNat_ofNat]; exact Nat.mod_eq_of_lt (by omega)
  have htame : ∀ i ≤ n, TameAt (vecSem P) A (run (vecSem P) i (machineAt lo c0)) := by
    intro i hi
    rw [at' i hi]
    obtain ⟨-, hm, -⟩ := line i hi _ (hc i hi)
    have hin := inside i hi
    have hal' : (machineAt lo (C i)).pc.toNat % 4 = 0 := by
      show (BitVec.ofNat 32 (lo + 4 * (C i).1)).toNat % 4 = 0
      rw [tn _ hin]; omega
    have hA' : A (machineAt lo (C i)).pc.toNat = true := by
      show A (BitVec.ofNat 32 (lo + 4 * (C i).1)).toNat = true
      rw [tn _ hin]; exact inA _ hin
    have hword : ∀ o, code[(C i).1]? = some o → word (machineAt lo (C i)).mem (machineAt lo (C i)).pc.toNat = o.word := by
      intro o ho
      show word (C i).2.mem (BitVec.ofNat 32 (lo + 4 * (C i).1)).toNat = _
      rw [tn _ hin]
      exact (word_at hw hm ho).2.1
    by_cases e : i = n
    · subst e
      rw [hA]
      exact hte
    · have hadv := walk_next (hc i hi) (hc (i + 1) (by omega))
      unfold advance at hadv
      split at hadv
      · next v hv =>
        obtain ⟨t, g1, -⟩ := bind_ok_inv hadv
        have hk := hP.vec v (List.mem_of_getElem? hv)
        have hx := run_exec g1
        have hwd := hword _ hv
        change word (machineAt lo (C i)).mem (machineAt lo (C i)).pc.toNat = v.word at hwd
        refine C95_tame P A (machineAt lo (C i)) v.row hk.1.1 (by rw [hwd]; exact hk.2.1) (false, t)
          (by rw [hwd]; exact hx) (by rw [hwd]; exact exec_ne_ebreak hk.1 hx) hal' hA' ?_ ?_
        · intro q hq
          rw [hwd] at hq
          exact outA q (hrd i (by omega) _ (hc i hi) v hv q hq)
        · intro q hq
          rw [hwd] at hq
          exact outA q (hoff i (by omega) _ (hc i hi) v hv q hq)
      · next b hb =>
        have hk := hP.plain b.word (.inr ⟨b, List.mem_of_getElem? hb, rfl⟩)
        refine tame_base P hk.2.2 A _ (hword _ hb) hk.1 hal' hA'
          (fun x r => (b.jump r).elim x fun k => BitVec.ofNat 32 (lo + 4 * k)) b.regs [] (fun m' => ?_)
        have := hP.reg _ b hb m'
        rw [← tn _ hin] at this
        exact this
      · cases hadv
  have hne : ∀ j (hj : j < code.length), word c0.2.mem (lo + 4 * j) ≠ ebreak ∧ word c0.2.mem (lo + 4 * j) ≠ semiEntry ∧
      word c0.2.mem (lo + 4 * j) ≠ semiExit := by
    intro j hj
    rw [hw.1 j hj]
    have hm := List.getElem_mem hj
    cases ho : code[j] with
    | vec v =>
      rw [ho] at hm
      have hk := hP.vec v hm
      exact ⟨ne_ebreak hk.1 hk.2.2, ne_marks hk.1 hk.2.2⟩
    | reg b =>
      rw [ho] at hm
      have hk := hP.plain b.word (.inr ⟨b, hm, rfl⟩)
      exact ⟨hk.1, hk.2.1⟩
    | pause w =>
      rw [ho] at hm
      have hk := hP.plain w (.inl hm)
      exact ⟨hk.1, hk.2.1⟩
  have inl : ∀ j, lo + 4 * j ∈ l ↔ j ∈ js := by
    intro j
    rw [hl, List.mem_map]
    refine ⟨fun ⟨i, hi, e⟩ => ?_, fun h => ⟨j, h, rfl⟩⟩
    obtain rfl : i = j := by omega
    exact hi
  have hpcs : ∀ i ≤ n, (run (vecSem P) i (machineAt lo c0)).pc.toNat = lo + 4 * (C i).1 := by
    intro i hi
    rw [at' i hi]
    exact tn _ (inside i hi)
  rw [← henv] at hq hl1 at' htame hpcs
  have hvis : ∀ i ≤ n, visits env.sem bps (machineAt lo c0) i = V i := by
    intro i
    induction i with
    | zero => intro _; rw [hV]; simp [visits]
    | succ i ih =>
      intro hi
      have hVs : V (i + 1) = V i + if (C i).1 ∈ js then 1 else 0 := by
        rw [hV]
        simp only [List.range_succ, List.filter_append, List.length_append]
        by_cases h : (C i).1 ∈ js <;> simp [h]
      rw [Top.visits_succ, ih (by omega), hpcs i (by omega), hVs, hbps]
      simp only [inl, decide_eq_true_eq]
  have hlast' : (run env.sem n (machineAt lo c0)).pc.toNat ∉ l := by
    rw [hpcs n (Nat.le_refl _), inl]
    exact hlast
  have total : visits env.sem bps (machineAt lo c0) (n + 1) = V n := by
    rw [Top.visits_succ, hvis n (Nat.le_refl _), if_neg]
    · rfl
    · rw [hbps]; simpa using hlast'
  have hlx : (next env.sem (run env.sem n (machineAt lo c0))).2 = [.ev .userRequest] := by rw [at' n (Nat.le_refl _), hl1]
  have rE : run env.sem (n + 1) (machineAt lo c0) = machineAt lo ((C n).1 + 1, e) := by
    rw [Top.run_succ, at' n (Nat.le_refl _), hl1]
  have hh : (next env.sem (run env.sem n (machineAt lo c0))).2 ≠ [] := by rw [hlx]; simp
  obtain ⟨g1, s1, e1, e2, e3, e4, e5, e6⟩ := C96_debugged_partial env A (machineAt lo c0) n hq hh htame l
    (by
      intro q hq'
      rw [hl, List.mem_map] at hq'
      obtain ⟨j, hj, rfl⟩ := hq'
      have := hjs j hj
      exact ⟨by omega, inA j (by omega), (hne j (by omega)).1, fun _ => ⟨(hne j (by omega)).2.1, (hne j (by omega)).2.2,
        fun _ => .inr ⟨inA (j + 1) this, (hne (j + 1) this).2.2⟩⟩⟩)
    hlast' limit hlim bps hbps _ rfl
  rw [total] at e1 e5
  refine ⟨fun i hi hij => ?_, s1, e1, ?_, e3, ?_, e5, fun l' hn hm => ?_⟩
  · obtain ⟨s2, k1, k2, k3, k4, k5⟩ := g1 i (by omega) (by rw [hpcs i (by omega)]; exact (inl _).2 hij)
    rw [hvis i (by omega)] at k1 k5
    rw [at' i (by omega)] at k4
    exact ⟨s2, k1, k2, k3, k4, k5⟩
  · rw [e2]
    have : ∀ (L : List Stop) (h : L ≠ []), L = [.ev .userRequest] → reasonOf (L.getLast h) = .userRequest := by
      intro L h e; subst e; rfl
    exact this _ hh hlx
  · rw [rE] at e4; exact e4
  · obtain ⟨s2, k1, k2⟩ := e6 l' hn hm
    exact ⟨s2, k1, by rw [k2, rE]⟩

/-- C121: any such program debugged with breakpoints on any of its words but the `mpause` that ends it (`js` are their numbers; a
word that is executed again is a visit again; `V i` counts the visits in the first `i` operations). `Run`, called again and again,
stops at every visit, showing exactly the registers and memory of the program there; the `Run` after the last ends in the `mpause`;
one instruction more has been counted for each stop; clearing the breakpoints, in any order, leaves exactly what the program computes.
Needed: the program is aligned and no operation reads or writes a word of it, and the word behind each breakpoint belongs to it. -/
theorem C121_debugged (env : Top.Env VecRegs) (P : VecParams) (henv : env.sem = vecSem P) (code : List AsmOp) (lo : Nat)
    (hal : lo % 4 = 0) (hP : AsmOk P code lo) (c0 : Nat × Arch) (hw : AsmAt code c0.2.mem lo) (n : Nat)
    (hoff : WritesOff P code c0 n lo) (hrd : ReadsOff P code c0 n lo)
    (C : Nat → Nat × Arch) (hc : ∀ i ≤ n, walk P.maxPhys P.fresh code i c0 = .ok (C i)) (w : BitVec 32)
    (hpw : code[(C n).1]? = some (.pause w)) (js : List Nat) (hjs : ∀ j ∈ js, j + 1 < code.length) (hlast : (C n).1 ∉ js)
    (l : List Nat) (hl : l = js.map fun j => lo + 4 * j) (limit : Nat) (hlim : n < limit)
    (V : Nat → Nat) (hV : V = fun i => ((List.range i).filter fun k => decide ((C k).1 ∈ js)).length) (bps : Nat → Bool)
    (hbps : bps = fun a => decide (a ∈ l)) :
    (∀ i < n, (C i).1 ∈ js → ∃ s1, Top.execAll env (debugCalls l limit (V i + 1)) (Top.fresh (machineAt lo c0)) = .ok (s1, V i + 1) ∧
      s1.reason = .softwareBreakpoint ∧ s1.status = .halted ∧ Shows bps s1.m (machineAt lo (C i)) ∧ s1.instret = i + V i + 1) ∧
    ∃ s1, Top.execAll env (debugCalls l limit (V n + 1)) (Top.fresh (machineAt lo c0)) = .ok (s1, V n) ∧
      s1.reason = .userRequest ∧ s1.status = .halted ∧ Shows bps s1.m (machineAt lo ((C n).1 + 1, (C n).2)) ∧
      s1.instret = n + 1 + V n ∧
      ∀ l', l'.Nodup → (∀ a, a ∈ l' ↔ a ∈ l) → ∃ s2, Top.clearAll l' s1 = (.ok (), s2) ∧
        s2.m = machineAt lo ((C n).1 + 1, (C n).2) := by
  obtain ⟨hl1, -⟩ := (asm_quiet P code lo hP c0 hw n hoff (C n) (hc n (Nat.le_refl _))).2.2.2 w hpw
  obtain ⟨-, hm, -⟩ := asm_line P code lo hP c0 hw n hoff n (Nat.le_refl _) _ (hc n (Nat.le_refl _))
  obtain ⟨e1, e2, e3, e4⟩ := word_at hw hm hpw
  have hlen := hw.2
  have hk := hP.plain w (.inl e3)
  have hpc : (machineAt lo (C n)).pc.toNat = lo + 4 * (C n).1 := e1
  exact asm_debugged env P henv code lo hal hP c0 hw n hoff hrd C hc (C n).2 e4 hl1
    (tame_base P hk.2.2 _ _ (by rw [hpc]; exact e2) hk.1 (by rw [hpc]; omega) (by rw [hpc]; simp only [decide_eq_true_eq]; omega)
      (fun x _ => x) (fun r => r) [.userRequest] (fun m' => hP.pause w e3 _ m'))
    js hjs hlast l hl limit hlim V hV bps hbps

/-! ## Carried out for a host -/

section
open Verif.Model.Agent Verif.Model.RenodeCore Verif.Proofs.RenodeCore
open Verif.Model.Top (St fresh)

/-- C121: any such program carried out for a Renode host, which sends it in blocks of bytes, sets registers and pc, steps in pieces
of any sizes and fetches bytes: every call succeeds, and the bytes fetched are those the program leaves. -/
theorem C121_job (R : Params VecRegs) (P : VecParams) (henv : R.env.sem = vecSem P) (code : List AsmOp) (lo : Nat)
    (hP : AsmOk P code lo) (bs : List (Nat × List (BitVec 8))) (rs : List (Fin 32 × BitVec 32))
    (hbs : ∀ b ∈ bs, b.2 ≠ [] ∧ b.1 + b.2.length ≤ 0x400000) (m : Machine VecRegs) (c0 : Nat × Arch)
    (hset : arranged R m bs rs (lo + 4 * c0.1) = machineAt lo c0) (hin : c0.1 < code.length) (hw : AsmAt code c0.2.mem lo) (T : Nat)
    (hoff : WritesOff P code c0 T lo) (c : Nat × Arch) (hc : walk P.maxPhys P.fresh code T c0 = .ok c) (w : BitVec 32)
    (hpw : code[c.1]? = some (.pause w)) (ns : List (BitVec 64)) (n : BitVec 64) (h0 : ∀ k ∈ ns, 0 < k.toNat)
    (d len : Nat) (hlen : 0 < len) (hd : d + len ≤ 0x400000) (hT : T < 2147483647) (hns : (ns.map BitVec.toNat).sum ≤ T)
    (hn : T < (ns.map BitVec.toNat).sum + n.toNat) (ag : Agent (St VecRegs)) (id : BitVec 32) (hag : ag.inst id = some (fresh m)) :
    ∃ tr ag', calls (core R) (job R.nb id bs rs (lo + 4 * c0.1) ns n d len) ag = .ok (tr, ag') ∧
      tr.map Prod.snd = bs.map (fun b => { ret := BitVec.ofNat 64 b.2.length }) ++ (rs.map (fun _ => { ret := 0 }) ++
        ({ ret := 0 } :: (ns.map (fun k => { ret := k, status := some 0 }) ++
        [{ ret := BitVec.ofNat 64 (T + 1 - (ns.map BitVec.toNat).sum), status := some 0 },
         { ret := BitVec.ofNat 64 len, bytes := some ((List.range len).map fun k => c.2.mem (d + k)) }]))) := by
  obtain ⟨hq, hr, -, hz⟩ := asm_quiet P code lo hP c0 hw T hoff c hc
  obtain ⟨hl1, hst⟩ := hz w hpw
  rw [← henv] at hq hr hst hl1
  have := hw.2
  obtain ⟨tr, ag', e1, e2⟩ := C119_job R bs rs (lo + 4 * c0.1) (by omega) hbs ns n h0 d len T hlen hd hT hns hn m _ hset.symm hq
    (by rw [hr, hl1]) hst ag id hag
  rw [Top.run_succ, hr, hl1] at e2
  exact ⟨tr, ag', e1, e2⟩

end

/-! ## Example -/

/-- The row of a vector instruction with this word. -/
def vecFor (w : BitVec 32) : AsmOp → Option Row
  | .vec i => if i.word = w then some i.row else none
  | _ => none

/-- The base instruction with this word. -/
def regFor (w : BitVec 32) : AsmOp → Option RegOp
  | .reg b => if b.word = w then some b else none
  | _ => none

/-- A core that gives the words of a program their meaning. -/
def asmParams (code : List AsmOp) (lo : Nat) : VecParams where
  dec := fun w => code.findSome? (vecFor w)
  base := { inst := fun w _ m => match code.findSome? (regFor w) with
    | some b => ({ pc := (b.jump m.regs).elim m.pc fun k => BitVec.ofNat 32 (lo + 4 * k), mem := m.mem, regs := b.regs m.regs }, [])
    | none => (m, [.userRequest]) }
  und := { inst := fun _ _ m => (m, []) }
  maxPhys := 0x3fffff
  fresh := fun _ => 0

theorem find_first {α β : Type} {f : α → Option β} {o : α} {r : β} (hf : f o = some r) : ∀ (l : List α), o ∈ l →
    (∀ o' ∈ l, ∀ r', f o' = some r' → o' = o) → l.findSome? f = some r
  | [], h, _ => nomatch h
  | a :: l, h, hu => by
    rw [List.findSome?_cons]
    cases ha : f a with
    | some r' =>
      have := hu a (by simp) r' ha
      subst this
      exact ha.symm.trans hf
    | none =>
      rcases List.mem_cons.1 h with rfl | h
      · rw [hf] at ha; cases ha
      · exact find_first hf l h (fun o' ho' => hu o' (List.mem_cons_of_mem _ ho'))

theorem same_word : ∀ {code : List AsmOp}, (code.map AsmOp.word).Nodup → ∀ {o o' : AsmOp}, o ∈ code → o' ∈ code →
    o'.word = o.word → o' = o
  | [], _, _, _, h, _, _ => nomatch h
  | a :: code, hn, o, o', h, h', e => by
    rw [List.map_cons, List.nodup_cons] at hn
    rcases List.mem_cons.1 h with k | k <;> rcases List.mem_cons.1 h' with k' | k'
    · rw [k, k']
    · exact absurd (k ▸ e ▸ List.mem_map_of_mem k') hn.1
    · exact absurd (k' ▸ e ▸ List.mem_map_of_mem (f := AsmOp.word) k) hn.1
    · exact same_word hn.2 k k' e

/-- Any program of different words, those of the base instructions being no `ebreak` or semihosting mark, has such a core. -/
theorem asmParams_ok (code : List AsmOp) (lo : Nat) (hn : (code.map AsmOp.word).Nodup)
    (hv : ∀ i, AsmOp.vec i ∈ code → i.Ok ∧ i.row.sem ≠ .scalar)
    (hp : ∀ o ∈ code, o.word ≠ ebreak ∧ o.word ≠ semiEntry ∧ o.word ≠ semiExit) : AsmOk (asmParams code lo) code lo where
  vec := fun i hi => ⟨(hv i hi).1, find_first (o := .vec i) (by simp [vecFor]) code hi (fun o' ho' r' hr' => by
    cases o' with
    | vec i' =>
      simp only [vecFor] at hr'
      split at hr'
      · next e => exact same_word hn hi ho' e
      · cases hr'
    | reg b => cases hr'
    | pause w => cases hr'), (hv i hi).2⟩
  plain := by
    intro w h
    obtain ⟨o, ho, rfl, hno⟩ : ∃ o ∈ code, o.word = w ∧ ∀ i, o ≠ .vec i := by
      rcases h with h | ⟨b, h, rfl⟩
      · exact ⟨_, h, rfl, by simp⟩
      · exact ⟨_, h, rfl, by simp⟩
    refine ⟨(hp o ho).1, (hp o ho).2, fun r hr => ?_⟩
    obtain ⟨o', ho', hr'⟩ := List.exists_of_findSome?_eq_some hr
    cases o' with
    | vec i =>
      simp only [vecFor] at hr'
      split at hr'
      · next e => exact absurd (same_word hn ho ho' e).symm (hno i)
      · cases hr'
    | reg b => cases hr'
    | pause w => cases hr'
  reg := by
    intro j b hb m
    have hm := List.mem_of_getElem? hb
    have := find_first (f := regFor b.word) (o := .reg b) (r := b) (by simp [regFor]) code hm (fun o' ho' r' hr' => by
      cases o' with
      | reg b' =>
        simp only [regFor] at hr'
        split at hr'
        · next e => exact same_word hn hm ho' e
        · cases hr'
      | vec i => cases hr'
      | pause w => cases hr')
    show (match code.findSome? (regFor b.word) with | some b => _ | none => _) = _
    rw [this]
  pause := by
    intro w hw a m
    have : code.findSome? (regFor w) = none := by
      rw [List.findSome?_eq_none_iff]
      intro o ho
      cases o with
      | reg b =>
        simp only [regFor]
        split
        · next e => have := same_word hn hw ho e; cases this
        · rfl
      | vec i => rfl
      | pause w => rfl
    show (match code.findSome? (regFor w) with | some b => _ | none => _) = _
    rw [this]

/-- `x[d] := x[s] + k`. -/
def addImm (w : BitVec 32) (d s : Nat) (k : BitVec 32) : RegOp := ⟨w, fun r => { r with x := writeX r.x d (r.x s + k) }, fun _ => none⟩

/-- Jump to position `k` if `x[s]` is not 0. -/
def bnez (w : BitVec 32) (s k : Nat) : RegOp := ⟨w, fun r => r, fun r => if r.x s = 0 then none else some k⟩

/-- Two loops, one inside the other: `vld.b.lp.xx.m v0, x8, x5` is executed `x6` times in the first of the `x7`
rounds and twice in each of the others. -/
def nest : List AsmOp := [.vec ⟨matBytes.ldRow, 0x1454003f#32⟩, .reg (addImm 0xfff30313 6 6 (-1)), .reg (bnez 0xfe031ce3 6 0),
  .reg (addImm 0x00200313 6 0 2), .reg (addImm 0xfff38393 7 7 (-1)), .reg (bnez 0xfe0396e3 7 0), .pause mpauseWord]

theorem nest_ok : AsmOk (asmParams nest 0x100) nest 0x100 :=
  asmParams_ok nest 0x100 (by decide +kernel)
    (by
      intro i hi
      simp only [nest, List.mem_cons, AsmOp.vec.injEq, List.not_mem_nil, or_false, reduceCtorEq] at hi
      subst hi
      exact ⟨decodesB_ok (by decide +kernel), by decide +kernel⟩)
    (by decide +kernel)

/-- Length 128, one round of the inner loop, two of the outer, data at 0x1000; the program at 0x100. -/
def nestState : Arch where
  x := fun q => if q = 5 then 128 else if q = 6 then 1 else if q = 7 then 2 else if q = 8 then 0x1000 else 0
  v := fun _ => 0
  mem := Spec.placed (fun _ => 0) [(0x100, bytesOf (nest.map AsmOp.word))]
  acc := fun _ _ => 0
  dw := fun _ => none

/-- The position and state after `i` operations. -/
def nestAt (i : Nat) : Nat × Arch :=
  match walk 0x3fffff (fun _ => 0) nest i (0, nestState) with
  | .ok c => c
  | _ => (0, nestState)

set_option maxRecDepth 100000 in
/-- Breakpoints on the load and on the end of the outer loop. Fifteen operations: the load is visited three times, the end of the outer
loop twice, so the sixth `Run` ends in the `mpause`; the address has moved on by 384. -/
example (keep : Nat → Nat → Bool) :
    ∃ s1 s2, Top.execAll ⟨vecSem (asmParams nest 0x100), keep⟩ (debugCalls [0x100, 0x114] 100 6) (Top.fresh (machineAt 0x100 (0, nestState))) =
        .ok (s1, 5) ∧ s1.reason = .userRequest ∧ s1.instret = 21 ∧ Top.clearAll [0x114, 0x100] s1 = (.ok (), s2) ∧
      s2.m.regs.x 8 = 0x1180 ∧ s2.m.pc = 0x11c := by
  obtain ⟨-, s1, e1, e2, -, -, e5, e6⟩ := C121_debugged ⟨vecSem (asmParams nest 0x100), keep⟩ (asmParams nest 0x100) rfl nest 0x100 (by decide)
    nest_ok (0, nestState) ⟨by decide +kernel, by decide⟩ 15
    (by
      intro i hi c hc v hv q hq
      have hm := List.mem_of_getElem? hv
      simp only [nest, List.mem_cons, AsmOp.vec.injEq, List.not_mem_nil, or_false, reduceCtorEq] at hm
      subst hm
      exact hq.elim)
    (by
      intro i hi c hc v hv q hq
      have hm := List.mem_of_getElem? hv
      simp only [nest, List.mem_cons, AsmOp.vec.injEq, List.not_mem_nil, or_false, reduceCtorEq] at hm
      subst hm
      have hx : ∀ i < 15, 0x1000 ≤ ((nestAt i).2.x 8).toNat ∧ ((nestAt i).2.x 8).toNat < 0x2000 ∧ (nestAt i).2.x 5 = 128 := by
        decide +kernel
      obtain ⟨h1, h2, h3⟩ := hx i hi
      have hcc : nestAt i = c := by
        unfold nestAt
        rw [show walk 0x3fffff (fun _ => 0) nest i (0, nestState) = .ok c from hc]
      rw [hcc] at h1 h2 h3
      have := feet_lp 0x3fffff 0x1454003f#32 .i8 (by decide) true c.2.x (by decide) (by decide) (c.2.x 8).toNat 128
        (by
          show Spec.effBase _ (c.2.x 8) = _
          have := effBase_small (maxPhys := 0x3fffff) (a := (c.2.x 8).toNat) (lim := 2 ^ 31) (by decide) (by omega)
          rwa [BitVec.ofNat_toNat, BitVec.setWidth_eq] at this)
        (by
          show min (c.2.x 5).toNat _ = _
          rw [h3]; decide) (by show _ + 128 * 1 ≤ _; omega) q hq
      right
      show 0x100 + 4 * 7 ≤ q
      omega)
    nestAt
    (by
      intro i hi
      have hok : ∀ i ≤ 15, (match walk 0x3fffff (fun _ => 0) nest i (0, nestState) with | .ok _ => true | _ => false) = true := by
        decide +kernel
      have := hok i hi
      show walk 0x3fffff (fun _ => 0) nest i (0, nestState) = _
      unfold nestAt
      cases h : walk 0x3fffff (fun _ => 0) nest i (0, nestState) with
      | ok c => rfl
      | ub => rw [h] at this; cases this
      | abort => rw [h] at this; cases this)
    mpauseWord (by
      have : (nestAt 15).1 = 6 := by decide +kernel
      rw [this]; rfl)
    [0, 5] (by decide) (by decide +kernel) [0x100, 0x114] rfl 100 (by decide) _ rfl _ rfl
  obtain ⟨s2, k1, k2⟩ := e6 [0x114, 0x100] (by decide) (by simp [or_comm])
  have hV : ((List.range 15).filter fun k => decide ((nestAt k).1 ∈ [0, 5])).length = 5 := by decide +kernel
  rw [hV] at e1 e5
  refine ⟨s1, s2, e1, e2, e5, k1, ?_, ?_⟩
  · rw [k2]
    show (nestAt 15).2.x 8 = _
    decide +kernel
  · rw [k2]
    show BitVec.ofNat 32 (0x100 + 4 * ((nestAt 15).1 + 1)) = _
    decide +kernel

end Verif.Props
