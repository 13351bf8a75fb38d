import Verif.Props.Asm

/-!
# Property C121 (continued): programs that end in a trap, and programs that do not end
-/

namespace Verif.Props
open Verif Verif.Model Verif.Proofs
open Verif.Spec.Program (Machine Sem Stop word next run Steady Shows TameAt)

/-- `Run` with a `Halt` that comes after `k` instructions of an execution that asks for nothing. -/
theorem run_until_halt {σ : Type} (env : Top.Env σ) (s : Top.St σ) (k : Nat) (hs : s.status ≠ .running) (ho : s.stepOver = false)
    (hq : ∀ i < k, (next env.sem (run env.sem i s.m)).2 = [])
    (ha : Top.Agrees env.sem k s.cache s.m) (hst : Steady env.sem s.m k) :
    ∃ s', Top.runHalt env k s = .ok (.ok (), s') ∧ s'.m = run env.sem k s.m ∧ s'.status = .halted ∧ s'.reason = .userRequest ∧
      s'.bps = s.bps ∧ s'.instret = s.instret + k := by
  obtain ⟨last, s1, e, hA⟩ := Top.execLoop_quiet env false k k 0 0 none { s with status := .running, halted := false } rfl (by omega)
    hq ha hst
  refine ⟨{ s1 with reason := .userRequest, halted := true, status := .halted }, ?_, hA.m, rfl, rfl, hA.bps, hA.instret⟩
  have hh1 : s1.halted = false := hA.halted
  simp only [ho, Nat.zero_add] at e
  unfold Top.runHalt Top.runStart
  rw [if_neg hs]
  simp only [ho, Bool.false_eq_true, if_false]
  rw [e]
  unfold Top.execLoop Top.runEnd Top.finishPc
  simp only [hh1, Bool.false_eq_true, if_false, Top.haltFlagPart, Top.haltReasonPart]
  rw [if_neg (by simp), Outcome.ok_bind]
  show Outcome.ok (Except.ok (), { Top.setPc s1.m.pc.toNat s1 with reason := .userRequest, halted := true, status := .halted }) = _
  rw [Top.setPc_self]

/-- C121: a `Halt` that comes after `k` instructions of any such program, whether or not it would ever end: the core is where the program
is after `k` operations, and has retired `k` instructions. -/
theorem C121_halt (env : Top.Env VecRegs) (P : VecParams) (henv : env.sem = vecSem P) (code : List AsmOp) (lo : Nat)
    (hP : AsmOk P code lo) (c0 : Nat × Arch) (hw : AsmAt code c0.2.mem lo) (k : Nat) (hoff : WritesOff P code c0 k lo)
    (c : Nat × Arch) (hc : walk P.maxPhys P.fresh code k c0 = .ok c) :
    ∃ s', Top.runHalt env k (Top.fresh (machineAt lo c0)) = .ok (.ok (), s') ∧ s'.m = machineAt lo c ∧ s'.status = .halted ∧
      s'.reason = .userRequest ∧ s'.instret = k := by
  obtain ⟨hq, hr, hst, -⟩ := asm_quiet P code lo hP c0 hw k hoff c hc
  rw [← henv] at hq hr hst
  obtain ⟨s', e, hm, hs, hr', -, hi⟩ := run_until_halt env (Top.fresh (machineAt lo c0)) k (by simp [Top.fresh]) rfl hq
    (fun i hi w hw => nomatch hw) hst
  exact ⟨s', e, hm.trans hr, hs, hr', by rw [hi]; simp [Top.fresh]⟩

/-- C121: any such program that comes, after `n` operations, to a vector instruction that raises the illegal-instruction trap. `Run`
stops by itself behind it, and so does `Step` of more than `n` instructions, which reports `n + 1`: what the operations before it did
stays done, and memory and registers are those the instruction leaves. -/
theorem C121_trap (env : Top.Env VecRegs) (P : VecParams) (henv : env.sem = vecSem P) (code : List AsmOp) (lo : Nat)
    (hP : AsmOk P code lo) (c0 : Nat × Arch) (hw : AsmAt code c0.2.mem lo) (n : Nat) (hoff : WritesOff P code c0 n lo)
    (c : Nat × Arch) (hc : walk P.maxPhys P.fresh code n c0 = .ok c) (i : Inst) (hi : code[c.1]? = some (.vec i)) (u : Arch)
    (hu : execRow P.maxPhys P.fresh i.row i.word c.2 = some (.ok (true, u))) (limit : Nat) (hl : n < limit) :
    (∃ s', Top.runHalt env limit (Top.fresh (machineAt lo c0)) = .ok (.ok (), s') ∧ s'.m = machineAt lo (c.1 + 1, u) ∧
      s'.status = .halted ∧ s'.reason = .userRequest ∧ s'.instret = n + 1) ∧
    ∃ s', Top.step env limit (Top.fresh (machineAt lo c0)) = .ok (.ok (n + 1), s') ∧ s'.m = machineAt lo (c.1 + 1, u) ∧
      s'.status = .halted ∧ s'.reason = .userRequest ∧ s'.instret = n + 1 := by
  have line := asm_line P code lo hP c0 hw n hoff
  obtain ⟨hq, hr, hst, -⟩ := asm_quiet P code lo hP c0 hw n hoff c hc
  obtain ⟨-, hm, -⟩ := line n (Nat.le_refl _) c hc
  obtain ⟨e1, e2, e3, e4⟩ := word_at hw hm hi
  have hk := hP.vec i e3
  have hn := next_vec P hk.1 hk.2.1 hu (BitVec.ofNat 32 (lo + 4 * c.1)) (by rw [e1]; exact e2)
  rw [pcAt_add4] at hn
  have hst' : Steady (vecSem P) (machineAt lo c0) (n + 1) := by
    intro i' j hij hj
    by_cases hjn : j < n
    · exact hst i' j hij hjn
    · obtain rfl : j = n := by omega
      obtain ⟨ci, h1⟩ := walk_before hc i' hij
      obtain ⟨ri, mi, -⟩ := line i' hij ci h1
      have hlt : ci.1 < code.length := by
        by_cases h : i' = j
        · subst h
          rw [hc] at h1
          cases h1
          exact e4
        · obtain ⟨c2, h2⟩ := walk_before hc (i' + 1) (by omega)
          have := walk_next h1 h2
          by_contra hge
          unfold advance at this
          rw [List.getElem?_eq_none (by omega)] at this
          cases this
      rw [ri, hr]
      have a1 := (word_at hw mi (List.getElem?_eq_getElem hlt)).1
      show word c.2.mem (BitVec.ofNat 32 (lo + 4 * ci.1)).toNat = word ci.2.mem (BitVec.ofNat 32 (lo + 4 * ci.1)).toNat
      rw [a1]
      exact word_congr fun q hq => by rw [hm _ (by omega) (by omega), mi _ (by omega) (by omega)]
  have hend : run (vecSem P) (n + 1) (machineAt lo c0) = machineAt lo (c.1 + 1, u) := by
    rw [Top.run_succ, hr]
    exact congrArg Prod.fst hn
  have hlast : (next (vecSem P) (run (vecSem P) n (machineAt lo c0))).2 = [.ev .userRequest] := by
    rw [hr]
    exact congrArg Prod.snd hn
  rw [← henv] at hq hst' hend hlast
  refine ⟨?_, ?_⟩
  · obtain ⟨s', e, hm, hs, hr', -, -, hi⟩ := Top.run_stops env (Top.fresh (machineAt lo c0)) n limit hl (by simp [Top.fresh]) rfl hq hlast
      (fun i hi w hw => nomatch hw) hst'
    exact ⟨s', e, hm.trans hend, hs, hr', by rw [hi]; simp [Top.fresh]⟩
  · obtain ⟨s', e, hm, hs, hr', -, hi⟩ := Top.step_stops env (Top.fresh (machineAt lo c0)) n limit hl rfl rfl hq hlast
      (fun i hi w hw => nomatch hw) hst'
    exact ⟨s', e, hm.trans hend, hs, hr', by rw [hi]; simp [Top.fresh]⟩

/-- C121: the same program debugged with breakpoints on any of its words but the one that traps: `Run`, called again and again, stops at
every visit, showing exactly the registers and memory of the program there; the `Run` after the last ends in the trap, and clearing
the breakpoints, in any order, leaves exactly what the undisturbed execution leaves. Needed: the program is aligned and no operation,
that which traps included, reads or writes a word of it. -/
theorem C121_debugged_trap (env : Top.Env VecRegs) (P : VecParams) (henv : env.sem = vecSem P) (code : List AsmOp) (lo : Nat)
    (hal : lo % 4 = 0) (hP : AsmOk P code lo) (c0 : Nat × Arch) (hw : AsmAt code c0.2.mem lo) (n : Nat)
    (hoff : WritesOff P code c0 (n + 1) lo) (hrd : ReadsOff P code c0 (n + 1) lo)
    (C : Nat → Nat × Arch) (hc : ∀ i ≤ n, walk P.maxPhys P.fresh code i c0 = .ok (C i)) (i : Inst)
    (hi : code[(C n).1]? = some (.vec i)) (u : Arch)
    (hu : execRow P.maxPhys P.fresh i.row i.word (C n).2 = some (.ok (true, u)))
    (js : List Nat) (hjs : ∀ j ∈ js, j + 1 < code.length) (hlast : (C n).1 ∉ js)
    (l : List Nat) (hl : l = js.map fun j => lo + 4 * j) (limit : Nat) (hlim : n < limit)
    (V : Nat → Nat) (hV : V = fun i => ((List.range i).filter fun k => decide ((C k).1 ∈ js)).length) (bps : Nat → Bool)
    (hbps : bps = fun a => decide (a ∈ l)) :
    (∀ i < n, (C i).1 ∈ js → ∃ s1, Top.execAll env (debugCalls l limit (V i + 1)) (Top.fresh (machineAt lo c0)) = .ok (s1, V i + 1) ∧
      s1.reason = .softwareBreakpoint ∧ s1.status = .halted ∧ Shows bps s1.m (machineAt lo (C i)) ∧ s1.instret = i + V i + 1) ∧
    ∃ s1, Top.execAll env (debugCalls l limit (V n + 1)) (Top.fresh (machineAt lo c0)) = .ok (s1, V n) ∧
      s1.reason = .userRequest ∧ s1.status = .halted ∧ Shows bps s1.m (machineAt lo ((C n).1 + 1, u)) ∧
      s1.instret = n + 1 + V n ∧
      ∀ l', l'.Nodup → (∀ a, a ∈ l' ↔ a ∈ l) → ∃ s2, Top.clearAll l' s1 = (.ok (), s2) ∧
        s2.m = machineAt lo ((C n).1 + 1, u) := by
  have hoff' : WritesOff P code c0 n lo := fun j hj => hoff j (by omega)
  have hrd' : ReadsOff P code c0 n lo := fun j hj => hrd j (by omega)
  have hcn := hc n (Nat.le_refl _)
  obtain ⟨-, hm, -⟩ := asm_line P code lo hP c0 hw n hoff' n (Nat.le_refl _) _ hcn
  obtain ⟨e1, e2, e3, e4⟩ := word_at hw hm hi
  have hlen := hw.2
  have hk := hP.vec i e3
  have hn := next_vec P hk.1 hk.2.1 hu (BitVec.ofNat 32 (lo + 4 * (C n).1)) (by rw [e1]; exact e2)
  rw [pcAt_add4] at hn
  have hpc : (machineAt lo (C n)).pc.toNat = lo + 4 * (C n).1 := e1
  have hwd : word (machineAt lo (C n)).mem (machineAt lo (C n)).pc.toNat = i.word := by rw [hpc]; exact e2
  have out : ∀ q, (q < lo ∨ lo + 4 * code.length ≤ q) → decide (lo ≤ q / 4 * 4 ∧ q / 4 * 4 < lo + 4 * code.length) = false := by
    intro q hq
    simp only [decide_eq_false_iff_not]
    omega
  refine asm_debugged env P henv code lo hal hP c0 hw n hoff' hrd' C hc u e4 hn ?_ js hjs hlast l hl limit hlim V hV bps hbps
  refine C95_tame P _ (machineAt lo (C n)) i.row hk.1.1 (by rw [hwd]; exact hk.2.1) (true, u) (by rw [hwd]; exact hu)
    (by rw [hwd]; exact exec_ne_ebreak hk.1 hu) (by rw [hpc]; omega) (by rw [hpc]; simp only [decide_eq_true_eq]; omega) ?_ ?_
  · intro q hq
    rw [hwd] at hq
    exact out q (hrd n (by omega) _ hcn i hi q hq)
  · intro q hq
    rw [hwd] at hq
    exact out q (hoff n (by omega) _ hcn i hi q hq)

/-! ## Examples -/

/-- A loop without an end: `jal x0, 0`. -/
def spin : List AsmOp := [.reg ⟨0x0000006f#32, fun r => r, fun _ => some 0⟩]

def spinState : Arch := { nestState with mem := Spec.placed (fun _ => 0) [(0x100, bytesOf (spin.map AsmOp.word))] }

/-- Whenever the `Halt` comes, the core is at the jump and has executed it as often as there were instructions. -/
example (keep : Nat → Nat → Bool) (k : Nat) :
    ∃ s', Top.runHalt ⟨vecSem (asmParams spin 0x100), keep⟩ k (Top.fresh (machineAt 0x100 (0, spinState))) = .ok (.ok (), s') ∧
      s'.m = machineAt 0x100 (0, spinState) ∧ s'.reason = .userRequest ∧ s'.instret = k := by
  have hw : ∀ k, walk 0x3fffff (fun _ => 0) spin k (0, spinState) = .ok (0, spinState) := by
    intro k
    induction k with
    | zero => rfl
    | succ k ih => rw [walk, ih]; rfl
  obtain ⟨s', e1, e2, -, e4, e5⟩ := C121_halt ⟨vecSem (asmParams spin 0x100), keep⟩ (asmParams spin 0x100) rfl spin 0x100
    (asmParams_ok spin 0x100 (by decide +kernel) (by intro i hi; simp [spin] at hi) (by decide +kernel)) (0, spinState)
    ⟨by decide +kernel, by decide⟩ k
    (by
      intro i _ c _ v hv
      have hm := List.mem_of_getElem? hv
      simp [spin] at hm)
    _ (hw k)
  exact ⟨s', e1, e2, e4, e5⟩

/-- `addi x7, x7, -1`, `bne x7, x0, -4`, and `aconv.vxv v48, v0, x6, v16`. -/
def tally : List AsmOp := [.reg (addImm 0xfff38393 7 7 (-1)), .reg (bnez 0xfe039ee3 7 0), .vec badConv]

/-- Three rounds, and an illegal command in `x6`. -/
def tallyState : Arch :=
  { nestState with
    x := fun q => if q = 7 then 3 else if q = 0 then 0 else 0xffffffff
    mem := Spec.placed (fun _ => 0) [(0x100, bytesOf (tally.map AsmOp.word))] }

theorem tally_trap : ∃ c, walk 0x3fffff (fun _ => 0) tally 6 (0, tallyState) = .ok c ∧ c.1 = 2 ∧
    ∃ u, execRow 0x3fffff (fun _ => 0) badConv.row badConv.word c.2 = some (.ok (true, u)) ∧ u.x 7 = 0 := by
  let f : Outcome (Nat × Arch) → Option (Nat × Outcome (Bool × Arch)) := fun o => match o with
    | .ok c => (execRow 0x3fffff (fun _ => 0) badConv.row badConv.word c.2).map fun r => (c.1, r)
    | _ => none
  have h : (match f (walk 0x3fffff (fun _ => 0) tally 6 (0, tallyState)) with
    | some (n, .ok (true, u)) => decide (n = 2 ∧ u.x 7 = 0)
    | _ => false) = true := by decide +kernel
  cases hc : walk 0x3fffff (fun _ => 0) tally 6 (0, tallyState) with
  | ok c =>
    refine ⟨c, rfl, ?_⟩
    rw [hc] at h
    have e : f (.ok c) = (execRow 0x3fffff (fun _ => 0) badConv.row badConv.word c.2).map fun r => (c.1, r) := rfl
    rw [e] at h
    cases hx : execRow 0x3fffff (fun _ => 0) badConv.row badConv.word c.2 with
    | none => rw [hx] at h; cases h
    | some r =>
      rw [hx, Option.map_some] at h
      split at h
      · next n u hu =>
        simp only [Option.some.injEq, Prod.mk.injEq] at hu
        have h := of_decide_eq_true h
        exact ⟨hu.1.trans h.1, u, by rw [hu.2], h.2⟩
      · cases h
  | ub => rw [hc] at h; cases h
  | abort => rw [hc] at h; cases h
theorem tally_ok : AsmOk (asmParams tally 0x100) tally 0x100 :=
  asmParams_ok tally 0x100 (by decide +kernel)
    (by
      intro i hi
      simp only [tally, List.mem_cons, AsmOp.vec.injEq, List.not_mem_nil, or_false, reduceCtorEq, false_or] at hi
      subst hi
      exact ⟨decodesB_ok (by decide +kernel), by decide +kernel⟩) (by decide +kernel)

theorem tally_vec {j : Nat} {v : Inst} (h : tally[j]? = some (.vec v)) : v = badConv := by
  have hm := List.mem_of_getElem? h
  simpa only [tally, List.mem_cons, AsmOp.vec.injEq, List.not_mem_nil, or_false, reduceCtorEq, false_or] using hm

/-- `Run` goes round three times and stops behind the convolution. -/
example (keep : Nat → Nat → Bool) :
    ∃ s', Top.runHalt ⟨vecSem (asmParams tally 0x100), keep⟩ 1000 (Top.fresh (machineAt 0x100 (0, tallyState))) = .ok (.ok (), s') ∧
      s'.reason = .userRequest ∧ s'.m.pc = 0x10c ∧ s'.m.regs.x 7 = 0 ∧ s'.instret = 7 := by
  obtain ⟨c, hc, h1, u, hu, h7⟩ := tally_trap
  obtain ⟨⟨s', e1, e2, -, e4, e5⟩, -⟩ := C121_trap ⟨vecSem (asmParams tally 0x100), keep⟩ (asmParams tally 0x100) rfl tally 0x100 tally_ok
    (0, tallyState) ⟨by decide +kernel, by decide⟩ 6
    (fun i _ c _ v hv q hq => by rw [tally_vec hv] at hq; exact hq.elim) c hc badConv (by rw [h1]; rfl) u hu 1000 (by decide)
  refine ⟨s', e1, e4, ?_, by rw [e2]; exact h7, e5⟩
  rw [e2, h1]
  rfl

/-- The position and state after `i` operations. -/
def tallyAt (i : Nat) : Nat × Arch :=
  match walk 0x3fffff (fun _ => 0) tally i (0, tallyState) with
  | .ok c => c
  | _ => (0, tallyState)

/-- With a breakpoint at the head of the loop there are three stops, and the fourth `Run` ends in the trap. -/
example (keep : Nat → Nat → Bool) :
    ∃ s1 s2, Top.execAll ⟨vecSem (asmParams tally 0x100), keep⟩ (debugCalls [0x100] 100 4) (Top.fresh (machineAt 0x100 (0, tallyState))) =
        .ok (s1, 3) ∧ s1.reason = .userRequest ∧ s1.instret = 10 ∧ Top.clearAll [0x100] s1 = (.ok (), s2) ∧ s2.m.pc = 0x10c := by
  obtain ⟨c, hc, h1, u, hu, -⟩ := tally_trap
  have hc6 : tallyAt 6 = c := by unfold tallyAt; rw [hc]
  obtain ⟨-, s1, e1, e2, -, -, e5, e6⟩ := C121_debugged_trap ⟨vecSem (asmParams tally 0x100), keep⟩ (asmParams tally 0x100) rfl tally 0x100
    (by decide) tally_ok (0, tallyState) ⟨by decide +kernel, by decide⟩ 6
    (fun i _ c _ v hv q hq => by rw [tally_vec hv] at hq; exact hq.elim)
    (fun i _ c _ v hv q hq => by rw [tally_vec hv] at hq; exact hq.elim) tallyAt
    (by
      intro i hi
      obtain ⟨c', h'⟩ := walk_before hc i hi
      show walk 0x3fffff (fun _ => 0) tally i (0, tallyState) = _
      unfold tallyAt
      rw [h'])
    badConv (by rw [hc6, h1]; rfl) u (by rw [hc6]; exact hu) [0] (by decide) (by rw [hc6, h1]; decide) [0x100] (by decide) 100 (by decide)
    _ rfl _ rfl
  have hV : ((List.range 6).filter fun k => decide ((tallyAt k).1 ∈ [0])).length = 3 := by decide +kernel
  rw [hV] at e1 e5
  obtain ⟨s2, k1, k2⟩ := e6 [0x100] (by decide) (fun _ => Iff.rfl)
  refine ⟨s1, s2, e1, e2, e5, k1, ?_⟩
  rw [k2, hc6, h1]
  rfl

end Verif.Props
