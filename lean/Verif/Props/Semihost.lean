import Verif.Proofs.TopDemo
import Verif.Props.RunControl

/-!
# C106: semihosting calls under the debugger

With semihosting on, an `ebreak` between the words `slli x0, x0, 0x1f` and `srai x0, x0, 7` calls the host, a parameter. The properties
of sessions (C44 to C47, C94, C96, C98, C104) are stated for programs with such calls; here are what an `ebreak` does in each case, a
program with calls, and what becomes of a call with a breakpoint on one of its words.
-/

namespace Verif.Props

open Verif Verif.Model.Top Verif.Proofs.Top
open Verif.Spec.Program (Machine Sem Ev Stop word ebreak next run TameAt Tame Shows Marked Clear semiEntry semiExit effect)

section General
variable {σ : Type}

/-- The instruction the core executes at the pc, if its decode cache is up to date there. -/
theorem getInst_at (env : Env σ) (s : St σ) (a : Nat) (hc : ∀ w, s.cache a = some w → w = word s.m.mem a) :
    ∃ c, getInst env a s = (word s.m.mem a, { s with cache := c }) := by
  unfold getInst
  cases h : s.cache a with
  | some w => exact ⟨s.cache, by rw [← hc w h]⟩
  | none => exact ⟨_, rfl⟩

/-- `Step(1)` on an `ebreak`, on a halted core that has not stopped at a breakpoint. A semihosting call is served whether or not there is
a breakpoint; any other `ebreak` is a stop at a breakpoint if there is one, and a fault otherwise. Whether it is a call is decided
on memory as it is, with the `ebreak` of breakpoints in it. -/
theorem C106_ebreak (env : Env σ) (s : St σ) (a : Nat) (ha : s.m.pc.toNat = a) (hs : s.status = .halted) (ho : s.stepOver = false)
    (hr : s.reason ≠ .softwareBreakpoint) (hr' : s.reason ≠ .actionPoint) (hc : ∀ w, s.cache a = some w → w = word s.m.mem a)
    (he : word s.m.mem a = ebreak) :
    (∀ f, env.sem.host = some f → Marked s.m.mem a → ∃ s', step env 1 s = .ok (.ok 1, s') ∧
      s'.m = (f { s.m with pc := s.m.pc + 4 }).1 ∧
      s'.reason = ((f { s.m with pc := s.m.pc + 4 }).2.getLast?.elim .none fun e => reasonOf (.ev e)) ∧ s'.stepOver = false) ∧
    (env.sem.host = none ∨ ¬ Marked s.m.mem a →
      (s.bps a = true → ∃ s', step env 1 s = .ok (.ok 1, s') ∧ s'.m = s.m ∧ s'.reason = .softwareBreakpoint ∧ s'.stepOver = true) ∧
      (s.bps a = false → ∃ s', step env 1 s = .ok (.ok 1, s') ∧ s'.m = { s.m with pc := s.m.pc + 4 } ∧ s'.reason = .haltAbort ∧
        s'.stepOver = false)) := by
  obtain ⟨c, e⟩ := getInst_at env { s with status := .singleStep, halted := false } a hc
  change getInst env a _ = (word s.m.mem a, _) at e
  have hpc : BitVec.ofNat 32 (a + 4) = s.m.pc + 4 := by rw [← ha, ofNat_add4]
  have hst : step env 1 s = stepEnd (execLoop env true 1 1 0 none a { s with status := .singleStep, halted := false }) := by
    unfold step
    rw [if_neg (by decide), if_neg (by simp [hs])]
    simp only [ho, Bool.false_eq_true, if_false]
    rw [← ha]
    rfl
  have hloop : ∀ t, fetchExec env a { s with status := .singleStep, halted := false } = t → t.reason ≠ .actionPoint →
      execLoop env true 1 1 0 none a { s with status := .singleStep, halted := false } = (1, some a, t.m.pc.toNat, t) := by
    intro t ht hre
    rw [execLoop, if_neg (by simp)]
    simp only [ht, execLoop]
    cases t.halted
    · rfl
    · simp [hre]
  refine ⟨fun f hf hm => ?_, fun hn => ⟨fun hb => ?_, fun hb => ?_⟩⟩
  · have hx : fetchExec env a { s with status := .singleStep, halted := false } =
        { s with
            cache := c, status := .singleStep
            m := (f { s.m with pc := s.m.pc + 4 }).1
            halted := !(f { s.m with pc := s.m.pc + 4 }).2.isEmpty
            reason := (f { s.m with pc := s.m.pc + 4 }).2.foldl (fun _ e => evReason e) s.reason
            instret := s.instret + 1 } := by
      unfold fetchExec
      rw [e, he]
      simp only [execInst, setPc, hpc]
      simp only [ebreak_eq, (isCall_iff _ _).2 hm, hf, if_true]
      rw [foldl_requestHalt]
      simp
    have hfold : ∀ (l : List Ev) (r : HaltReason), l.foldl (fun _ e => evReason e) r =
        l.getLast?.elim r fun e => reasonOf (.ev e) := by
      intro l r
      rcases List.eq_nil_or_concat l with rfl | ⟨l', x, rfl⟩
      · rfl
      · simp only [List.concat_eq_append, List.foldl_append, List.foldl_cons, List.foldl_nil, List.getLast?_append, List.getLast?_singleton,
          Option.some_or, Option.elim_some]
        cases x <;> rfl
    rw [hfold] at hx
    have hne : ∀ (l : List Ev), (l.getLast?.elim s.reason fun e => reasonOf (.ev e)) ≠ .actionPoint ∧
        (l.getLast?.elim s.reason fun e => reasonOf (.ev e)) ≠ .softwareBreakpoint := by
      intro l
      cases l.getLast? with
      | none => exact ⟨hr', hr⟩
      | some x => cases x <;> simp [reasonOf]
    rw [hst, hloop _ hx (hne _).1]
    refine ⟨_, stepEnd_other (hne _).2, ?_, ?_, ?_⟩
    · simp [setPc]
    · have : ∀ l : List Ev, (if (!l.isEmpty) = true then l.getLast?.elim s.reason fun e => reasonOf (.ev e) else HaltReason.none) =
          l.getLast?.elim .none fun e => reasonOf (.ev e) := by
        intro l
        rcases List.eq_nil_or_concat l with rfl | ⟨l', x, rfl⟩
        · rfl
        · simp
      exact this _
    · simp [setPc, ho]
  all_goals
    have hnone : (if isCall s.m.mem a then env.sem.host else none) = none := by
      rcases hn with hn | hn
      · simp [hn]
      · rw [if_neg (fun h => hn ((isCall_iff _ _).1 h))]
  · have hx : fetchExec env a { s with status := .singleStep, halted := false } =
        { s with
            cache := c, status := .singleStep, m := { s.m with pc := s.m.pc + 4 }, halted := true, reason := .softwareBreakpoint
            stepOver := true, instret := s.instret + 1 } := by
      unfold fetchExec
      rw [e, he]
      simp only [execInst, setPc, hpc]
      simp only [ebreak_eq, hnone, hb, if_true]
      simp [requestHalt]
    rw [hst, hloop _ hx (by simp)]
    refine ⟨_, rfl, ?_, rfl, rfl⟩
    simp [setPc, ← ha]
  · have hx : fetchExec env a { s with status := .singleStep, halted := false } =
        { s with
            cache := c, status := .singleStep, m := { s.m with pc := s.m.pc + 4 }, halted := true, reason := .haltAbort
            instret := s.instret + 1 } := by
      unfold fetchExec
      rw [e, he]
      simp only [execInst, setPc, hpc]
      simp only [ebreak_eq, hnone, hb, if_true, Bool.false_eq_true, if_false]
      simp [requestHalt]
    rw [hst, hloop _ hx (by simp)]
    refine ⟨_, stepEnd_other (by simp), ?_, rfl, ho⟩
    simp only [setPc, BitVec.ofNat_toNat, BitVec.setWidth_eq]

/-- C106 (missing: breakpoints on the three words of a call, for which it is false, see below). With semihosting on, a program makes
its calls in a session of the debugger as it makes them by itself: after any session whose breakpoints are on other words than those
of calls, what is seen is the program after some number of its instructions, calls included, and what the host has written or
logged is what it has for the program by itself. -/
theorem C106_session_partial (env : Env σ) (f : Machine σ → Machine σ × List Ev) (_hf : env.sem.host = some f) (C : Nat → Bool)
    (m0 : Machine σ) (ht : Tame env.sem C m0) (ops : List Op) (hl : LegalAll env C ops (fresh m0)) :
    ∃ j s hits, execAll env ops (fresh m0) = .ok (s, hits) ∧ Shows s.bps s.m (run env.sem j m0) ∧
      (∀ α (log : σ → α), log s.m.regs = log (run env.sem j m0).regs) ∧
      ((∀ a, s.bps a = false) → s.m = run env.sem j m0) ∧ s.instret = j + hits := by
  obtain ⟨j, s, hits, e, h1, h2, h3⟩ := C44_session_partial env C m0 ht ops hl
  exact ⟨j, s, hits, e, h1, fun α log => by rw [h1.2.1], h2, h3⟩

/-- With a breakpoint on the word before or after it, the `ebreak` of a call is a fault: the host is not called. -/
theorem C106_marker_lost (env : Env σ) (s : St σ) (a : Nat) (ha : s.m.pc.toNat = a) (h4 : 4 ≤ a) (hs : s.status = .halted)
    (ho : s.stepOver = false) (hr : s.reason ≠ .softwareBreakpoint) (hr' : s.reason ≠ .actionPoint)
    (hc : ∀ w, s.cache a = some w → w = word s.m.mem a) (he : word s.m.mem a = ebreak) (hb : s.bps a = false)
    (b : Nat) (hbp : b = a - 4 ∨ b = a + 4) (hbb : s.bps b = false) :
    ∃ s', step env 1 (setBp b s).2 = .ok (.ok 1, s') ∧ s'.reason = .haltAbort ∧ s'.m.regs = s.m.regs ∧ s'.m.pc = s.m.pc + 4 := by
  have e1 : (setBp b s).2 = { writeBreakpoint b s with bps := setAt s.bps b true } := by
    unfold setBp
    rw [if_neg (by simp [hs]), if_neg (by simp [hbb])]
  have hba : a ≠ b := by omega
  have hw : word (putWord s.m.mem b kEBreak32) a = word s.m.mem a := word_putWord_ne _ _ _ _ (by omega)
  have key := (C106_ebreak env (setBp b s).2 a (by rw [e1]; exact ha) (by rw [e1]; exact hs) (by rw [e1]; exact ho) (by rw [e1]; exact hr)
    (by rw [e1]; exact hr') (by
      intro w h
      rw [e1] at h ⊢
      change setAt s.cache b none a = some w at h
      rw [setAt_ne _ _ _ _ hba] at h
      show w = word (putWord s.m.mem b kEBreak32) a
      rw [hw]; exact hc w h)
    (by rw [e1]; show word (putWord s.m.mem b kEBreak32) a = _; rw [hw]; exact he)).2 (.inr ?_)
  · obtain ⟨s', k1, k2, k3, -⟩ := key.2 (by rw [e1]; show setAt s.bps b true a = false; rw [setAt_ne _ _ _ _ hba]; exact hb)
    refine ⟨s', k1, k3, ?_, ?_⟩
    · rw [k2, e1]; rfl
    · rw [k2, e1]; rfl
  · rw [e1]
    show ¬ Marked (putWord s.m.mem b kEBreak32) a
    rintro ⟨-, h1, h2⟩
    rcases hbp with rfl | rfl
    · rw [word_putWord_self] at h1; exact absurd h1 (by decide)
    · rw [word_putWord_self] at h2; exact absurd h2 (by decide)

/-- A breakpoint on a word between the two words of a call is not a stop: the host is called, whatever the program has there. -/
theorem C106_between_lost (env : Env σ) (f : Machine σ → Machine σ × List Ev) (hf : env.sem.host = some f) (s : St σ) (a : Nat)
    (ha : s.m.pc.toNat = a) (hs : s.status = .halted) (ho : s.stepOver = false) (hr : s.reason ≠ .softwareBreakpoint)
    (hr' : s.reason ≠ .actionPoint) (hm : Marked s.m.mem a) (hb : s.bps a = false) :
    ∃ s', step env 1 (setBp a s).2 = .ok (.ok 1, s') ∧
      s'.m = (f { s.m with pc := s.m.pc + 4, mem := putWord s.m.mem a ebreak }).1 ∧ s'.reason ≠ .softwareBreakpoint := by
  have e1 : (setBp a s).2 = { writeBreakpoint a s with bps := setAt s.bps a true } := by
    unfold setBp
    rw [if_neg (by simp [hs]), if_neg (by simp [hb])]
  have hw : word (putWord s.m.mem a kEBreak32) a = ebreak := word_putWord_self _ _ _
  have h4 := hm.1
  have hm' : Marked (setBp a s).2.m.mem a := by
    rw [e1]
    show Marked (putWord s.m.mem a kEBreak32) a
    exact ⟨hm.1, by rw [word_putWord_ne _ _ _ _ (by omega)]; exact hm.2.1, by rw [word_putWord_ne _ _ _ _ (by omega)]; exact hm.2.2⟩
  obtain ⟨s', k1, k2, k3, -⟩ := (C106_ebreak env (setBp a s).2 a (by rw [e1]; exact ha) (by rw [e1]; exact hs) (by rw [e1]; exact ho)
    (by rw [e1]; exact hr) (by rw [e1]; exact hr') (by
      intro w h
      rw [e1] at h
      change setAt s.cache a none a = some w at h
      rw [setAt_self] at h
      cases h)
    (by rw [e1]; exact hw)).1 f hf hm'
  refine ⟨s', k1, ?_, ?_⟩
  · rw [k2, e1]; rfl
  · rw [k3]
    cases List.getLast? _ with
    | none => simp
    | some x => cases x <;> simp [reasonOf]

end General

/-! ## A program with a call

```
0x00  addi a0, a0, 1
0x04  slli x0, x0, 0x1f
0x08  ebreak
0x0c  srai x0, x0, 7
0x10  j    0x00
```
The host writes `a0` to the byte 0x100, and ends the program when it is 3.
-/

def semiSem : Sem Nat where
  inst w pc m :=
    if w = 0x00150513#32 then ({ m with regs := m.regs + 1 }, [])
    else if w = 0xff1ff06f#32 then ({ m with pc := BitVec.ofNat 32 (pc - 16) }, [])
    else (m, [])
  host := some fun m =>
    ({ m with mem := fun q => if q = 0x100 then BitVec.ofNat 8 m.regs else m.mem q }, if m.regs = 3 then [.semihostExit] else [])

def semiBytes : List (BitVec 8) :=
  [0x13, 0x05, 0x15, 0x00, 0x13, 0x10, 0xf0, 0x01, 0x73, 0x00, 0x10, 0x00, 0x13, 0x50, 0x70, 0x40, 0x6f, 0xf0, 0x1f, 0xff]

def semiMem : Nat → BitVec 8 := fun q => semiBytes.getD q 0

def semi : Machine Nat := ⟨0, semiMem, 0⟩

def semiEnv : Env Nat := ⟨semiSem, fun _ _ => true⟩

/-- The program stays on its five instructions and leaves its code alone. -/
structure SemiInv (m : Machine Nat) : Prop where
  pc : m.pc = 0 ∨ m.pc = 4 ∨ m.pc = 8 ∨ m.pc = 12 ∨ m.pc = 16
  mem : ∀ q, q < 0x100 → m.mem q = semiMem q

theorem SemiInv.word {m : Machine Nat} (h : SemiInv m) (a : Nat) (ha : a < 0xf0) :
    Spec.Program.word m.mem a = Spec.Program.word semiMem a := by
  unfold Spec.Program.word
  rw [h.mem _ (by omega), h.mem _ (by omega), h.mem _ (by omega), h.mem _ (by omega)]

theorem SemiInv.next {m : Machine Nat} (h : SemiInv m) :
    SemiInv (Spec.Program.next semiSem m).1 ∧ TameAt semiSem demoC m := by
  have plain : ∀ w, Spec.Program.word m.mem m.pc.toNat = w → w ≠ ebreak → m.pc.toNat % 4 = 0 → m.pc.toNat < 0x100 →
      (∀ m', (semiSem w m.pc.toNat m').1.mem = m'.mem ∧ (semiSem w m.pc.toNat m').2 = [] ∧
        (semiSem w m.pc.toNat m').1.pc = (semiSem w m.pc.toNat { m' with mem := m.mem }).1.pc ∧
        (semiSem w m.pc.toNat m').1.regs = (semiSem w m.pc.toNat { m' with mem := m.mem }).1.regs) →
      TameAt semiSem demoC m ∧ (Spec.Program.next semiSem m).1 = (semiSem w m.pc.toNat { m with pc := m.pc + 4 }).1 := by
    intro w hw hne h1 h2 h3
    refine ⟨tameAt_inst (by rw [hw]; exact hne) h1 (by simpa [demoC] using h2) ?_, by rw [← hw]; exact (next_inst (by rw [hw]; exact hne)).1⟩
    intro mem' hm'
    rw [hw]
    obtain ⟨i1, i2, i3, i4⟩ := h3 { pc := m.pc + 4, mem := mem', regs := m.regs }
    obtain ⟨k1, k2, -, -⟩ := h3 { m with pc := m.pc + 4 }
    dsimp only
    refine Prod.ext ?_ (i2.trans k2.symm)
    cases hx : (semiSem w m.pc.toNat { pc := m.pc + 4, mem := mem', regs := m.regs }).1 with
    | mk p q r =>
      rw [hx] at i1 i3 i4
      dsimp only at i1 i3 i4 ⊢
      subst i1 i3 i4
      refine congrArg (fun z => (⟨_, z, _⟩ : Machine Nat)) ?_
      funext q
      rw [k1]
      split
      · rfl
      · next hq => exact hm' q (by simpa using hq)
  have w0 : Spec.Program.word semiMem 0 = 0x00150513#32 := by decide
  have w4 : Spec.Program.word semiMem 4 = semiEntry := by decide
  have w8 : Spec.Program.word semiMem 8 = ebreak := by decide
  have w12 : Spec.Program.word semiMem 12 = semiExit := by decide
  have w16 : Spec.Program.word semiMem 16 = 0xff1ff06f#32 := by decide
  rcases h.pc with e | e | e | e | e
  · obtain ⟨t, n⟩ := plain (0x00150513#32) (by rw [e, h.word _ (by decide)]; exact w0) (by decide) (by rw [e]; decide) (by rw [e]; decide)
      (fun m' => by simp [semiSem])
    refine ⟨?_, t⟩
    rw [n]
    exact ⟨by simp [semiSem, e], by simpa [semiSem] using h.mem⟩
  · obtain ⟨t, n⟩ := plain (semiEntry) (by rw [e, h.word _ (by decide)]; exact w4) (by decide) (by rw [e]; decide) (by rw [e]; decide)
      (fun m' => by simp [semiSem, semiEntry])
    refine ⟨?_, t⟩
    rw [n]
    exact ⟨by simp [semiSem, semiEntry, e], by simpa [semiSem, semiEntry] using h.mem⟩
  · have hw : Spec.Program.word m.mem m.pc.toNat = ebreak := by rw [e, h.word _ (by decide)]; exact w8
    have hm : Marked m.mem m.pc.toNat := by
      rw [e]
      exact ⟨by decide, (h.word 4 (by decide)).trans w4, (h.word 12 (by decide)).trans w12⟩
    have hf : effect semiSem m.mem m.pc.toNat (Spec.Program.word m.mem m.pc.toNat) = semiSem.host := by
      unfold effect
      rw [if_pos hw, if_pos hm]
    constructor
    · unfold Spec.Program.next
      rw [hf]
      refine ⟨by simp [semiSem, e], fun q hq => ?_⟩
      simp only [semiSem]
      rw [if_neg (by omega)]
      exact h.mem q hq
    · refine ⟨by rw [e]; decide, by rw [e]; decide, fun f hf' mem' hm' => ?_⟩
      rw [hf] at hf'
      injection hf' with hf'
      subst hf'
      dsimp only
      refine congrArg (fun z => ((⟨_, z, _⟩ : Machine Nat), _)) ?_
      funext q
      by_cases hq : q = 0x100
      · subst hq; simp [demoC]
      · rw [if_neg hq, if_neg hq]
        split
        · rfl
        · next hc => exact hm' q (by simpa using hc)
  · obtain ⟨t, n⟩ := plain (semiExit) (by rw [e, h.word _ (by decide)]; exact w12) (by decide) (by rw [e]; decide) (by rw [e]; decide)
      (fun m' => by simp [semiSem, semiExit])
    refine ⟨?_, t⟩
    rw [n]
    exact ⟨by simp [semiSem, semiExit, e], by simpa [semiSem, semiExit] using h.mem⟩
  · obtain ⟨t, n⟩ := plain (0xff1ff06f#32) (by rw [e, h.word _ (by decide)]; exact w16) (by decide) (by rw [e]; decide) (by rw [e]; decide)
      (fun m' => by simp [semiSem])
    refine ⟨?_, t⟩
    rw [n]
    exact ⟨by simp [semiSem, e], by simpa [semiSem] using h.mem⟩

theorem semi_tame : Tame semiSem demoC semi := by
  have : ∀ k, SemiInv (run semiSem k semi) := by
    intro k
    induction k with
    | zero => exact ⟨Or.inl rfl, fun _ _ => rfl⟩
    | succ k ih => rw [run_succ]; exact ih.next.1
  exact fun k => (this k).next.2

def semiOps : List Op := [.setBp 0x10, .run 20, .run 3]

def semi1 : St Nat := okOr (fresh semi) (exec semiEnv (.setBp 0x10) (fresh semi))
def semi2 : St Nat := okOr (fresh semi) (exec semiEnv (.run 20) semi1)
def semi5 : St Nat := okOr (fresh semi) (exec semiEnv (.run 3) semi2)
def semi3 : St Nat := okOr (fresh semi) (exec semiEnv (.clearBp 0x10) semi1)
def semi4 : St Nat := okOr (fresh semi) (exec semiEnv (.run 20) semi3)

theorem semi_legal : LegalAll semiEnv demoC semiOps (fresh semi) := by
  refine LegalAll.cons (s1 := semi1) ?_ rfl (LegalAll.cons (s1 := semi2) ?_ rfl (LegalAll.cons (s1 := semi5) ?_ rfl trivial))
  · exact ⟨rfl, rfl, by decide +kernel, fun _ => ⟨by decide +kernel, by decide +kernel, fun _ => .inl ⟨rfl, by decide +kernel⟩⟩⟩
  · intro h; exact absurd h (by decide +kernel)
  · intro _; decide +kernel

example : ∃ j s hits, execAll semiEnv semiOps (fresh semi) = .ok (s, hits) ∧ Shows s.bps s.m (run semiSem j semi) ∧
    (∀ α (log : Nat → α), log s.m.regs = log (run semiSem j semi).regs) ∧
    ((∀ a, s.bps a = false) → s.m = run semiSem j semi) ∧ s.instret = j + hits :=
  C106_session_partial semiEnv _ rfl demoC semi semi_tame semiOps semi_legal

/-- The end of the first round is reached with the call served; without the breakpoint the program ends by its third call. -/
example : semi2.m.pc = 0x10 ∧ semi2.reason = .softwareBreakpoint ∧ semi2.m.mem 0x100 = 1 ∧ semi2.instret = 5 ∧
    semi4.reason = .semihostHaltRequest ∧ semi4.m.mem 0x100 = 3 ∧ semi4.m.regs = 3 ∧ semi4.m.pc = 0xc ∧ semi4.instret = 13 := by
  decide +kernel

/-- A breakpoint on the first word of the call, as on the entry of a function that makes it: `Run` stops there, and the next `Run` ends
with a fault and the host not called. Likewise the word after the `ebreak`. A breakpoint on the `ebreak` is never a stop. -/
example :
    (match execAll semiEnv [.setBp 4, .run 20, .run 20] (fresh semi) with
      | .ok (s, h) => decide (h = 1 ∧ s.reason = .haltAbort ∧ s.m.mem 0x100 = 0 ∧ s.m.pc = 0xc)
      | _ => false) = true ∧
    (match execAll semiEnv [.setBp 0xc, .run 20] (fresh semi) with
      | .ok (s, h) => decide (h = 0 ∧ s.reason = .haltAbort ∧ s.m.mem 0x100 = 0 ∧ s.m.pc = 0xc)
      | _ => false) = true ∧
    (match execAll semiEnv [.setBp 8, .run 20] (fresh semi) with
      | .ok (s, h) => decide (h = 0 ∧ s.reason = .semihostHaltRequest ∧ s.m.mem 0x100 = 3)
      | _ => false) = true := by
  decide +kernel

end Verif.Props
