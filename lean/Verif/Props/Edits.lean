import Verif.Proofs.Edits
import Verif.Proofs.TopDemo
import Verif.Props.RunControl

/-!
# C94: changes made by the debugger

A session of debugger calls that set and clear breakpoints, step, run, disassemble, and also write memory, registers and the pc.
The undisturbed program with the same changes is `edited` (`Verif.Spec.Program`).

`P i` is the set of machines the program can be in after `i` of the changes. It has to be closed under execution and under the
next change, and its machines must be tame, i.e. execute code of the area `C` that they neither read nor write as data.
-/

namespace Verif.Props

open Verif.Model.Top Verif.Proofs.Top
open Verif.Spec.Program (Machine Sem Ev Stop word ebreak next run TameAt Tame Quiet Shows Edit edited)

variable {σ : Type}

/-- The changes a session asks for, in order. -/
def edits : List (Call σ) → List (Edit σ)
  | [] => []
  | .poke a d :: l => .mem a d :: edits l
  | .regs g :: l => .regs g :: edits l
  | .pc v :: l => .pc (BitVec.ofNat 32 v) :: edits l
  | .dbg _ :: l => edits l
  | .clearAll _ :: l => edits l

/-- The sets `P i` fit the program and the changes. -/
structure Stages (sem : Sem σ) (C : Nat → Bool) (P : Nat → Machine σ → Prop) (l : List (Edit σ)) : Prop where
  tame : ∀ i m, P i m → TameAt sem C m
  next : ∀ i m, P i m → P i (next sem m).1
  edit : ∀ i (h : i < l.length) m, P i m → P (i + 1) (l[i].apply m)

/-- `m` is the program with the changes of the session, made after `n` instructions in total, at some moments. -/
def Reached (sem : Sem σ) (calls : List (Call σ)) (m0 m : Machine σ) (n : Nat) : Prop :=
  ∃ es j, es.map Prod.snd = edits calls ∧ m = run sem j (edited sem es m0) ∧ n = (es.map Prod.fst).sum + j

theorem edits_cons (c : Call σ) (l : List (Call σ)) :
    edits (c :: l) = match editOf c with | some e => e :: edits l | none => edits l := by
  cases c <;> rfl

theorem reached_run {sem : Sem σ} {calls : List (Call σ)} {m m' : Machine σ} {i n : Nat}
    (h : Reached sem calls (run sem i m) m' n) : Reached sem calls m m' (i + n) := by
  obtain ⟨es, j, h1, h2, h3⟩ := h
  cases es with
  | nil =>
    refine ⟨[], i + j, h1, ?_, ?_⟩
    · rw [h2]; exact run_run sem i j m
    · simp at h3 ⊢; omega
  | cons e es =>
    refine ⟨(i + e.1, e.2) :: es, j, h1, ?_, ?_⟩
    · rw [h2]
      show run sem j (edited sem es (e.2.apply (run sem e.1 (run sem i m)))) = _
      rw [run_run]; rfl
    · simp at h3 ⊢; omega

theorem calls_good {env : Env σ} {C : Nat → Bool} : ∀ (calls : List (Call σ)) {P : Nat → Machine σ → Prop} {s : St σ}
    {m : Machine σ}, Stages env.sem C P (edits calls) → Good env C s m → P 0 m → LegalCalls env C calls s →
    ∃ s' hits m' n, execCalls env calls s = .ok (s', hits) ∧ Good env C s' m' ∧ Reached env.sem calls m m' n ∧
      P (edits calls).length m' ∧ s'.instret = s.instret + n + hits
  | [], P, s, m, _, hg, hm, _ => ⟨s, 0, m, 0, rfl, hg, ⟨[], 0, rfl, rfl, rfl⟩, hm, rfl⟩
  | c :: l, P, s, m, hS, hg, hm, hl => by
    have hP : ∀ i m, P i m → TameAt env.sem C m ∧ P i (next env.sem m).1 := fun i m h => ⟨hS.tame i m h, hS.next i m h⟩
    cases he : editOf c with
    | none =>
      have hS' : edits (c :: l) = edits l := by rw [edits_cons, he]
      obtain ⟨j, s1, m1, e1, g1, p1, r1, i1, -⟩ := call_good (hP 0) hg hm hl.1 (hP 0) (by rw [he])
      rw [he] at r1
      simp only at r1
      rw [hS'] at hS ⊢
      obtain ⟨s2, hits, m2, n, e2, g2, r2, p2, i2⟩ := calls_good l hS g1 p1 (hl.2 s1 e1)
      refine ⟨s2, hits + (if c.executes ∧ s1.reason = .softwareBreakpoint then 1 else 0), m2, j + n, ?_, g2, ?_, p2, ?_⟩
      · unfold execCalls
        rw [e1, Outcome.ok_bind, e2, Outcome.ok_bind]
      · rw [r1] at r2
        obtain ⟨es, k, q1, q2, q3⟩ := reached_run r2
        exact ⟨es, k, by rw [hS']; exact q1, q2, q3⟩
      · rw [i2, i1]; omega
    | some ed =>
      have hS' : edits (c :: l) = ed :: edits l := by rw [edits_cons, he]
      rw [hS'] at hS
      obtain ⟨j, s1, m1, e1, g1, p1, r1, i1, -⟩ := call_good (hP 0) hg hm hl.1 (hP 1) (by
        rw [he]; exact fun m hm => hS.edit 0 (by simp) m hm)
      rw [he] at r1
      simp only at r1
      obtain ⟨rfl, rfl⟩ := r1
      obtain ⟨s2, hits, m2, n, e2, g2, r2, p2, i2⟩ := calls_good l (P := fun i => P (i + 1))
        ⟨fun i => hS.tame (i + 1), fun i => hS.next (i + 1), fun i h => hS.edit (i + 1) (by simpa using h)⟩ g1 p1 (hl.2 s1 e1)
      refine ⟨s2, hits + (if c.executes ∧ s1.reason = .softwareBreakpoint then 1 else 0), m2, n, ?_, g2, ?_, by rw [hS']; exact p2, ?_⟩
      · unfold execCalls
        rw [e1, Outcome.ok_bind, e2, Outcome.ok_bind]
      · obtain ⟨es, k, q1, q2, q3⟩ := r2
        refine ⟨(0, ed) :: es, k, by rw [hS']; simp [q1], q2, by simp at q3 ⊢; exact q3⟩
      · rw [i2, i1]; omega

/-- C94 (missing: the calls excluded by `LegalCalls`, for which it is false, see below). A session with changes has no undefined
behaviour; what the debugger sees afterwards is the program with exactly the changes asked for, in their order, made between two
of its instructions, and with `ebreak` over the armed words; once no breakpoint is left it is exactly the program's state. The
instruction counter is the number of instructions of the program plus one for each stop at a breakpoint. -/
theorem C94_session_partial (env : Env σ) (C : Nat → Bool) (P : Nat → Machine σ → Prop) (m0 : Machine σ) (calls : List (Call σ))
    (hS : Stages env.sem C P (edits calls)) (h0 : P 0 m0) (hl : LegalCalls env C calls (fresh m0)) :
    ∃ s hits m n, execCalls env calls (fresh m0) = .ok (s, hits) ∧ Reached env.sem calls m0 m n ∧ Shows s.bps s.m m ∧
      ((∀ a, s.bps a = false) → s.m = m) ∧ s.instret = n + hits ∧ s.status = .halted := by
  have hP : ∀ m, P 0 m → TameAt env.sem C m ∧ P 0 (next env.sem m).1 := fun m h => ⟨hS.tame 0 m h, hS.next 0 m h⟩
  obtain ⟨s, hits, m, n, e, hg, hr, -, hi⟩ := calls_good calls hS (good_fresh (tame_of hP h0).1) h0 hl
  exact ⟨s, hits, m, n, e, hr, hg.rel.shows, hg.rel.eq, by rw [hi]; simp [fresh], hg.status⟩

/-- C94: the run that follows such a session ends after `k` instructions by `Halt`, or with the first instruction that asks for a
halt, or in front of the first breakpoint; from a breakpoint stop the instruction under the breakpoint is executed first. -/
theorem C94_run_partial (env : Env σ) (C : Nat → Bool) (P : Nat → Machine σ → Prop) (m0 : Machine σ) (calls : List (Call σ))
    (hS : Stages env.sem C P (edits calls)) (h0 : P 0 m0) (hl : LegalCalls env C calls (fresh m0)) (s : St σ) (hits : Nat)
    (hs : execCalls env calls (fresh m0) = .ok (s, hits)) (k : Nat) :
    ∃ m n j s', Reached env.sem calls m0 m n ∧ Shows s.bps s.m m ∧ runHalt env k s = .ok (.ok (), s') ∧ s'.status = .halted ∧
      s'.bps = s.bps ∧
      let m1 := if s.reason = .softwareBreakpoint then run env.sem 1 m else m
      Shows s.bps s'.m (run env.sem j m1) ∧
      ((j = k ∧ Quiet env.sem s.bps m1 j ∧ s'.reason = .userRequest) ∨
       (0 < j ∧ j ≤ k ∧ Quiet env.sem s.bps m1 (j - 1) ∧
          ∃ h : (next env.sem (run env.sem (j - 1) m1)).2 ≠ [], s'.reason = reasonOf (List.getLast _ h)) ∨
       (j < k ∧ Quiet env.sem s.bps m1 j ∧ s.bps (run env.sem j m1).pc.toNat = true ∧ s'.reason = .softwareBreakpoint)) := by
  have hP : ∀ m, P 0 m → TameAt env.sem C m ∧ P 0 (next env.sem m).1 := fun m h => ⟨hS.tame 0 m h, hS.next 0 m h⟩
  obtain ⟨s2, hits', m, n, e, hg, hr, -, hi⟩ := calls_good calls hS (good_fresh (tame_of hP h0).1) h0 hl
  rw [hs] at e; injection e with e; injection e with e1 e2; subst e1
  by_cases hre : s.reason = .softwareBreakpoint
  · have hst := hg.stopped hre
    obtain ⟨j, s', e, h1, h2, h3, -, -, hres⟩ := run_stopped env hg.rel hg.tame hg.status hst.1 hst.2 k
    have hsh := h1.shows
    rw [h3, run_add] at hsh
    refine ⟨m, n, j, s', hr, hg.rel.shows, e, h2, h3, ?_⟩
    simp only [hre, if_true]
    refine ⟨hsh, ?_⟩
    cases hres with
    | user h1 h2 h3 h4 => exact Or.inl ⟨h1, h2, h4⟩
    | event h1 h2 h3 h4 h5 h6 h7 =>
      exact Or.inr (Or.inl ⟨h1, h2, h3, h5, by rw [h7, reasonOf_eq, lastReason_getLast _ _ h5]; rfl⟩)
    | bp h1 h2 h3 h4 h5 => exact Or.inr (Or.inr ⟨h1, h2, h3, h5⟩)
  · obtain ⟨j, s', e, h1, h2, h3, -, -, hres⟩ := run_clean env hg.rel hg.tame hg.status (hg.clean hre) k
    have hsh := h1.shows
    rw [h3] at hsh
    refine ⟨m, n, j, s', hr, hg.rel.shows, e, h2, h3, ?_⟩
    simp only [hre, if_false]
    refine ⟨hsh, ?_⟩
    cases hres with
    | user h1 h2 h3 h4 => exact Or.inl ⟨h1, h2, h4⟩
    | event h1 h2 h3 h4 h5 h6 h7 =>
      exact Or.inr (Or.inl ⟨h1, h2, h3, h5, by rw [h7, reasonOf_eq, lastReason_getLast _ _ h5]⟩)
    | bp h1 h2 h3 h4 h5 => exact Or.inr (Or.inr ⟨h1, h2, h3, h5⟩)

/-- C94: clearing all breakpoints at the end of such a session, in whatever order they are walked, leaves exactly the program's
state. -/
theorem C94_clear_all_partial (env : Env σ) (C : Nat → Bool) (P : Nat → Machine σ → Prop) (m0 : Machine σ)
    (calls : List (Call σ)) (hS : Stages env.sem C P (edits calls)) (h0 : P 0 m0) (hl : LegalCalls env C calls (fresh m0))
    (s : St σ) (hits : Nat) (hs : execCalls env calls (fresh m0) = .ok (s, hits)) (hr : s.reason ≠ .softwareBreakpoint)
    (l : List Nat) (hn : l.Nodup) (hb : ∀ a, a ∈ l ↔ s.bps a = true) :
    ∃ n, (clearAll l s).1 = .ok () ∧ (∀ a, (clearAll l s).2.bps a = false) ∧ Reached env.sem calls m0 (clearAll l s).2.m n := by
  have hP : ∀ m, P 0 m → TameAt env.sem C m ∧ P 0 (next env.sem m).1 := fun m h => ⟨hS.tame 0 m h, hS.next 0 m h⟩
  obtain ⟨s2, hits', m, n, e, hg, hre, -, hi⟩ := calls_good calls hS (good_fresh (tame_of hP h0).1) h0 hl
  rw [hs] at e; injection e with e; injection e with e1 e2; subst e1
  obtain ⟨g1, g2, -⟩ := clearAll_rel l hg.rel hn (fun a ha => (hb a).1 ha)
  unfold clearAll
  rw [if_neg (by simp [hg.status])]
  have hz : ∀ a, (l.foldl (fun s a => { writeOriginal a s with bps := setAt s.bps a false }) s).bps a = false := by
    intro a
    rw [g2 a]
    cases hs : s.bps a with
    | false => rfl
    | true => simp [(hb a).2 hs]
  exact ⟨n, rfl, hz, by rw [g1.eq hz]; exact hre⟩

/-! ## An example -/

/-- The example program after the bytes from 0x200 on have been written: its loop does not depend on them. -/
def demoP : Nat → Machine Nat → Prop := fun _ => DemoInv

/-- Two breakpoints, run into the first, write data and the register, run on into the second. -/
def demoCalls : List (Call Nat) :=
  [.dbg (.setBp 4), .dbg (.setBp 8), .dbg (.run 10), .poke 0x200 [1, 2, 3], .regs (fun _ => 0x41), .dbg (.run 10)]

def dc1 : St Nat := okOr (fresh demo) (execCall demoEnv (.dbg (.setBp 4)) (fresh demo))
def dc2 : St Nat := okOr (fresh demo) (execCall demoEnv (.dbg (.setBp 8)) dc1)
def dc3 : St Nat := okOr (fresh demo) (execCall demoEnv (.dbg (.run 10)) dc2)
def dc4 : St Nat := okOr (fresh demo) (execCall demoEnv (.poke 0x200 [1, 2, 3]) dc3)
def dc5 : St Nat := okOr (fresh demo) (execCall demoEnv (.regs (fun _ => 0x41)) dc4)
def dc6 : St Nat := okOr (fresh demo) (execCall demoEnv (.dbg (.run 10)) dc5)

theorem LegalCalls.cons {env : Env σ} {C : Nat → Bool} {c : Call σ} {l : List (Call σ)} {s s1 : St σ} (h : LegalCall env C s c)
    (e : execCall env c s = .ok s1) (hl : LegalCalls env C l s1) : LegalCalls env C (c :: l) s :=
  ⟨h, fun s' e' => by rw [e] at e'; injection e' with e'; subst e'; exact hl⟩

theorem demo_calls_legal : LegalCalls demoEnv demoC demoCalls (fresh demo) := by
  refine LegalCalls.cons (s1 := dc1) ?_ rfl (LegalCalls.cons (s1 := dc2) ?_ rfl (LegalCalls.cons (s1 := dc3) ?_ rfl
    (LegalCalls.cons (s1 := dc4) ?_ rfl (LegalCalls.cons (s1 := dc5) trivial rfl (LegalCalls.cons (s1 := dc6) ?_ rfl trivial)))))
  · exact ⟨by decide, by decide, by decide +kernel, fun h => absurd rfl h⟩
  · exact ⟨by decide, by decide, by decide +kernel, fun h => absurd rfl h⟩
  · intro h; exact absurd h (by decide +kernel)
  · refine ⟨by simp, by simp [Model.DebugMem.maxAddr], fun q h1 h2 => ?_⟩
    simp only [List.length_cons, List.length_nil] at h2
    simp only [demoC, decide_eq_false_iff_not]; omega
  · intro _; decide +kernel

theorem demo_stages : Stages demoSem demoC demoP (edits demoCalls) := by
  refine ⟨fun _ m h => DemoInv.next h |>.2.2, fun _ m h => DemoInv.next h |>.1, ?_⟩
  intro i hi m h
  simp only [demoCalls, edits, List.length_cons, List.length_nil] at hi
  obtain rfl | rfl : i = 0 ∨ i = 1 := by omega
  · refine ⟨h.pc, fun q hq => ?_⟩
    show (if 0x200 ≤ q then _ else m.mem q) = _
    rw [if_neg (by omega)]; exact h.mem q hq
  · exact ⟨h.pc, h.mem⟩

/-- The store under the breakpoint at 4 wrote the register value that the debugger set, and the core stands at the second
breakpoint. -/
example : execCalls demoEnv demoCalls (fresh demo) = .ok (dc6, 2) ∧ dc6.m.mem 0x100 = 0x41 ∧ dc6.m.mem 0x201 = 2 ∧ dc6.m.pc = 8 ∧
    dc6.reason = .softwareBreakpoint := by
  refine ⟨rfl, ?_⟩
  decide +kernel

example : ∃ s hits m n, execCalls demoEnv demoCalls (fresh demo) = .ok (s, hits) ∧ Reached demoSem demoCalls demo m n ∧
    Shows s.bps s.m m := by
  obtain ⟨s, hits, m, n, h1, h2, h3, -⟩ :=
    C94_session_partial demoEnv demoC demoP demo demoCalls demo_stages ⟨Or.inl rfl, fun _ _ => rfl⟩ demo_calls_legal
  exact ⟨s, hits, m, n, h1, h2, h3⟩

example : ∃ m n j s', Reached demoSem demoCalls demo m n ∧ runHalt demoEnv 5 dc6 = .ok (.ok (), s') ∧
    Shows dc6.bps s'.m (run demoSem j (run demoSem 1 m)) := by
  obtain ⟨m, n, j, s', h1, -, h2, -, -, h3⟩ := C94_run_partial demoEnv demoC demoP demo demoCalls demo_stages
    ⟨Or.inl rfl, fun _ _ => rfl⟩ demo_calls_legal dc6 2 rfl 5
  have hr : dc6.reason = .softwareBreakpoint := by decide +kernel
  simp only [hr, if_true] at h3
  exact ⟨m, n, j, s', h1, h2, h3.1⟩

/-- Clearing the breakpoint at 4 after an edit gives back the program. -/
example : ∃ n, Reached demoSem [.dbg (.setBp 4), .poke 0x200 [7]] demo
    (clearAll [4] (okOr (fresh demo) (execCall demoEnv (.poke 0x200 [7]) dc1))).2.m n := by
  have hS : Stages demoSem demoC demoP (edits [.dbg (.setBp 4), .poke 0x200 [7]]) := by
    refine ⟨fun _ m h => DemoInv.next h |>.2.2, fun _ m h => DemoInv.next h |>.1, ?_⟩
    intro i hi m h
    simp only [edits, List.length_cons, List.length_nil] at hi
    obtain rfl : i = 0 := by omega
    refine ⟨h.pc, fun q hq => ?_⟩
    show (if 0x200 ≤ q then _ else m.mem q) = _
    rw [if_neg (by omega)]; exact h.mem q hq
  obtain ⟨n, -, -, h⟩ := C94_clear_all_partial demoEnv demoC demoP demo [.dbg (.setBp 4), .poke 0x200 [7]] hS
    ⟨Or.inl rfl, fun _ _ => rfl⟩ (by
      refine LegalCalls.cons (s1 := dc1) ⟨by decide, by decide, by decide +kernel, fun h => absurd rfl h⟩ rfl
        (LegalCalls.cons (s1 := okOr (fresh demo) (execCall demoEnv (.poke 0x200 [7]) dc1)) ?_ rfl trivial)
      refine ⟨by simp, by simp [Model.DebugMem.maxAddr], fun q h1 h2 => ?_⟩
      simp only [List.length_cons, List.length_nil] at h2
      simp only [demoC, decide_eq_false_iff_not]; omega)
    (okOr (fresh demo) (execCall demoEnv (.poke 0x200 [7]) dc1)) 0 rfl (by decide +kernel) [4] (by simp) (by
      intro a
      have e : (okOr (fresh demo) (execCall demoEnv (.poke 0x200 [7]) dc1)).bps = setAt (fun _ => false) 4 true := rfl
      rw [e]
      by_cases h : a = 4 <;> simp [setAt, h])
  exact ⟨n, h⟩

/-! ## Where the claim fails -/

/-- C94 is false for clearing all breakpoints at a breakpoint stop: the next run writes the `ebreak` back, and the program ends
with a fault when it comes by again. -/
theorem C94_clear_all_at_stop :
    let s := okOr (fresh demo) (execCalls demoEnv [.dbg (.setBp 4), .dbg (.run 10), .clearAll [4], .dbg (.run 1)] (fresh demo) >>=
      fun r => .ok r.1)
    s.bps 4 = false ∧ word s.m.mem 4 = ebreak ∧ word demo.mem 4 ≠ ebreak ∧
      (okOr s (exec demoEnv (.run 10) s)).reason = .haltAbort := by
  decide +kernel

/-- C94 is false for breakpoints on overlapping words: cleared in ascending order, the last one writes back a part of the
`ebreak` of the first. In descending order, memory is restored. -/
theorem C94_overlap :
    let s := (setBp 2 (setBp 0 (fresh demo)).2).2
    (clearAll [2, 0] s).2.m.mem 2 = demo.mem 2 ∧ (clearAll [0, 2] s).2.m.mem 2 ≠ demo.mem 2 := by
  decide +kernel

/-- C94 is false for a pc written at a breakpoint stop: the run that follows skips the breakpoint under the new pc. -/
theorem C94_pc_at_stop :
    let s := okOr (fresh demo) (execCalls demoEnv [.dbg (.setBp 4), .dbg (.setBp 8), .dbg (.run 10), .pc 8, .dbg (.run 1)]
      (fresh demo) >>= fun r => .ok r.1)
    s.bps 8 = true ∧ s.reason = .userRequest ∧ s.m.pc = 4 := by
  decide +kernel

end Verif.Props
