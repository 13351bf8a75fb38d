import Verif.Proofs.Agent
import Verif.Model.RenodeCore
import Verif.Proofs.TopHist
import Verif.Proofs.TopDemo

/-!
# Properties C48-C50: the Renode agent
-/

namespace Verif.Props

open Verif Verif.Model.Agent Verif.Proofs.Agent Verif.Spec.Agent
open Verif.Model.Top (HaltReason)

variable {δ : Type}

/-! ## C48 -/

/-- C48 (missing: more than 2^32 - 1 `construct` calls, for which it is false, see `C48_ids_repeat`): the identifiers
returned in any history are pairwise different. -/
theorem C48_fresh_partial (core : Core δ) (cs : List Call) (hb : constructs cs < 2 ^ 32) (tr : List (Call × Reply))
    (a : Agent δ) (h : calls core cs empty = .ok (tr, a)) : (madeIds (events tr)).Nodup := by
  have := calls_inv core cs [] empty a tr inv_empty (by simpa [empty] using hb) h
  simpa using this.nodup

/-- The reply of a call whose identifier is not live. -/
def refused : Call → Reply
  | .readMemory _ _ _ | .writeMemory _ _ _ => { ret := 0 }
  | .loadExecutable _ _ _ => { ret := 0, status := some 0xffffffff#32 }
  | .step _ _ statusNull => { ret := 0, status := if statusNull then none else some 0xffffffff#32 }
  | _ => { ret := 0xffffffff#64 }

/-- C48 (missing as above, and `load_executable` with a null status pointer, see `C48_load_null_status`): after any
history, a call with an identifier that was never returned, or that was destructed, fails with its error code and
changes nothing. -/
theorem C48_dead_partial (core : Core δ) (cs : List Call) (hb : constructs cs < 2 ^ 32) (tr : List (Call × Reply))
    (a : Agent δ) (h : calls core cs empty = .ok (tr, a)) (c : Call) (id : BitVec 32) (hid : c.id? = some id)
    (hl : live (events tr) id = false) (hn : ∀ i f, c ≠ .loadExecutable i f true) :
    call core c a = .ok (refused c, a) := by
  have hi := calls_inv core cs [] empty a tr inv_empty (by simpa [empty] using hb) h
  have hx : a.inst id = none := by
    have := hi.inst id
    rw [List.nil_append, hl] at this
    exact Option.not_isSome_iff_eq_none.1 (by rw [← this]; simp)
  cases c with
  | construct _ _ => cases hid
  | regInfo i index nl =>
    injection hid with hid; subst hid
    cases nl <;> simp [call, regInfo, hx, refused, err]
  | loadExecutable i f nl =>
    injection hid with hid; subst hid
    cases nl with
    | true => exact absurd rfl (hn i f)
    | false => simp [call, loadExecutable, hx, refused, kAborted]
  | readRegister i rg nl =>
    injection hid with hid; subst hid
    cases nl <;> simp [call, readRegister, hx, refused, err]
  | destruct i => injection hid with hid; subst hid; simp [call, destroy, hx, refused, err]
  | reset i => injection hid with hid; subst hid; simp [call, reset, hx, refused, err]
  | regInfoSize i => injection hid with hid; subst hid; simp [call, regInfoSize, hx, refused, err]
  | loadImage i f ad => injection hid with hid; subst hid; simp [call, loadImage, hx, refused, err]
  | writeRegister i rg v => injection hid with hid; subst hid; simp [call, writeRegister, hx, refused, err]
  | readMemory i ad l => injection hid with hid; subst hid; simp [call, readMemory, hx, refused, zero]
  | writeMemory i ad b => injection hid with hid; subst hid; simp [call, writeMemory, hx, refused, zero]
  | step i n nl => injection hid with hid; subst hid; simp [call, step, hx, refused, kAborted]
  | halt i nl => injection hid with hid; subst hid; simp [call, halt, hx, refused, err]

/-- C48: a call on one identifier leaves all other instances as they are, and so does `construct`. -/
theorem C48_separate (core : Core δ) (c : Call) (a a' : Agent δ) (r : Reply) (h : call core c a = .ok (r, a'))
    (id : BitVec 32) (hid : c.id? ≠ some id) (d : δ) (hd : a.inst id = some d) : a'.inst id = some d := by
  cases hc : c.id? with
  | some i =>
    have := (call_local core c a a' r i hc h).1.2.2 id (by rintro rfl; exact hid hc)
    rw [this, hd]
  | none =>
    cases c with
    | construct len mem =>
      unfold call at h
      dsimp only at h
      unfold construct at h
      split at h
      · obtain ⟨-, h2⟩ := ok_pair h; subst h2; exact hd
      · obtain ⟨-, h2⟩ := ok_pair h; subst h2; exact emplace_keep _ _ _ _ _ hd
    | _ => cases hc

/-- C48 (missing: more than 2^32 - 1 `construct` calls): every live instance has the entry of the name length map that `get_reg_info` relies on, so the lookup does not
throw. -/
theorem C48_name_length_partial (core : Core δ) (cs : List Call) (hb : constructs cs < 2 ^ 32) (tr : List (Call × Reply))
    (a : Agent δ) (h : calls core cs empty = .ok (tr, a)) (id : BitVec 32) (hl : live (events tr) id = true) :
    ∃ d len, a.inst id = some d ∧ a.nameLen id = some len := by
  have hi := calls_inv core cs [] empty a tr inv_empty (by simpa [empty] using hb) h
  have h1 : (a.inst id).isSome = true := by
    have := hi.inst id
    rw [List.nil_append, hl] at this
    exact this.symm
  obtain ⟨d, hd⟩ := Option.isSome_iff_exists.1 h1
  obtain ⟨l, hl⟩ := Option.isSome_iff_exists.1 (hi.len id h1)
  exact ⟨d, l, hd, hl⟩

/-- The simulator of the examples: a counter of executed instructions that never halts. -/
def counter : Core Nat where
  create _ _ := some 0
  infoSize _ := 33
  regInfo _ _ _ := .ok none
  readReg _ d := some (BitVec.ofNat 64 d)
  writeReg _ v _ := (some (), v.toNat)
  readMem _ _ _ := .ok (some [])
  writeMem _ _ d := .ok (some 0, d)
  loadElf _ d := (some 0, d)
  writePc _ d := (some (), d)
  loadImage _ _ d := .ok (some (), d)
  step n d := .ok (some n, d + n.toNat)
  reason _ := some .none
  halt d := (some (), d)

/-- Two instances; one is stepped and destructed; calls on it then fail and the other is untouched. -/
example : ∃ a, calls counter [.construct 16 none, .construct 16 none, .step 0 5 false, .step 1 7 false, .destruct 0,
      .readRegister 0 0 false, .readRegister 1 0 false, .construct 16 none] empty =
    .ok ([(.construct 16 none, { ret := 0 }), (.construct 16 none, { ret := 1 }),
      (.step 0 5 false, { ret := 5, status := some 0 }), (.step 1 7 false, { ret := 7, status := some 0 }),
      (.destruct 0, { ret := 0 }), (.readRegister 0 0 false, { ret := 0xffffffff#64 }),
      (.readRegister 1 0 false, { ret := 0, value := some 7 }), (.construct 16 none, { ret := 2 })], a) :=
  ⟨_, rfl⟩

/-- C48 is false for very long histories: with a simulator that can always be created, the `i`-th identifier is `i`
modulo 2^32, so the identifiers repeat; the one numbered 2^32 - 1 is the error code -1. -/
theorem C48_ids_repeat (core : Core δ) (hc : ∀ m c, (core.create m c).isSome = true) (len : BitVec 32) (n : Nat) :
    ∃ tr a, calls core (List.replicate n (.construct len none)) empty = .ok (tr, a) ∧ tr.length = n ∧
      ∀ i (hi : i < tr.length), (tr[i].2.ret).toNat = i % 2 ^ 32 := by
  have gen : ∀ (n : Nat) (a : Agent δ) (c : Nat), a.count.toNat = c % 2 ^ 32 →
      ∃ tr a', calls core (List.replicate n (.construct len none)) a = .ok (tr, a') ∧ tr.length = n ∧
        ∀ i (hi : i < tr.length), (tr[i].2.ret).toNat = (c + i) % 2 ^ 32 := by
    intro n
    induction n with
    | zero => exact fun a c _ => ⟨[], a, rfl, rfl, fun i hi => absurd hi (Nat.not_lt_zero _)⟩
    | succ n ih =>
      intro a c ha
      obtain ⟨d, hd⟩ := Option.isSome_iff_exists.1 (hc none a.count)
      obtain ⟨tr, a', h1, h2, h3⟩ := ih
        ⟨emplace a.inst a.count d, emplace a.nameLen a.count len, a.count + 1⟩ (c + 1)
        (by show (a.count + 1).toNat = _; rw [BitVec.toNat_add, ha]; simp)
      refine ⟨(.construct len none, { ret := a.count.zeroExtend 64 }) :: tr, a', ?_, by simp [h2], ?_⟩
      · rw [List.replicate_succ]
        unfold calls call construct
        dsimp only
        rw [hd]
        simp only [Outcome.ok_bind, h1]
      · intro i hi
        cases i with
        | zero =>
          simp only [List.getElem_cons_zero, Nat.add_zero]
          rw [← ha]
          have := a.count.isLt
          simp
          omega
        | succ i =>
          simp only [List.getElem_cons_succ]
          rw [h3 i (by simpa using hi)]
          congr 1; omega
  obtain ⟨tr, a, h1, h2, h3⟩ := gen n empty 0 rfl
  exact ⟨tr, a, h1, h2, fun i hi => by rw [h3 i hi, Nat.zero_add]⟩

/-- The first and the (2^32 + 1)-st identifier agree. -/
example : ∃ tr a, calls counter (List.replicate 4294967297 (.construct 16 none)) empty = .ok (tr, a) ∧
    ∃ (h : 4294967296 < tr.length), (tr[0].2.ret).toNat = (tr[4294967296].2.ret).toNat := by
  obtain ⟨tr, a, h1, h2, h3⟩ := C48_ids_repeat counter (fun _ _ => rfl) 16 4294967297
  exact ⟨tr, a, h1, by omega, by rw [h3 0, h3 4294967296]⟩

/-- C48: the identifier of the first instance is 0, which the header declares to be the error result. -/
theorem C48_first_is_zero (core : Core δ) (d : δ) (len : BitVec 32) (hc : core.create none 0 = some d) :
    (construct core len none empty).1 = { ret := 0 } ∧ (construct core len none empty).2.inst 0 = some d := by
  unfold construct
  rw [show (empty : Agent δ).count = 0 from rfl, hc]
  exact ⟨rfl, rfl⟩

/-- C48: `load_executable` dereferences a null status pointer, even for an unknown identifier. -/
theorem C48_load_null_status (core : Core δ) (id : BitVec 32) (f : List (BitVec 8)) (a : Agent δ) :
    call core (.loadExecutable id f true) a = .ub := by
  unfold call loadExecutable; rfl

/-! ## C49 -/

/-- C49 for every `n` and every simulator that keeps the contract of `Step` (C45): the call returns the number of
instructions executed modulo 2^32 (so it is exact only below 2^32, see `C49_count_wraps`), no more than `n` are executed,
and the status matches the answer of the last call of the simulator and its halt reason; a reason that does not stop the
agent is reported as ok, and then either the simulator itself stopped short or all `n` instructions were executed. -/
theorem C49_step_partial (core : Core δ) (cnt : δ → Nat) (hc : Honest core cnt) (a : Agent δ) (id : BitVec 32) (d : δ)
    (hd : a.inst id = some d) (n : BitVec 64) (hn : n ≠ 0) (h : HaltReason) (hr : core.reason d = some h)
    (hh : h ≠ .semihostHaltRequest) (statusNull : Bool) :
    ∃ rep d' st, step core id n statusNull a = .ok (rep, { a with inst := put a.inst id (some d') }) ∧
      cnt d ≤ cnt d' ∧ cnt d' - cnt d ≤ n.toNat ∧ rep.ret.toNat = (cnt d' - cnt d) % 2 ^ 32 ∧
      rep.status = (if statusNull then none else some st) ∧ Ends core cnt n.toNat d d' st := by
  obtain ⟨r, st, d', h1, h2, h3, h4, h5⟩ := stepLoop_ok core cnt hc n.toNat n 0 d 0 (Nat.le_refl _) hn rfl
  refine ⟨{ ret := r.zeroExtend 64, status := if statusNull then none else some st }, d', st, ?_, h2, by omega, ?_, rfl,
    h5⟩
  · unfold step
    simp only [hd]
    rw [if_neg hn]
    simp only [hr]
    rw [if_neg hh, h1]
    rfl
  · have := r.isLt
    rw [Nat.zero_add] at h4
    rw [← h4]
    simp
    omega

/-- C49: below 2^32 the count is exact. -/
theorem C49_count_partial (core : Core δ) (cnt : δ → Nat) (hc : Honest core cnt) (a : Agent δ) (id : BitVec 32) (d : δ)
    (hd : a.inst id = some d) (n : BitVec 64) (hn : n ≠ 0) (hb : n.toNat < 2 ^ 32) (h : HaltReason)
    (hr : core.reason d = some h) (hh : h ≠ .semihostHaltRequest) (statusNull : Bool) :
    ∃ rep d', step core id n statusNull a = .ok (rep, { a with inst := put a.inst id (some d') }) ∧
      cnt d' = cnt d + rep.ret.toNat ∧ rep.ret.toNat ≤ n.toNat := by
  obtain ⟨rep, d', st, h1, h2, h3, h4, -⟩ := C49_step_partial core cnt hc a id d hd n hn h hr hh statusNull
  rw [Nat.mod_eq_of_lt (by omega)] at h4
  exact ⟨rep, d', h1, by omega, by omega⟩

/-- C49: nothing is executed when zero instructions are asked for, or after the program has exited. -/
theorem C49_no_step (core : Core δ) (a : Agent δ) (id : BitVec 32) (d : δ) (hd : a.inst id = some d) :
    step core id 0 false a = .ok ({ ret := 0, status := some 0#32 }, a) ∧
    ∀ n : BitVec 64, n ≠ 0 → core.reason d = some .semihostHaltRequest →
      step core id n false a = .ok ({ ret := 0, status := some 0xffffffff#32 }, a) := by
  constructor
  · unfold step; simp only [hd]; rfl
  · intro n hn hr
    unfold step; simp only [hd]; rw [if_neg hn]; simp only [hr]; rfl

theorem counter_honest : Honest counter id := by
  refine ⟨fun k d h1 h2 => ⟨some k, d + k, rfl, (fun h => nomatch h), fun e he => ?_⟩⟩
  injection he with he
  subst he
  refine ⟨by omega, by omega, ?_⟩
  simp

/-- Five thousand million instructions: three calls of the simulator, all executed. -/
example : ∃ rep d' st, step counter 0 5000000000 false (construct counter 16 none empty).2 =
      .ok (rep, { (construct counter 16 none empty).2 with
        inst := put (construct counter 16 none empty).2.inst 0 (some d') }) ∧
      (0 : Nat) ≤ d' ∧ d' - 0 ≤ (5000000000 : BitVec 64).toNat ∧ rep.ret.toNat = (d' - 0) % 2 ^ 32 ∧
      rep.status = some st ∧ Ends counter id (5000000000 : BitVec 64).toNat 0 d' st :=
  C49_step_partial counter id counter_honest _ 0 0 rfl 5000000000 (by decide) .none rfl (by decide) false

/-- One round of the agent's loop on the counter. -/
theorem counter_round (f : Nat) (left : BitVec 64) (k : Nat) (hl : left ≠ 0) (hk : k ≤ intMax) (hk' : k ≤ left.toNat)
    (hm : k = intMax ∨ k = left.toNat) (t : BitVec 32) (d : Nat) :
    stepLoop counter (f + 1) left t d = stepLoop counter f (left - BitVec.ofNat 64 k) (t + BitVec.ofNat 32 k) (d + k) := by
  have e : (if left.toNat > intMax then intMax else left.toNat) = k := by
    rcases hm with rfl | rfl
    · split <;> omega
    · rw [if_neg (by omega)]
  rw [stepLoop, if_neg hl]
  dsimp only
  rw [e]
  show (if (k : Int) < k then _ else stepLoop counter f (left - BitVec.ofInt 64 k) (t + BitVec.ofInt 32 k) (d + k)) = _
  rw [if_neg (by omega)]
  simp

/-- C49 is false from 2^32 instructions on: stepping 2^32 + 5 instructions of a program that never stops executes them
all and returns 5. -/
theorem C49_count_wraps :
    step counter 0 0x100000005 false (construct counter 16 none empty).2 = .ok ({ ret := 5, status := some 0 },
      { (construct counter 16 none empty).2 with
        inst := put (construct counter 16 none empty).2.inst 0 (some 4294967301) }) := by
  unfold step
  rw [show (construct counter 16 none empty).2.inst 0 = some 0 from rfl]
  dsimp only
  rw [if_neg (by decide), show counter.reason 0 = some .none from rfl]
  dsimp only
  rw [if_neg (by decide)]
  obtain ⟨f, hf⟩ : ∃ f, (0x100000005 : BitVec 64).toNat = f + 4 := ⟨4294967297, by decide⟩
  rw [hf, counter_round f.succ.succ.succ 0x100000005 2147483647 (by decide) (by decide) (by decide) (by decide),
    counter_round f.succ.succ _ 2147483647 (by decide) (by decide) (by decide) (by decide),
    counter_round f.succ _ 7 (by decide) (by decide) (by decide) (by decide)]
  unfold stepLoop
  rw [if_pos (by decide)]
  rfl

/-- C49 on the real core: after a session (C44), from a state that is not a breakpoint stop, the agent's step of fewer
than 2^31 instructions makes exactly the core step of C45, returns its count, and reports 3 at a breakpoint, -1 after an
`ebreak` of the program's own or an exit, and 0 otherwise. -/
theorem C49_on_core {σ : Type} (R : Verif.Model.RenodeCore.Params σ) (C : Nat → Bool)
    (ht : Verif.Spec.Program.Tame R.env.sem C R.start) (ops : List Verif.Model.Top.Op)
    (hl : Verif.Model.Top.LegalAll R.env C ops (Verif.Model.Top.fresh R.start)) (s : Verif.Model.Top.St σ) (hits : Nat)
    (hs : Verif.Model.Top.execAll R.env ops (Verif.Model.Top.fresh R.start) = .ok (s, hits))
    (hr : s.reason ≠ .softwareBreakpoint) (hr' : s.reason ≠ .semihostHaltRequest) (a : Agent (Verif.Model.Top.St σ))
    (id : BitVec 32) (ha : a.inst id = some s) (n : BitVec 64) (hn : n ≠ 0) (hb : n.toNat < 2 ^ 31) :
    ∃ (k : Nat) (s' : Verif.Model.Top.St σ), Verif.Model.Top.step R.env n.toNat s = .ok (.ok k, s') ∧ k ≤ n.toNat ∧
      step (Verif.Model.RenodeCore.core R) id n false a =
        .ok ({ ret := BitVec.ofNat 64 k, status := some (match s'.reason with
            | .softwareBreakpoint | .hardwareBreakpoint => 3#32
            | .haltAbort | .semihostHaltRequest => 0xffffffff#32
            | _ => 0#32) }, { a with inst := put a.inst id (some s') }) := by
  obtain ⟨i, s2, hits', e, hg, -⟩ := Verif.Proofs.Top.execAll_good ops (Verif.Proofs.Top.good_fresh ht) hl
  rw [hs] at e; injection e with e; injection e with e1 e2; subst e1
  have hn0 : n.toNat ≠ 0 := fun h => hn (BitVec.eq_of_toNat_eq (by simpa using h))
  obtain ⟨k, j, s', e, -, -, -, -, hk, -, -⟩ :=
    Verif.Proofs.Top.step_clean R.env hg.rel hg.tame hg.status (hg.clean hr) hr n.toNat (by omega)
  have hk : k ≤ n.toNat := by omega
  refine ⟨k, s', e, hk, ?_⟩
  have hret : ((0 + BitVec.ofInt 32 (k : Int)).zeroExtend 64 : BitVec 64) = BitVec.ofNat 64 k := by
    apply BitVec.eq_of_toNat_eq
    simp
    omega
  unfold step
  simp only [ha]
  rw [if_neg hn]
  simp only [Verif.Model.RenodeCore.core]
  rw [if_neg hr']
  obtain ⟨f, hf⟩ : ∃ f, n.toNat = f + 1 := ⟨n.toNat - 1, by omega⟩
  rw [hf]
  unfold stepLoop
  rw [if_neg hn]
  dsimp only
  have estep : Verif.Model.RenodeCore.stepN R (n.toNat : Int) s = .ok (some (k : Int), s') := by
    unfold Verif.Model.RenodeCore.stepN
    rw [e, Outcome.ok_bind]
  rw [if_neg (by unfold intMax; omega), estep, Outcome.ok_bind]
  dsimp only
  cases hst : stopStatus s'.reason with
  | some st =>
    dsimp only
    rw [Outcome.ok_bind]
    dsimp only
    rw [hret]
    cases hq : s'.reason <;> rw [hq] at hst <;> simp [stopStatus] at hst <;> subst hst <;> rfl
  | none =>
    dsimp only
    have hfin : ∀ t : BitVec 32, stepLoop (Verif.Model.RenodeCore.core R) f (n - BitVec.ofInt 64 (k : Int)) t s' = .ok (t, kOk, s') ∨
        (k : Int) < n.toNat := by
      intro t
      by_cases hlt : k < n.toNat
      · exact Or.inr (by omega)
      · left
        have : n - BitVec.ofInt 64 (k : Int) = 0 := by
          have : k = n.toNat := by omega
          subst this
          apply BitVec.eq_of_toNat_eq
          simp
        cases f <;> (unfold stepLoop; rw [if_pos this])
    have hcode : ∀ x : BitVec 64, (Outcome.ok ({ ret := x, status := some kOk }, { a with inst := put a.inst id (some s') }) :
        Outcome (Reply × Agent (Verif.Model.Top.St σ))) = .ok ({ ret := x, status := some (match s'.reason with
            | .softwareBreakpoint | .hardwareBreakpoint => 3#32
            | .haltAbort | .semihostHaltRequest => 0xffffffff#32
            | _ => 0#32) }, { a with inst := put a.inst id (some s') }) := by
      intro x
      cases hq : s'.reason <;> rw [hq] at hst <;> first | rfl | simp [stopStatus] at hst
    by_cases hlt : (k : Int) < n.toNat
    · rw [if_pos hlt, Outcome.ok_bind]
      dsimp only
      rw [hret]
      exact hcode _
    · rw [if_neg hlt]
      have := (hfin (0 + BitVec.ofInt 32 (k : Int))).resolve_right hlt
      simp only [Verif.Model.RenodeCore.core] at this
      rw [this, Outcome.ok_bind]
      dsimp only
      rw [hret]
      exact hcode _

/-! ## C64 -/

/-- The execution result that stands for a halt reason: 0 running on, 1 interrupted, 3 at a breakpoint, -1 aborted. -/
def haltCode : Verif.Model.Top.HaltReason → BitVec 32
  | .none => 0
  | .userRequest => 1
  | .softwareBreakpoint | .hardwareBreakpoint => 3
  | _ => 0xffffffff

/-- C64 (missing: hardware breakpoints, action points and simulator errors, for which it fails: `C64_unwritten`): `halt`
on a live instance asks that core, and no other, to halt; it returns 0 with the code of the core's halt reason. When the
core refuses or has no reason to give it returns -1 and the aborted status. -/
theorem C64_halt_partial (core : Core δ) (a : Agent δ) (id : BitVec 32) (d : δ) (hd : a.inst id = some d) :
    ∀ r d', core.halt d = (r, d') →
      (∀ h, r ≠ none → core.reason d' = some h → h ≠ .hardwareBreakpoint → h ≠ .actionPoint → h ≠ .simulatorError →
        (halt core id false a).1 = { ret := 0, status := some (haltCode h) }) ∧
      (r = none ∨ core.reason d' = none →
        (halt core id false a).1 = { ret := 0xffffffff, status := some 0xffffffff }) ∧
      (halt core id false a).2.inst id = some d' ∧ ∀ i, i ≠ id → (halt core id false a).2.inst i = a.inst i := by
  intro r d' hh
  refine ⟨fun h hr hc h1 h2 h3 => ?_, fun h => ?_, ?_⟩
  · cases r with
    | none => exact absurd rfl hr
    | some u => cases h <;> simp_all [halt, haltStatus, haltCode, kOk, kAborted, kInterrupted, kStoppedAtBreakpoint]
  · cases r with
    | none => simp [halt, hd, hh, err, kAborted]
    | some u =>
      have : core.reason d' = none := by simpa using h
      simp [halt, hd, hh, err, kAborted, this]
  · unfold halt
    simp only [hd, hh]
    cases r with
    | none => exact ⟨by simp [put], fun i hi => by simp [put, hi]⟩
    | some u => cases core.reason d' <;> exact ⟨by simp [put], fun i hi => by simp [put, hi]⟩

/-- C64: `halt` on an identifier that is not live returns -1, writes no status and changes nothing; without a status
pointer it returns the same value and has the same effect. -/
theorem C64_halt_other (core : Core δ) (a : Agent δ) (id : BitVec 32) :
    (∀ nl, a.inst id = none → halt core id nl a = ({ ret := 0xffffffff }, a)) ∧
    ((halt core id true a).1.ret = (halt core id false a).1.ret ∧ (halt core id true a).1.status = none ∧
      (halt core id true a).2 = (halt core id false a).2) := by
  constructor
  · intro nl h; simp [halt, h, err]
  · unfold halt
    cases a.inst id with
    | none => simp [err]
    | some d =>
      rcases hh : core.halt d with ⟨r, d'⟩
      cases r with
      | none => simp [hh, err]
      | some u => cases h : core.reason d' <;> simp [hh, h, err]

/-- C64, negative part: for a core stopped at a hardware breakpoint, at an action point or by a simulator error, `halt`
returns 0 and leaves the caller's status unwritten. -/
theorem C64_unwritten (core : Core δ) (a : Agent δ) (id : BitVec 32) (d : δ) (hd : a.inst id = some d) (d' : δ)
    (hh : core.halt d = (some (), d'))
    (hr : core.reason d' ∈ [some .hardwareBreakpoint, some .actionPoint, some .simulatorError]) :
    (halt core id false a).1 = { ret := 0, status := none } := by
  simp only [List.mem_cons, List.not_mem_nil, or_false] at hr
  rcases hr with h | h | h <;> simp [halt, hd, hh, h, haltStatus]

/-- C64, negative part: `step` and `halt` disagree on a core stopped by a user request: `step` reports 0, `halt` 1. -/
theorem C64_user_request : stopStatus .userRequest = some 0 ∧ haltStatus .userRequest = some 1 := by
  decide

/-- The counter, stopped for the reason `h` by `halt`. -/
def stopped (h : Verif.Model.Top.HaltReason) : Core Nat :=
  { counter with halt := fun d => (some (), d + 1000), reason := fun d => some (if d < 1000 then .none else h) }

/-- The second of two instances is halted: 3 for a breakpoint, 1 for a request, nothing for a hardware breakpoint. -/
example : ((halt (stopped .softwareBreakpoint) 1 false (construct counter 16 none (construct counter 16 none empty).2).2).1 =
      { ret := 0, status := some 3 }) ∧
    ((halt (stopped .userRequest) 1 false (construct counter 16 none (construct counter 16 none empty).2).2).1 =
      { ret := 0, status := some 1 }) ∧
    ((halt (stopped .hardwareBreakpoint) 1 false (construct counter 16 none (construct counter 16 none empty).2).2).1 =
      { ret := 0, status := none }) ∧
    (halt (stopped .userRequest) 1 false (construct counter 16 none (construct counter 16 none empty).2).2).2.inst 0 = some 0 ∧
    (halt (stopped .userRequest) 1 false (construct counter 16 none (construct counter 16 none empty).2).2).2.inst 1 = some 1000 := by
  decide +kernel

/-! ## C50 -/

/-- C50: the table has 33 entries, each 32 bits wide: the pc and then x0 to x31 in order; x0 alone is marked
read-only. -/
theorem C50_table (nb : Numbering) : (table nb).length = 33 ∧
    (table nb)[0]? = some ⟨(nb.num .pc).toNat, 32, true, false⟩ ∧
    ∀ i : Fin 32, (table nb)[i.val + 1]? = some ⟨(nb.num (.x i)).toNat, 32, true, decide (i = 0)⟩ := by
  refine ⟨rfl, rfl, fun i => ?_⟩
  have : ∀ i : Fin 32, ((([1, 2, 3, 4, 5, 6, 7, 8, 9, 10, 11, 12, 13, 14, 15, 16, 17, 18, 19, 20, 21, 22, 23, 24, 25,
      26, 27, 28, 29, 30, 31] : List (Fin 32)).map fun i => ((i, false) : Fin 32 × Bool)).cons (0, true))[i.val]? =
      some (i, decide (i = 0)) := by decide
  have h : table nb = ⟨(nb.num .pc).toNat, 32, true, false⟩ ::
      ((([1, 2, 3, 4, 5, 6, 7, 8, 9, 10, 11, 12, 13, 14, 15, 16, 17, 18, 19, 20, 21, 22, 23, 24, 25, 26, 27, 28, 29, 30,
      31] : List (Fin 32)).map fun i => ((i, false) : Fin 32 × Bool)).cons (0, true)).map
        fun p => ⟨(nb.num (.x p.1)).toNat, 32, true, p.2⟩ := rfl
  rw [h, List.getElem?_cons_succ, List.getElem?_map, this i]
  rfl

/-- C50: the identifiers in the table are pairwise different. -/
theorem C50_distinct (nb : Numbering) : ((table nb).map (·.index)).Nodup := by
  have hinj : ∀ r r', (nb.num r).toNat = (nb.num r').toNat → r = r' := by
    intro r r' h
    have := BitVec.eq_of_toNat_eq h
    have h1 := nb.find_num r
    rw [this, nb.find_num r'] at h1
    injection h1 with h1; injection h1 with h1
    exact h1.symm
  have h : (table nb).map (·.index) = ([.pc, .x 0, .x 1, .x 2, .x 3, .x 4, .x 5, .x 6, .x 7, .x 8, .x 9, .x 10, .x 11,
      .x 12, .x 13, .x 14, .x 15, .x 16, .x 17, .x 18, .x 19, .x 20, .x 21, .x 22, .x 23, .x 24, .x 25, .x 26, .x 27,
      .x 28, .x 29, .x 30, .x 31] : List Reg).map fun r => (nb.num r).toNat := rfl
  rw [h]
  unfold List.Nodup
  rw [List.pairwise_map]
  refine List.Pairwise.imp (R := (· ≠ ·)) (fun hne e => hne (hinj _ _ e)) ?_
  decide

/-- C50: `get_reg_info` refuses an index outside the table, and otherwise gives the entry and the first `max_len` bytes
of the register's name, provided `max_len` bytes may be written. -/
theorem C50_info (nb : Numbering) (cap : Nat) (index maxLen : BitVec 32) :
    (index.toInt < 0 ∨ 33 ≤ index.toInt → getInfo nb cap index maxLen = .ok none) ∧
    (0 ≤ index.toInt → index.toInt < 33 → 0 ≤ maxLen.toInt → maxLen.toInt ≤ cap →
      ∃ r info, (table nb)[index.toNat]? = some info ∧ info.index = (nb.num r).toNat ∧
        getInfo nb cap index maxLen = .ok (some ((nb.name r ++
          List.replicate (maxLen.toNat - (nb.name r).length) 0).take maxLen.toNat, info))) := by
  constructor
  · intro h
    unfold getInfo
    rw [if_pos (by rw [(C50_table nb).1]; exact h)]
  · intro h1 h2 h3 h4
    have hidx : index.toInt = index.toNat := by
      rw [BitVec.toInt_eq_toNat_cond] at h1 ⊢
      have := index.isLt
      split at h1 <;> simp_all <;> omega
    have hlen : (maxLen.signExtend 64).toNat = maxLen.toNat ∧ maxLen.toInt = maxLen.toNat := by
      have hm : maxLen.toInt = maxLen.toNat := by
        rw [BitVec.toInt_eq_toNat_cond] at h3 ⊢
        have := maxLen.isLt
        split at h3 <;> simp_all <;> omega
      refine ⟨?_, hm⟩
      have hmsb : maxLen.msb = false := by
        rw [BitVec.msb_eq_toInt]; simp; exact h3
      rw [BitVec.signExtend_eq_setWidth_of_msb_false hmsb]
      have := maxLen.isLt
      simp; omega
    have hr : ∃ r info, (table nb)[index.toNat]? = some info ∧ info.index = (nb.num r).toNat := by
      obtain ⟨k, hk⟩ : ∃ k, index.toNat = k := ⟨_, rfl⟩
      rw [hk]
      have hk33 : k < 33 := by omega
      cases k with
      | zero => exact ⟨.pc, _, (C50_table nb).2.1, rfl⟩
      | succ k => exact ⟨.x ⟨k, by omega⟩, _, (C50_table nb).2.2 ⟨k, by omega⟩, rfl⟩
    obtain ⟨r, info, hi, hn⟩ := hr
    refine ⟨r, info, hi, hn, ?_⟩
    unfold getInfo
    rw [if_neg (by rw [(C50_table nb).1]; omega), hi]
    dsimp only
    have : BitVec.ofNat 32 info.index = nb.num r := by rw [hn]; simp
    rw [this, nb.find_num r]
    dsimp only
    unfold strncpy
    rw [if_neg (by rw [hlen.1]; omega), hlen.1]
    rfl

/-- C50 is false of the name when the caller's length is negative: the copy is given a huge size. -/
theorem C50_negative_length (nb : Numbering) (cap : Nat) (hcap : cap < 2 ^ 63) (index maxLen : BitVec 32)
    (h1 : 0 ≤ index.toInt) (h2 : index.toInt < 33) (h3 : maxLen.toInt < 0) : getInfo nb cap index maxLen = .ub := by
  have hidx : index.toInt = index.toNat := by
    rw [BitVec.toInt_eq_toNat_cond] at h1 ⊢
    have := index.isLt
    split at h1 <;> simp_all <;> omega
  have hr : ∃ r info, (table nb)[index.toNat]? = some info ∧ info.index = (nb.num r).toNat := by
    obtain ⟨k, hk⟩ : ∃ k, index.toNat = k := ⟨_, rfl⟩
    rw [hk]
    have hk33 : k < 33 := by omega
    cases k with
    | zero => exact ⟨.pc, _, (C50_table nb).2.1, rfl⟩
    | succ k => exact ⟨.x ⟨k, by omega⟩, _, (C50_table nb).2.2 ⟨k, by omega⟩, rfl⟩
  obtain ⟨r, info, hi, hn⟩ := hr
  have hbig : 2 ^ 63 ≤ (maxLen.signExtend 64).toNat := by
    have hx : (maxLen.signExtend 64).toInt = maxLen.toInt := by
      rw [BitVec.toInt_signExtend_of_le (by omega)]
    rw [BitVec.toInt_eq_toNat_cond] at hx
    split at hx <;> omega
  unfold getInfo
  rw [if_neg (by rw [(C50_table nb).1]; omega), hi]
  dsimp only
  have : BitVec.ofNat 32 info.index = nb.num r := by rw [hn]; simp
  rw [this, nb.find_num r]
  dsimp only
  unfold strncpy
  rw [if_pos (by omega)]
  rfl

/-- C50 (missing: x0 is not read-only, see `C50_x0_written`): on a halted core every register of the table is read and written by its identifier: a write is accepted, is read
back modulo 2^32, and changes no other register; the core stays halted, and its reason stays what it was except that a
write of the pc at a breakpoint clears it; an identifier outside the external map is refused; a core that is not
halted refuses both. -/
theorem C50_access_partial (nb : Numbering) (ro : Nat → Regs → Option (BitVec 64))
    (wo : Nat → BitVec 64 → Regs → Option Unit × Regs) (s : Regs) (r : Reg) (v : BitVec 64) :
    (s.halted = true → readReg nb ro (nb.num r) s = some ((s.val r).zeroExtend 64) ∧
      (writeReg nb wo (nb.num r) v s).1 = some () ∧
      (writeReg nb wo (nb.num r) v s).2.val r = v.truncate 32 ∧
      readReg nb ro (nb.num r) (writeReg nb wo (nb.num r) v s).2 = some ((v.truncate 32).zeroExtend 64) ∧
      (∀ r', r' ≠ r → (writeReg nb wo (nb.num r) v s).2.val r' = s.val r') ∧
      (writeReg nb wo (nb.num r) v s).2.halted = true ∧
      (r = .pc → s.reason = .softwareBreakpoint → (writeReg nb wo (nb.num r) v s).2.reason = .none) ∧
      (r ≠ .pc ∨ s.reason ≠ .softwareBreakpoint → (writeReg nb wo (nb.num r) v s).2.reason = s.reason)) ∧
    (∀ id, nb.find id = none → readReg nb ro id s = none ∧ writeReg nb wo id v s = (none, s)) ∧
    (s.halted = false → ∀ id, readReg nb ro id s = none ∧ writeReg nb wo id v s = (none, s)) := by
  refine ⟨fun h => ?_, fun id hid => ?_, fun h id => ?_⟩
  · have e : nb.find (nb.num r) = some (.inl r) := nb.find_num r
    simp only [readReg, writeReg, e, h]
    refine ⟨rfl, rfl, by simp, by simp, fun r' hr' => by simp [hr'], by simp, fun h1 h2 => by simp [h1, h2],
      fun h1 => ?_⟩
    rcases h1 with h1 | h1 <;> simp [h1]
  · simp [readReg, writeReg, hid]
  · unfold readReg writeReg
    cases nb.find id with
    | none => exact ⟨rfl, rfl⟩
    | some x => cases x <;> simp [h]

/-- C50 is false for x0: a write to the read-only register is accepted and changes it. -/
theorem C50_x0_written (nb : Numbering) (wo : Nat → BitVec 64 → Regs → Option Unit × Regs) (s : Regs)
    (h : s.halted = true) :
    (writeReg nb wo (nb.num (.x 0)) 7 s).1 = some () ∧ (writeReg nb wo (nb.num (.x 0)) 7 s).2.val (.x 0) = 7#32 := by
  have := (C50_access_partial nb (fun _ _ => none) wo s (.x 0) 7).1 h
  exact ⟨this.2.1, this.2.2.1⟩

/-- The numbering of the RISC-V debug specification: pc as 0x7b1, x0 to x31 as 0x1000 to 0x101f; two-letter names. -/
def dwarf : Numbering where
  num | .pc => 0x7b1 | .x i => 0x1000 + BitVec.ofNat 32 i.val
  name | .pc => [0x70, 0x63] | .x i => [0x78, 0x30 + BitVec.ofNat 8 i.val]
  find id := if id = 0x7b1 then some (.inl .pc)
    else if h : 0x1000 ≤ id.toNat ∧ id.toNat < 0x1020 then some (.inl (.x ⟨id.toNat - 0x1000, by omega⟩)) else none
  find_num r := by
    cases r with
    | pc => rfl
    | x i => revert i; decide
  name_ne r := by
    cases r with
    | pc => decide
    | x i => revert i; decide

example : getInfo dwarf 16 3 16 =
    .ok (some ([0x78, 0x32, 0, 0, 0, 0, 0, 0, 0, 0, 0, 0, 0, 0, 0, 0], ⟨0x1002, 32, true, false⟩)) := by decide +kernel

example : getInfo dwarf 16 33 16 = .ok none ∧ getInfo dwarf 16 0xffffffff 16 = .ok none := by decide +kernel

end Verif.Props
