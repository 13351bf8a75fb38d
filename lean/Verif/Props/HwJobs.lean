import Verif.Props.HwSim

/-!
# C113: the hardware-simulator wrapper waits for exactly the end of the program, and serves any number of jobs

`WaitForTermination` of `/repo/sim/hw_sim/mpact_simulator.cc` returns if and only if the program ends or a step fails; and
a program that answers through the mailbox answers any sequence of messages, whatever the host does in between outside the
bytes the program depends on.
-/

namespace Verif.Props

open Verif Verif.Model.HwSim Verif.Spec.HwSim Verif.Proofs.HwSim

variable {ρ σ : Type}

theorem ended_test (core : Core ρ) (r : ρ) (m : Mem) :
    ((decide ((core.pc r).toNat > 0x1fff) || wordAt m (core.pc r).toNat == 0x08000073#32 ||
      wordAt m (core.pc r).toNat == 0x10500073#32) = true) ↔ Ended (core.pc r).toNat m := by
  unfold Ended
  rw [Bool.or_eq_true, Bool.or_eq_true, decide_eq_true_eq, beq_iff_eq, beq_iff_eq, wordAt_iff, wordAt_iff, or_assoc]
  rfl

/-- The loop reaches a program end that `k` steps lead to, if none comes before. -/
theorem waitLoop_end (core : Core ρ) (k : Nat) : ∀ (fuel : Nat) (s : St ρ) (x : ρ × Mem), 0 < k → k ≤ fuel →
    Steps core k (s.core, s.mem) x →
    (∀ j y, 0 < j → j < k → Steps core j (s.core, s.mem) y → ¬ Ended (core.pc y.1).toNat y.2) →
    Ended (core.pc x.1).toNat x.2 → waitLoop core fuel s = some (true, { s with core := x.1, mem := x.2 }) := by
  induction k with
  | zero => intro _ _ _ h; omega
  | succ k ih =>
    intro fuel s x _ hf hs hn he
    obtain ⟨f, rfl⟩ : ∃ f, fuel = f + 1 := ⟨fuel - 1, by omega⟩
    cases hs with
    | succ _ _ y _ hq hs =>
      unfold waitLoop
      rw [hq]
      dsimp only
      cases k with
      | zero =>
        cases hs
        rw [if_pos ((ended_test core _ _).2 he)]
      | succ k =>
        have h1 : ¬ Ended (core.pc y.1).toNat y.2 := hn 1 y (by omega) (by omega) (.succ 0 _ _ _ hq (.zero _))
        rw [if_neg (fun hx => h1 ((ended_test core _ _).1 hx))]
        exact ih f _ x (by omega) (by omega) hs
          (fun j z hj hk hz => hn (j + 1) z (by omega) (by omega) (.succ j _ _ _ hq hz)) he

/-- The loop reaches a failing step, if the program has not ended before. -/
theorem waitLoop_fail (core : Core ρ) (k : Nat) : ∀ (fuel : Nat) (s : St ρ) (x y : ρ × Mem), k < fuel →
    Steps core k (s.core, s.mem) x →
    (∀ j z, 0 < j → j ≤ k → Steps core j (s.core, s.mem) z → ¬ Ended (core.pc z.1).toNat z.2) →
    core.step1 x = (none, y) → waitLoop core fuel s = some (false, { s with core := y.1, mem := y.2 }) := by
  induction k with
  | zero =>
    intro fuel s x y hf hs _ hq
    obtain ⟨f, rfl⟩ : ∃ f, fuel = f + 1 := ⟨fuel - 1, by omega⟩
    cases hs
    unfold waitLoop
    rw [hq]
  | succ k ih =>
    intro fuel s x y hf hs hn hq
    obtain ⟨f, rfl⟩ : ∃ f, fuel = f + 1 := ⟨fuel - 1, by omega⟩
    cases hs with
    | succ _ _ w _ hw hs =>
      unfold waitLoop
      rw [hw]
      dsimp only
      have h1 : ¬ Ended (core.pc w.1).toNat w.2 := hn 1 w (by omega) (by omega) (.succ 0 _ _ _ hw (.zero _))
      rw [if_neg (fun hx => h1 ((ended_test core _ _).1 hx))]
      exact ih f _ x y (by omega) hs
        (fun j z hj hk hz => hn (j + 1) z (by omega) (by omega) (.succ j _ _ _ hw hz)) hq

/-- Steps are determined. -/
theorem steps_unique (core : Core ρ) {k : Nat} {x y z : ρ × Mem} (h1 : Steps core k x y) (h2 : Steps core k x z) :
    y = z := by
  induction h1 with
  | zero => cases h2; rfl
  | succ k x w y hq _ ih =>
    cases h2 with
    | succ _ _ w' _ hq' h2 =>
      rw [hq] at hq'
      injection hq' with _ e
      subst e
      exact ih h2

/-- A prefix of a sequence of steps. -/
theorem steps_prefix (core : Core ρ) {k : Nat} {x y : ρ × Mem} (h : Steps core k x y) :
    ∀ j, j ≤ k → ∃ z, Steps core j x z := by
  induction h with
  | zero x => intro j hj; obtain rfl : j = 0 := by omega
              exact ⟨_, .zero _⟩
  | succ k x w y hq _ ih =>
    intro j hj
    cases j with
    | zero => exact ⟨_, .zero _⟩
    | succ j =>
      obtain ⟨z, hz⟩ := ih j (by omega)
      exact ⟨z, .succ j _ _ _ hq hz⟩

/-- The last of `k + 1` steps starts where `k` steps lead to. -/
theorem steps_last (core : Core ρ) {k : Nat} {x z : ρ × Mem} (h : Steps core (k + 1) x z) :
    ∀ y, Steps core k x y → ∃ z', core.step1 y = (some (), z') := by
  induction k generalizing x z with
  | zero =>
    intro y hy
    cases hy
    cases h with
    | succ _ _ w _ hq _ => exact ⟨w, hq⟩
  | succ k ih =>
    intro y hy
    cases h with
    | succ _ _ w _ hq h =>
      cases hy with
      | succ _ _ w' _ hq' hy =>
        rw [hq] at hq'
        injection hq' with _ e
        subst e
        exact ih h y hy

/-- One of finitely many is the first. -/
theorem first_of {p : Nat → Prop} {k : Nat} (h : p k) : ∃ n, n ≤ k ∧ p n ∧ ∀ j, j < n → ¬ p j := by
  induction k using Nat.strongRecOn with
  | ind k ih =>
    by_cases hk : ∃ j, j < k ∧ p j
    · obtain ⟨j, hj, hp⟩ := hk
      obtain ⟨n, h1, h2, h3⟩ := ih j hj hp
      exact ⟨n, by omega, h2, h3⟩
    · exact ⟨k, Nat.le_refl k, h, fun j hj hp => hk ⟨j, hj, hp⟩⟩

/-- The program is at an end after `k` steps of this call. -/
def EndsAfter (core : Core ρ) (s : St ρ) (k : Nat) : Prop :=
  0 < k ∧ ∃ x, Steps core k (s.core, s.mem) x ∧ Ended (core.pc x.1).toNat x.2

/-- The step after `k` steps fails. -/
def FailsAfter (core : Core ρ) (s : St ρ) (k : Nat) : Prop :=
  ∃ x, Steps core k (s.core, s.mem) x ∧ (core.step1 x).1 = none

/-- C113: `WaitForTermination` returns true if and only if the program is at an end after some step. -/
theorem C113_true (core : Core ρ) (timeout : BitVec 32) (s : St ρ) :
    (∃ fuel s', waitForTermination core fuel timeout s = some (true, s')) ↔ ∃ k, EndsAfter core s k := by
  constructor
  · rintro ⟨fuel, s', h⟩
    obtain ⟨k, x, h1, _, h3⟩ := C59_wait core fuel timeout s s' true h
    rcases h3 with ⟨_, hk, hx, he, _⟩ | ⟨h, _⟩
    · subst hx
      exact ⟨k, hk, _, h1, he⟩
    · cases h
  · rintro ⟨k, hk⟩
    obtain ⟨n, _, ⟨h0, x, hx, hx'⟩, hlt⟩ := first_of hk
    refine ⟨n, fetchMailbox { s with core := x.1, mem := x.2 }, ?_⟩
    unfold waitForTermination
    rw [waitLoop_end core n n s x h0 (Nat.le_refl n) hx (fun j y hj hjn hy hend => hlt j hjn ⟨hj, y, hy, hend⟩) hx']
    rfl

/-- C113: it returns false if and only if the program never gets to an end because a step fails. -/
theorem C113_false (core : Core ρ) (timeout : BitVec 32) (s : St ρ) :
    (∃ fuel s', waitForTermination core fuel timeout s = some (false, s')) ↔
      (∃ k, FailsAfter core s k) ∧ ¬ ∃ k, EndsAfter core s k := by
  constructor
  · rintro ⟨fuel, s', h⟩
    obtain ⟨k, x, h1, h2, h3⟩ := C59_wait core fuel timeout s s' false h
    rcases h3 with ⟨h, _⟩ | ⟨_, hx, hq, _⟩
    · cases h
    · refine ⟨⟨k, x, h1, by rw [hq]⟩, ?_⟩
      rintro ⟨n, h0, y, hy, he⟩
      by_cases hnk : n < k
      · exact h2 n y h0 hnk hy he
      · by_cases e : n = k
        · subst e
          rw [steps_unique core hy h1] at he
          exact hx h0 he
        · obtain ⟨z, hz⟩ := steps_prefix core hy (k + 1) (by omega)
          obtain ⟨z', hz'⟩ := steps_last core hz x h1
          rw [hq] at hz'
          cases hz'
  · rintro ⟨⟨k, hk⟩, hne⟩
    obtain ⟨x, hx, hq⟩ := hk
    rcases hy : core.step1 x with ⟨o, y⟩
    rw [hy] at hq
    cases hq
    refine ⟨k + 1, { s with core := y.1, mem := y.2 }, ?_⟩
    unfold waitForTermination
    rw [waitLoop_fail core k (k + 1) s x y (by omega) hx (fun j z hj _ hz hend => hne ⟨j, hj, z, hz, hend⟩) hy]
    rfl

/-- C113: so it returns if and only if the program ends or a step fails. -/
theorem C113_returns (core : Core ρ) (timeout : BitVec 32) (s : St ρ) :
    (∃ fuel a, waitForTermination core fuel timeout s = some a) ↔
      (∃ k, EndsAfter core s k) ∨ ∃ k, FailsAfter core s k := by
  constructor
  · rintro ⟨fuel, ⟨r, s'⟩, h⟩
    cases r with
    | true => exact Or.inl ((C113_true core timeout s).1 ⟨fuel, s', h⟩)
    | false => exact Or.inr ((C113_false core timeout s).1 ⟨fuel, s', h⟩).1
  · intro h
    by_cases he : ∃ k, EndsAfter core s k
    · obtain ⟨fuel, s', h⟩ := (C113_true core timeout s).2 he
      exact ⟨fuel, _, h⟩
    · obtain ⟨fuel, s', h⟩ := (C113_false core timeout s).2 ⟨h.resolve_left he, he⟩
      exact ⟨fuel, _, h⟩

/-- C113: it returns one result only; neither the timeout nor how long one looks has an influence. -/
theorem C113_same (core : Core ρ) (fuel fuel' : Nat) (t t' : BitVec 32) (s : St ρ) (a b : Bool × St ρ)
    (ha : waitForTermination core fuel t s = some a) (hb : waitForTermination core fuel' t' s = some b) : a = b := by
  have key : ∀ (fuel fuel' : Nat) (s : St ρ) (a b : Bool × St ρ), waitLoop core fuel s = some a →
      waitLoop core fuel' s = some b → a = b := by
    intro fuel
    induction fuel with
    | zero => intro _ _ _ _ h; cases h
    | succ f ih =>
      intro fuel' s a b ha hb
      cases fuel' with
      | zero => cases hb
      | succ f' =>
        unfold waitLoop at ha hb
        rcases hq : core.step1 (s.core, s.mem) with ⟨o, c1, m1⟩
        rw [hq] at ha hb
        cases o with
        | none =>
          rw [← Option.some.inj ha, ← Option.some.inj hb]
        | some u =>
          dsimp only at ha hb
          split at ha
          · rename_i hc
            rw [if_pos hc] at hb
            rw [← Option.some.inj ha, ← Option.some.inj hb]
          · rename_i hc
            rw [if_neg hc] at hb
            exact ih f' _ a b ha hb
  unfold waitForTermination at ha hb
  cases hl : waitLoop core fuel s with
  | none => rw [hl] at ha; cases ha
  | some p =>
    cases hl' : waitLoop core fuel' s with
    | none => rw [hl'] at hb; cases hb
    | some p' =>
      have e := key fuel fuel' s p p' hl hl'
      subst e
      rw [hl] at ha
      rw [hl'] at hb
      exact Option.some.inj (ha.symm.trans hb)

/-! ## Jobs -/

/-- The four words of the mailbox are `m`. -/
def Message (mem : Mem) (m : Mailbox) : Prop := ∀ i : Fin 4, WordIs mem (0x401fc000 + 4 * i.val) (m i)

/-- A program that answers messages. `inv v` holds of the core and the memory when the service is in state `v`; it depends
on the bytes of `keep` only, which leave out the mailbox, and not on the pc. Started at `start` with a message, the program
runs to its first end, where the mailbox holds the answer and the service is in its next state. -/
structure Serves (core : Core ρ) (start : BitVec 32) (keep : Nat → Prop) (inv : σ → ρ × Mem → Prop)
    (f : σ → Mailbox → σ × Mailbox) : Prop where
  apart : ∀ q, keep q → q < 0x401fc000 ∨ 0x401fc010 ≤ q
  local_ : ∀ v r mem mem', inv v (r, mem) → (∀ q, keep q → mem' q = mem q) → inv v (r, mem')
  anyPc : ∀ v r mem a, inv v (r, mem) → inv v (core.setPc a r, mem)
  answer : ∀ v r mem m, inv v (r, mem) → Message mem m → ∃ k x, 0 < k ∧ Steps core k (core.setPc start r, mem) x ∧
    (∀ j y, 0 < j → j < k → Steps core j (core.setPc start r, mem) y → ¬ Ended (core.pc y.1).toNat y.2) ∧
    Ended (core.pc x.1).toNat x.2 ∧ Message x.2 (f v m).2 ∧ inv (f v m).1 x

/-- The answers to a sequence of messages. -/
def answers (f : σ → Mailbox → σ × Mailbox) : σ → List Mailbox → List Mailbox
  | _, [] => []
  | v, m :: ms => (f v m).2 :: answers f (f v m).1 ms

/-- The state of the service after them. -/
def settled (f : σ → Mailbox → σ × Mailbox) : σ → List Mailbox → σ
  | v, [] => v
  | v, m :: ms => settled f (f v m).1 ms

/-- The host leaves the bytes of `keep` alone. -/
def Spares (keep : Nat → Prop) : Op → Prop
  | .writeTcm a d => ∀ q, keep q → q < a.toNat ∨ a.toNat + d.length ≤ q
  | _ => True

/-- A host that, for each job, makes some calls, writes the message, starts the program, waits, and reads the mailbox. -/
def jobs (core : Core ρ) (fuel : Nat) (start timeout : BitVec 32) : List (List Op × Mailbox) → St ρ →
    Option (List Mailbox × St ρ)
  | [], s => some ([], s)
  | (ops, m) :: js, s =>
    match waitForTermination core fuel timeout
        (run core start (writeMailbox m (ops.foldl (fun s op => exec core op s) s))) with
    | some (true, s') =>
      (jobs core fuel start timeout js (readMailbox s').2).map fun (as, s'') => ((readMailbox s').1 :: as, s'')
    | _ => none

/-- C113: every job is answered as the service says, and `ReadMailbox` returns the answer. -/
theorem C113_jobs {core : Core ρ} {start : BitVec 32} {keep : Nat → Prop} {inv : σ → ρ × Mem → Prop}
    {f : σ → Mailbox → σ × Mailbox} (hS : Serves core start keep inv f) (timeout : BitVec 32)
    (js : List (List Op × Mailbox)) (hj : ∀ j ∈ js, ∀ op ∈ j.1, Spares keep op) (v : σ) (s : St ρ)
    (hi : inv v (s.core, s.mem)) :
    ∃ N s', inv (settled f v (js.map (·.2))) (s'.core, s'.mem) ∧
      ∀ fuel, N ≤ fuel → jobs core fuel start timeout js s = some (answers f v (js.map (·.2)), s') := by
  induction js generalizing v s with
  | nil => exact ⟨0, s, hi, fun _ _ => rfl⟩
  | cons j js ih =>
    obtain ⟨ops, m⟩ := j
    have pre : ∀ (ops : List Op) (s : St ρ), (∀ op ∈ ops, Spares keep op) → inv v (s.core, s.mem) →
        inv v ((ops.foldl (fun s op => exec core op s) s).core, (ops.foldl (fun s op => exec core op s) s).mem) := by
      intro ops
      induction ops with
      | nil => exact fun s _ h => h
      | cons op ops ih =>
        intro s h hi
        refine ih _ (fun o ho => h o (List.mem_cons_of_mem _ ho)) ?_
        have ho := h op (by simp)
        cases op with
        | readTcm a n => exact hi
        | readMailbox => exact hi
        | run a => exact hS.anyPc _ _ _ _ hi
        | writeTcm a d =>
          exact hS.local_ _ _ _ _ hi (fun q hq => writeTcm_outside a d s q (ho q hq))
    have hi1 := pre ops s (hj (ops, m) (by simp)) hi
    obtain ⟨s1, e1⟩ : ∃ s1, s1 = ops.foldl (fun s op => exec core op s) s := ⟨_, rfl⟩
    rw [← e1] at hi1
    have hi2 : inv v ((writeMailbox m s1).core, (writeMailbox m s1).mem) :=
      hS.local_ _ _ _ _ hi1 (fun q hq => (C59_mailbox_frame m s1).2.2 q (hS.apart q hq))
    obtain ⟨k, x, hk, hx, hn, he, hm, hv⟩ := hS.answer v _ _ m hi2 (writeMailbox_word m s1)
    obtain ⟨s2, e2⟩ : ∃ s2, s2 = run core start (writeMailbox m s1) := ⟨_, rfl⟩
    obtain ⟨s3, e3⟩ : ∃ s3 : St ρ, s3 = fetchMailbox { s2 with core := x.1, mem := x.2 } := ⟨_, rfl⟩
    have hw : ∀ fuel, k ≤ fuel → waitForTermination core fuel timeout s2 = some (true, s3) := by
      intro fuel hf
      unfold waitForTermination
      rw [waitLoop_end core k fuel s2 x hk hf (by rw [e2]; exact hx) (by rw [e2]; exact hn) he, e3]
      rfl
    have ha : (readMailbox s3).1 = (f v m).2 := fetchMailbox_of_words _ _ (by rw [e3]; exact hm)
    obtain ⟨N, s', hs, hN⟩ := ih (fun j h => hj j (List.mem_cons_of_mem _ h)) (f v m).1 (readMailbox s3).2
      (by rw [e3]; exact hv)
    refine ⟨max k N, s', hs, fun fuel hf => ?_⟩
    have hs' := hN fuel (by omega)
    unfold jobs
    rw [← e1, ← e2, hw fuel (by omega)]
    dsimp only
    rw [hs', ha]
    rfl

/-! ## A service -/

/-- A core with an accumulator: the word 0x33 adds the first word of the mailbox to it and puts the sum into the second
word; any other word goes on. -/
def accCore : Core (BitVec 32 × BitVec 32) where
  pc r := r.1
  setPc a r := (a, r.2)
  step1 x := if wordAt x.2 x.1.1.toNat = 0x33#32 then
      (some (), (x.1.1 + 4, x.1.2 + wordAt x.2 0x401fc000),
        storeMemory x.2 0x401fc004 4 (x.1.2 + wordAt x.2 0x401fc000))
    else (some (), (x.1.1 + 4, x.1.2), x.2)

/-- The running sum of the first words, put into the second. -/
def sumService (v : BitVec 32) (m : Mailbox) : BitVec 32 × Mailbox :=
  (v + m 0, fun i => if i = 1 then v + m 0 else m i)

def sumInv (v : BitVec 32) (x : (BitVec 32 × BitVec 32) × Mem) : Prop :=
  x.1.2 = v ∧ WordIs x.2 0x100 0x33#32 ∧ WordIs x.2 0x104 0x08000073#32

theorem sum_serves : Serves accCore 0x100 (fun q => 0x100 ≤ q ∧ q < 0x108) sumInv sumService where
  apart q h := by omega
  local_ v r mem mem' h hq := by
    obtain ⟨h1, h2, h3⟩ := h
    refine ⟨h1, fun i hi => ?_, fun i hi => ?_⟩
    · show (mem' _).toNat = _
      rw [hq _ (by omega)]; exact h2 i hi
    · show (mem' _).toNat = _
      rw [hq _ (by omega)]; exact h3 i hi
  anyPc v r mem a h := h
  answer v r mem m h hm := by
    obtain ⟨h1, h2, h3⟩ := h
    dsimp only at h1 h2 h3
    have hw : wordAt mem 0x401fc000 = m 0 := (wordAt_iff _ _ _).2 (hm 0)
    have hst := storeMemory_stored mem 0x401fc004 4 (v + m 0)
    have hq : accCore.step1 (accCore.setPc 0x100 r, mem) =
        (some (), (0x104, v + m 0), storeMemory mem 0x401fc004 4 (v + m 0)) := by
      show (if wordAt mem 0x100 = 0x33#32 then _ else _) = _
      rw [if_pos ((wordAt_iff _ _ _).2 h2)]
      show (some (), (_, r.2 + wordAt mem 0x401fc000), storeMemory mem 0x401fc004 4 (r.2 + wordAt mem 0x401fc000)) = _
      rw [hw, h1]
      rfl
    have k3 : WordIs (storeMemory mem 0x401fc004 4 (v + m 0)) 0x104 0x08000073#32 := fun i hi => by
      rw [hst.2 _ (by omega)]; exact h3 i hi
    refine ⟨1, _, by omega, .succ 0 _ _ _ hq (.zero _), fun j y _ _ => by omega, Or.inr (Or.inl k3), ?_, rfl, ?_, k3⟩
    · intro i
      by_cases hi : i = 1
      · subst hi
        exact hst.1
      · intro b hb
        have hi' : i.val ≠ 1 := fun e => hi (Fin.ext e)
        show (storeMemory mem 0x401fc004 4 (v + m 0) _).toNat = (if i = 1 then v + m 0 else m i).toNat / _ % _
        rw [hst.2 _ (by omega), if_neg hi]
        exact hm i b hb
    · intro i hi
      show (storeMemory mem 0x401fc004 4 (v + m 0) _).toNat = _
      rw [hst.2 _ (by omega)]; exact h2 i hi

/-- Three jobs with calls in between: the answers are the running sums. -/
example :
    let prog : Mem := fun a => if a = 0x100 then 0x33 else if a = 0x104 then 0x73 else if a = 0x107 then 8 else 0
    let msg (n : Nat) : Mailbox := fun i => if i = 0 then BitVec.ofNat 32 n else 9
    (jobs accCore 5 0x100 0 [([], msg 5), ([.writeTcm 0x1000 [1, 2, 3], .run 0x40], msg 7), ([.readMailbox], msg 30)]
      ⟨fun _ => 0, prog, (0, 0)⟩).map (fun r => r.1.map fun m => (m 0, m 1, m 2)) =
      some [(5, 5, 9), (7, 12, 9), (30, 42, 9)] := by decide +kernel

/-- A program that has no end and no failing step is waited for for ever: the condition of `C113_returns` is needed. -/
example (timeout : BitVec 32) : ¬ ((∃ k, EndsAfter pcCore ⟨fun _ => 0, fun a => if a = 0 then 0x6f else 0, 0⟩ k) ∨
    ∃ k, FailsAfter pcCore ⟨fun _ => 0, fun a => if a = 0 then 0x6f else 0, 0⟩ k) := by
  rw [← C113_returns pcCore timeout]
  rintro ⟨fuel, a, h⟩
  rw [C59_timeout_unused] at h
  cases h

end Verif.Props
