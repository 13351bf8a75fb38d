import Verif.Proofs.HwSim

/-!
# C58, C59: scalar stores and the hardware-simulator wrapper
-/

namespace Verif.Props

open Verif Verif.Model.HwSim Verif.Spec.HwSim Verif.Proofs.HwSim

/-! ## C58 -/

/-- The widths of `sb`, `sh` and `sw`. -/
def storeWidth : Size → Nat
  | .b => 1 | .h => 2 | .w => 4

theorem storeWidth_eq (sz : Size) : sz.bytes = storeWidth sz := by cases sz <;> rfl

/-- C58: on the standard configuration (`max_physical_address` up to 0x3fffff) a store of one, two or four bytes puts the
low bytes of the value at base plus offset modulo 2^31, that is, modulo 2^32 with bit 31 cleared, and touches no other
byte. -/
theorem C58_store (maxPhys : BitVec 64) (hm : maxPhys.toNat ≤ 0x3fffff) (sz : Size) (base offset value : BitVec 32)
    (mem : Mem) :
    Stored (((base.toNat : Int) + offset.toInt) % 2 ^ 31).toNat (storeWidth sz) value mem
      (istore maxPhys sz base offset value mem) := by
  have ha : (((base + offset).zeroExtend 64 &&& memMask).truncate 32 : BitVec 32).toNat =
      (((base.toNat : Int) + offset.toInt) % 2 ^ 31).toNat := by
    rw [mask_toNat, BitVec.toNat_add, BitVec.toInt_eq_toNat_cond]
    split <;> omega
  unfold istore
  dsimp only
  rw [if_pos (by rw [show maxMemoryAddress.toNat = 0x3fffff by decide]; exact hm), ha]
  rw [storeWidth_eq]
  exact storeMemory_stored _ _ _ _

/-- C58: on larger configurations, which semihosting uses, bit 31 is kept. -/
theorem C58_store_semihost (maxPhys : BitVec 64) (hm : 0x3fffff < maxPhys.toNat) (sz : Size)
    (base offset value : BitVec 32) (mem : Mem) :
    Stored (((base.toNat : Int) + offset.toInt) % 2 ^ 32).toNat (storeWidth sz) value mem
      (istore maxPhys sz base offset value mem) := by
  have ha : (base + offset).toNat = (((base.toNat : Int) + offset.toInt) % 2 ^ 32).toNat := by
    rw [BitVec.toNat_add, BitVec.toInt_eq_toNat_cond]
    split <;> omega
  unfold istore
  dsimp only
  rw [if_neg (by rw [show maxMemoryAddress.toNat = 0x3fffff by decide]; omega), ha]
  rw [storeWidth_eq]
  exact storeMemory_stored _ _ _ _

/-- C58: an address and its alias with bit 31 set are the same place. -/
theorem C58_alias (maxPhys : BitVec 64) (hm : maxPhys.toNat ≤ 0x3fffff) (sz : Size) (base offset value : BitVec 32)
    (mem : Mem) : istore maxPhys sz (base + 0x80000000) offset value mem = istore maxPhys sz base offset value mem := by
  have h := C58_store maxPhys hm sz (base + 0x80000000) offset value mem
  have h' := C58_store maxPhys hm sz base offset value mem
  have e : ((((base + 0x80000000).toNat : Int) + offset.toInt) % 2 ^ 31).toNat =
      (((base.toNat : Int) + offset.toInt) % 2 ^ 31).toNat := by
    rw [BitVec.toNat_add, show (2147483648 : BitVec 32).toNat = 2147483648 from rfl]
    omega
  rw [e] at h
  exact stored_unique h h'

/-- `sh` of 0x12345678 at 0x80000104 - 4: two bytes at 0x100. -/
example : (List.range 4).map (fun i => istore 0x3fffff .h 0x80000104 0xfffffffc 0x12345678 (fun _ => 0xee) (0xff + i)) =
    [0xee, 0x78, 0x56, 0xee] := by decide +kernel

/-! ## C59 -/

variable {ρ : Type}

/-- The call does not write to the 16 bytes of the mailbox. -/
def SparesMailbox : Op → Prop
  | .writeTcm a d => a.toNat + d.length ≤ 0x401fc000 ∨ 0x401fc010 ≤ a.toNat
  | _ => True

/-- C59: `ReadMailbox` returns what `WriteMailbox` wrote, whatever calls that do not write there come between. -/
theorem C59_mailbox (core : Core ρ) (m : Mailbox) (s : St ρ) (ops : List Op) (h : ∀ op ∈ ops, SparesMailbox op) :
    (readMailbox (ops.foldl (fun s op => exec core op s) (writeMailbox m s))).1 = m := by
  have key : ∀ (ops : List Op) (s : St ρ), (∀ op ∈ ops, SparesMailbox op) →
      (∀ k : Fin 4, WordIs s.mem (addrMailbox + 4 * k.val) (m k)) →
      ∀ k : Fin 4, WordIs (ops.foldl (fun s op => exec core op s) s).mem (addrMailbox + 4 * k.val) (m k) := by
    intro ops
    induction ops with
    | nil => exact fun s _ hs => hs
    | cons op ops ih =>
      intro s h hs
      refine ih _ (fun o ho => h o (List.mem_cons_of_mem _ ho)) ?_
      have ho := h op (by simp)
      cases op with
      | readTcm a n => exact hs
      | readMailbox => exact hs
      | run a => exact hs
      | writeTcm a d =>
        intro k i hi
        have ho : a.toNat + d.length ≤ 0x401fc000 ∨ 0x401fc010 ≤ a.toNat := ho
        show ((writeTcm a d s).mem (addrMailbox + 4 * k.val + i)).toNat = _
        rw [writeTcm_outside a d s _ (by unfold addrMailbox; omega)]
        exact hs k i hi
  exact fetchMailbox_of_words _ _ (key ops _ h (writeMailbox_word m s))

/-- C59: the write touches nothing else, and the copy of the wrapper is the message. -/
theorem C59_mailbox_frame (m : Mailbox) (s : St ρ) : (writeMailbox m s).mailbox = m ∧
    (writeMailbox m s).core = s.core ∧
    ∀ q, q < 0x401fc000 ∨ 0x401fc010 ≤ q → (writeMailbox m s).mem q = s.mem q := by
  refine ⟨rfl, rfl, fun q hq => ?_⟩
  have hl : (mailboxBytes m).length = 16 := by simp [mailboxBytes]
  exact writeTcm_outside _ _ { s with mailbox := m } q
    (by rw [hl, show (0x401fc000 : BitVec 32).toNat = 0x401fc000 by decide]; omega)

/-- C59: `Run` changes the pc only, and reading the mailbox or the memory changes nothing but the wrapper's copy. -/
theorem C59_run_frame (core : Core ρ) (a : BitVec 32) (n : Nat) (s : St ρ) :
    exec core (.run a) s = ⟨s.mailbox, s.mem, core.setPc a s.core⟩ ∧ exec core (.readTcm a n) s = s ∧
    (exec core .readMailbox s).mem = s.mem ∧ (exec core .readMailbox s).core = s.core := ⟨rfl, rfl, rfl, rfl⟩

/-- C59: `ReadTCM` returns what `WriteTCM` wrote. -/
theorem C59_tcm (a : BitVec 32) (d : List (BitVec 8)) (s : St ρ) : readTcm a d.length (writeTcm a d s) = d := by
  unfold readTcm writeTcm
  apply List.ext_getElem
  · simp
  · intro i h1 h2
    simp only [List.getElem_map, List.getElem_range]
    rw [if_pos ⟨by omega, by omega⟩, show a.toNat + i - a.toNat = i by omega, List.getElem?_eq_getElem h2]
    rfl

/-- The states after `k` successful steps. -/
inductive Steps (core : Core ρ) : Nat → ρ × Mem → ρ × Mem → Prop where
  | zero (x : ρ × Mem) : Steps core 0 x x
  | succ (k : Nat) (x y z : ρ × Mem) : core.step1 x = (some (), y) → Steps core k y z → Steps core (k + 1) x z

/-- C59: when `WaitForTermination` returns true, the core has made at least one step, the program has ended, it had not
ended after any earlier step of this call, and the wrapper's copy of the mailbox is that of the memory; when it returns
false, a step has failed and the program had not ended before. The timeout has no influence. -/
theorem C59_wait (core : Core ρ) (fuel : Nat) (timeout : BitVec 32) (s s' : St ρ) (r : Bool)
    (h : waitForTermination core fuel timeout s = some (r, s')) :
    ∃ k x, Steps core k (s.core, s.mem) x ∧
      (∀ j y, 0 < j → j < k → Steps core j (s.core, s.mem) y → ¬ Ended (core.pc y.1).toNat y.2) ∧
      ((r = true ∧ 0 < k ∧ (s'.core, s'.mem) = x ∧ Ended (core.pc s'.core).toNat s'.mem ∧
          ∀ i : Fin 4, WordIs s'.mem (0x401fc000 + 4 * i.val) (s'.mailbox i)) ∨
        (r = false ∧ (0 < k → ¬ Ended (core.pc x.1).toNat x.2) ∧ core.step1 x = (none, s'.core, s'.mem) ∧
          s'.mailbox = s.mailbox)) := by
  have ended_iff : ∀ (r : ρ) (m : Mem), ((decide ((core.pc r).toNat > 0x1fff) || wordAt m (core.pc r).toNat == 0x08000073#32 ||
      wordAt m (core.pc r).toNat == 0x10500073#32) = true) ↔ Ended (core.pc r).toNat m := by
    intro r m
    unfold Ended
    rw [Bool.or_eq_true, Bool.or_eq_true, decide_eq_true_eq, beq_iff_eq, beq_iff_eq, wordAt_iff, wordAt_iff, or_assoc]
    rfl
  have key : ∀ (fuel : Nat) (s s' : St ρ) (r : Bool), waitLoop core fuel s = some (r, s') →
      s'.mailbox = s.mailbox ∧ ∃ k x, Steps core k (s.core, s.mem) x ∧
      (∀ j y, 0 < j → j < k → Steps core j (s.core, s.mem) y → ¬ Ended (core.pc y.1).toNat y.2) ∧
      ((r = true ∧ 0 < k ∧ (s'.core, s'.mem) = x ∧ Ended (core.pc s'.core).toNat s'.mem) ∨
        (r = false ∧ (0 < k → ¬ Ended (core.pc x.1).toNat x.2) ∧ core.step1 x = (none, s'.core, s'.mem))) := by
    intro fuel
    induction fuel with
    | zero => intro s s' r h; cases h
    | succ f ih =>
      intro s s' r h
      unfold waitLoop at h
      rcases hq : core.step1 (s.core, s.mem) with ⟨o, c1, m1⟩
      rw [hq] at h
      cases o with
      | none =>
        injection h with h; injection h with h1 h2; subst h1; subst h2
        exact ⟨rfl, 0, _, .zero _, fun j y h1 h2 => by omega, Or.inr ⟨rfl, fun h => by omega, hq⟩⟩
      | some u =>
        dsimp only at h
        by_cases he : Ended (core.pc c1).toNat m1
        · rw [if_pos ((ended_iff c1 m1).2 he)] at h
          injection h with h; injection h with h1 h2; subst h1; subst h2
          exact ⟨rfl, 1, (c1, m1), .succ 0 _ _ _ hq (.zero _), fun j y h1 h2 => by omega,
            Or.inl ⟨rfl, by omega, rfl, he⟩⟩
        · rw [if_neg (fun hx => he ((ended_iff c1 m1).1 hx))] at h
          obtain ⟨hmb, k, x, h1, h2, h3⟩ := ih _ _ _ h
          refine ⟨hmb, k + 1, x, .succ k _ _ _ hq h1, ?_, ?_⟩
          · intro j y hj hk hy
            cases hy with
            | zero => omega
            | succ j _ a _ e hy =>
              rw [hq] at e
              injection e with _ e
              subst e
              cases j with
              | zero => cases hy; exact he
              | succ j => exact h2 (j + 1) y (by omega) (by omega) hy
          · rcases h3 with ⟨a, b, c, d⟩ | ⟨a, b, c⟩
            · exact Or.inl ⟨a, by omega, c, d⟩
            · refine Or.inr ⟨a, fun _ => ?_, c⟩
              cases k with
              | zero => cases h1; exact he
              | succ k => exact b (by omega)
  unfold waitForTermination at h
  cases hl : waitLoop core fuel s with
  | none => rw [hl] at h; cases h
  | some p =>
    obtain ⟨b, s1⟩ := p
    rw [hl] at h
    obtain ⟨hmb, k, x, h1, h2, h3⟩ := key fuel s s1 b hl
    cases b with
    | true =>
      injection h with h; injection h with e1 e2; subst e1; subst e2
      rcases h3 with ⟨-, b, c, d⟩ | ⟨a, -⟩
      · exact ⟨k, x, h1, h2, Or.inl ⟨rfl, b, c, d, fun i => fetchMailbox_words s1 i⟩⟩
      · cases a
    | false =>
      injection h with h; injection h with e1 e2; subst e1; subst e2
      rcases h3 with ⟨a, -⟩ | ⟨-, b, c⟩
      · cases a
      · exact ⟨k, x, h1, h2, Or.inr ⟨rfl, b, c, hmb⟩⟩

/-- The core of the examples: the pc alone; an instruction word of 0x6f is a jump to itself, 0 fails, any other goes
on. -/
def pcCore : Core (BitVec 32) where
  pc r := r
  setPc a _ := a
  step1 x := if wordAt x.2 x.1.toNat = 0x6f#32 then (some (), x) else
    if wordAt x.2 x.1.toNat = 0 then (none, x) else (some (), x.1 + 4, x.2)

/-- Three instructions and a halt: the wrapper stops before the halt with the mailbox that was written. -/
example :
    let prog : Mem := fun a => if a = 0 ∨ a = 4 ∨ a = 8 then 0x13 else if a = 12 then 0x73 else if a = 15 then 8 else 0
    let s := writeMailbox (fun i => BitVec.ofNat 32 (1000 * i.val + 7)) (⟨fun _ => 0, prog, 0⟩ : St (BitVec 32))
    (waitForTermination pcCore 10 0 (run pcCore 0 s)).map (fun r => (r.1, r.2.core, r.2.mailbox 2)) =
      some (true, 12, 2007) := by decide +kernel

/-- C59, on the other hand, gives no bound: a program that loops is waited for for ever, whatever the timeout. -/
theorem C59_timeout_unused (timeout : BitVec 32) (fuel : Nat) :
    waitForTermination pcCore fuel timeout ⟨fun _ => 0, fun a => if a = 0 then 0x6f else 0, 0⟩ = none := by
  have : ∀ fuel, waitLoop pcCore fuel ⟨fun _ => 0, fun a => if a = 0 then 0x6f else 0, 0⟩ = none := by
    intro fuel
    induction fuel with
    | zero => rfl
    | succ f ih =>
      unfold waitLoop
      have e : pcCore.step1 ((0 : BitVec 32), fun a => if a = 0 then 0x6f else 0) =
          (some (), (0 : BitVec 32), fun a => if a = 0 then 0x6f else 0) := by
        unfold pcCore
        dsimp only
        rw [if_pos (by decide)]
      rw [e]
      dsimp only
      rw [if_neg (by decide)]
      exact ih
  unfold waitForTermination
  rw [this]
  rfl

/-- The test comes after the step only: a program that is at a halt when the call is made is stepped over it. -/
theorem C59_steps_past_halt :
    let prog : Mem := fun a => if a = 0 then 0x73 else if a = 3 then 8 else if a = 4 then 0x13 else
      if a = 8 then 0x73 else if a = 11 then 8 else 0
    Ended 0 prog ∧ (waitForTermination pcCore 10 0 ⟨fun _ => 0, prog, 0⟩).map (fun r => (r.1, r.2.core)) =
      some (true, 8) := by
  refine ⟨Or.inr (Or.inl ((wordAt_iff _ _ _).1 (by decide))), by decide +kernel⟩

end Verif.Props
