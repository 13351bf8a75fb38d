import Verif.Proofs.RenodeTotal
import Verif.Props.RenodeCore

/-!
# C110: exactly which calls of the Renode interface end the process

The composed model of C93: the C functions, the agent, the run control and the debug memory. `Still` says that the registers
outside the table and the ELF loader leave the run control alone.
-/

namespace Verif.Props

open Verif Verif.Model Verif.Model.Agent Verif.Model.RenodeCore Verif.Proofs.RenodeTotal
open Verif.Spec.Agent (live)
open Verif.Model.Top (St fresh)

variable {σ : Type}

/-- The calls without defined behaviour after the history `tr`, with a name buffer of `cap` bytes. -/
def CallUndefined (cap : Nat) (tr : List (Call × Reply)) : Call → Prop
  | .loadExecutable _ _ statusNull => statusNull = true
  | .regInfo id index infoNull => infoNull = false ∧ live (events tr) id = true ∧ index.toNat < 33 ∧
      ∃ len, givenLen tr id = some len ∧ (len.toInt < 0 ∨ (cap : Int) < len.toInt)
  | _ => False

/-- The calls that stop the process. -/
def CallAborts (tr : List (Call × Reply)) : Call → Prop
  | .readMemory id ad len => live (events tr) id = true ∧ ad.toNat < 0x400000 ∧ len = 0
  | .writeMemory id ad b => live (events tr) id = true ∧ ad.toNat < 0x400000 ∧ b = []
  | _ => False

/-- C110: after any history with fewer than 2^32 `construct` calls, a call has undefined behaviour exactly if it is
`load_executable` with a null status pointer, or asks for the information about an existing register of a live instance whose
name length, given at `construct`, is negative or longer than the buffer; it stops the process exactly if it reads or writes no
bytes at an existing address of a live instance; every other call returns. -/
theorem C110_exact (R : Params σ) (hR : Still R) (hcap : R.cap < 2 ^ 31) (cs : List Call) (tr : List (Call × Reply))
    (a : Agent (St σ)) (hb : constructs cs < 2 ^ 32) (h : calls (core R) cs empty = .ok (tr, a)) (c : Call) :
    (call (core R) c a = .ub ↔ CallUndefined R.cap tr c) ∧ (call (core R) c a = .abort ↔ CallAborts tr c) ∧
    ((∃ r a', call (core R) c a = .ok (r, a')) ↔ ¬ CallUndefined R.cap tr c ∧ ¬ CallAborts tr c) := by
  have hinv : Proofs.Agent.Inv (events tr) a := by
    have := Proofs.Agent.calls_inv (core R) cs [] empty a tr Proofs.Agent.inv_empty
      (by show 0 + constructs cs < 2 ^ 32; omega) h
    simpa using this
  have hidle : ∀ id s, a.inst id = some s → Idle s :=
    Proofs.RenodeCore.calls_inv (core R) Idle (keeps R hR) cs empty (fun _ _ h => nomatch h) tr a h
  have hlen : ∀ id, a.nameLen id = givenLen tr id := fun id => by
    rw [calls_len R cs empty a tr h id]; rfl
  have live_none : ∀ id, a.inst id = none → ¬ live (events tr) id = true := fun id hn => by
    rw [hinv.inst id, hn]; simp
  have live_some : ∀ id s, a.inst id = some s → live (events tr) id = true := fun id s hs => by
    rw [hinv.inst id, hs]; rfl
  suffices key : (call (core R) c a = .ub ∧ CallUndefined R.cap tr c ∧ ¬ CallAborts tr c) ∨
      (call (core R) c a = .abort ∧ ¬ CallUndefined R.cap tr c ∧ CallAborts tr c) ∨
      ((∃ x, call (core R) c a = .ok x) ∧ ¬ CallUndefined R.cap tr c ∧ ¬ CallAborts tr c) by
    rcases key with ⟨e, h1, h2⟩ | ⟨e, h1, h2⟩ | ⟨⟨x, e⟩, h1, h2⟩ <;> rw [e]
    · exact ⟨⟨fun _ => h1, fun _ => rfl⟩, ⟨fun h => (nomatch h), fun h => absurd h h2⟩,
        ⟨fun ⟨_, _, h⟩ => (nomatch h), fun h => absurd h1 h.1⟩⟩
    · exact ⟨⟨fun h => (nomatch h), fun h => absurd h h1⟩, ⟨fun _ => h2, fun _ => rfl⟩,
        ⟨fun ⟨_, _, h⟩ => (nomatch h), fun h => absurd h2 h.2⟩⟩
    · exact ⟨⟨fun h => (nomatch h), fun h => absurd h h1⟩, ⟨fun h => (nomatch h), fun h => absurd h h2⟩,
        ⟨fun _ => ⟨h1, h2⟩, fun _ => ⟨x.1, x.2, rfl⟩⟩⟩
  cases c with
  | construct len mem => exact Or.inr (Or.inr ⟨⟨_, rfl⟩, id, id⟩)
  | destruct i => exact Or.inr (Or.inr ⟨⟨_, rfl⟩, id, id⟩)
  | reset i => exact Or.inr (Or.inr ⟨⟨_, rfl⟩, id, id⟩)
  | regInfoSize i => exact Or.inr (Or.inr ⟨⟨_, rfl⟩, id, id⟩)
  | readRegister i r nl => exact Or.inr (Or.inr ⟨⟨_, rfl⟩, id, id⟩)
  | writeRegister i r v => exact Or.inr (Or.inr ⟨⟨_, rfl⟩, id, id⟩)
  | halt i nl => exact Or.inr (Or.inr ⟨⟨_, rfl⟩, id, id⟩)
  | loadExecutable i f nl =>
    cases nl with
    | true => exact Or.inl ⟨rfl, rfl, id⟩
    | false =>
      refine Or.inr (Or.inr ⟨?_, Bool.false_ne_true, id⟩)
      simp only [call, loadExecutable, Bool.false_eq_true, if_false]
      split
      · exact ⟨_, rfl⟩
      · split
        · exact ⟨_, rfl⟩
        · split <;> exact ⟨_, rfl⟩
  | loadImage i f ad =>
    refine Or.inr (Or.inr ⟨?_, id, id⟩)
    simp only [call, Model.Agent.loadImage]
    cases hs : a.inst i with
    | none => exact ⟨_, rfl⟩
    | some s =>
      obtain ⟨r, hr⟩ := loadImage_total R f ad (hidle i s hs).1
      exact ⟨_, by simp only [hr]; rfl⟩
  | step i n nl =>
    refine Or.inr (Or.inr ⟨?_, id, id⟩)
    simp only [call, Model.Agent.step]
    cases hs : a.inst i with
    | none => exact ⟨_, rfl⟩
    | some s =>
      dsimp only
      split
      · exact ⟨_, rfl⟩
      · split
        · exact ⟨_, rfl⟩
        · split
          · exact ⟨_, rfl⟩
          · obtain ⟨r, hr⟩ := stepLoop_total (core := core R) (step_total R) n.toNat n 0 s (Nat.le_refl _) (hidle i s hs)
            exact ⟨_, by rw [hr]; rfl⟩
  | readMemory i ad len =>
    simp only [call, Model.Agent.readMemory, CallUndefined, CallAborts]
    cases hs : a.inst i with
    | none => exact Or.inr (Or.inr ⟨⟨_, rfl⟩, id, fun h => live_none i hs h.1⟩)
    | some s =>
      dsimp only
      rcases readMem_exact R ad len (hidle i s hs).1 with ⟨e, h1⟩ | ⟨⟨r, e⟩, h1⟩
      · rw [e]
        exact Or.inr (Or.inl ⟨rfl, id, live_some i s hs, h1⟩)
      · rw [e]
        refine Or.inr (Or.inr ⟨?_, id, fun h => h1 h.2⟩)
        cases r <;> exact ⟨_, rfl⟩
  | writeMemory i ad b =>
    simp only [call, Model.Agent.writeMemory, CallUndefined, CallAborts]
    cases hs : a.inst i with
    | none => exact Or.inr (Or.inr ⟨⟨_, rfl⟩, id, fun h => live_none i hs h.1⟩)
    | some s =>
      dsimp only
      rcases writeMem_exact R ad b (hidle i s hs).1 with ⟨e, h1⟩ | ⟨⟨r, e⟩, h1⟩
      · rw [e]
        exact Or.inr (Or.inl ⟨rfl, id, live_some i s hs, h1⟩)
      · rw [e]
        exact Or.inr (Or.inr ⟨⟨_, rfl⟩, id, fun h => h1 h.2⟩)
  | regInfo i index nl =>
    simp only [call, Model.Agent.regInfo, CallUndefined, CallAborts]
    cases nl with
    | true => exact Or.inr (Or.inr ⟨⟨_, rfl⟩, fun h => (nomatch h.1), id⟩)
    | false =>
      simp only [Bool.false_eq_true, if_false]
      cases hs : a.inst i with
      | none => exact Or.inr (Or.inr ⟨⟨_, rfl⟩, fun h => live_none i hs h.2.1, id⟩)
      | some s =>
        have hn := hinv.len i (by rw [hs]; rfl)
        cases hl : a.nameLen i with
        | none => rw [hl] at hn; cases hn
        | some len =>
          dsimp only
          have hg : givenLen tr i = some len := by rw [← hlen i, hl]
          rcases regInfo_exact R hcap index len s with ⟨e, h1, h2⟩ | ⟨⟨r, e⟩, h1⟩
          · rw [e]
            exact Or.inl ⟨rfl, ⟨trivial, live_some i s hs, h1, len, hg, h2⟩, id⟩
          · rw [e]
            refine Or.inr (Or.inr ⟨by cases r <;> exact ⟨_, rfl⟩, ?_, id⟩)
            rintro ⟨-, -, h2, len', h3, h4⟩
            rw [hg] at h3
            cases h3
            exact h1 ⟨h2, h4⟩

/-- The rules a host can keep without knowing which instances are live. -/
def Careful (cap : Nat) : Call → Prop
  | .construct len _ => 0 ≤ len.toInt ∧ len.toInt ≤ cap
  | .loadExecutable _ _ statusNull => statusNull = false
  | .readMemory _ _ len => len ≠ 0
  | .writeMemory _ _ b => b ≠ []
  | _ => True

theorem givenLen_mem {tr : List (Call × Reply)} {id len : BitVec 32} (h : givenLen tr id = some len) :
    ∃ mem r, (Call.construct len mem, r) ∈ tr := by
  unfold givenLen at h
  obtain ⟨⟨c, r⟩, h1, h2⟩ := List.exists_of_findSome?_eq_some h
  cases c with
  | construct l mem =>
    dsimp only at h2
    split at h2
    · cases h2; exact ⟨mem, r, h1⟩
    · cases h2
  | _ => cases h2

theorem calls_append (core : Core σ) : ∀ (cs ds : List Call) (a : Agent σ), calls core (cs ++ ds) a =
    calls core cs a >>= fun r => calls core ds r.2 >>= fun r' => .ok (r.1 ++ r'.1, r'.2)
  | [], ds, a => by
    show calls core ds a = calls core ds a >>= fun r' => .ok ([] ++ r'.1, r'.2)
    cases calls core ds a <;> rfl
  | c :: cs, ds, a => by
    show (call core c a >>= fun r => calls core (cs ++ ds) r.2 >>= _) = (call core c a >>= fun r => calls core cs r.2 >>= _) >>= _
    cases call core c a with
    | ub => rfl
    | abort => rfl
    | ok r =>
      rw [Outcome.ok_bind, Outcome.ok_bind, calls_append core cs ds r.2]
      cases calls core cs r.2 with
      | ub => rfl
      | abort => rfl
      | ok x =>
        simp only [Outcome.ok_bind]
        cases calls core ds x.2 <;> rfl

theorem calls_fst (core : Core σ) : ∀ (cs : List Call) (a : Agent σ) (tr : List (Call × Reply)) (a' : Agent σ),
    calls core cs a = .ok (tr, a') → tr.map Prod.fst = cs
  | [], a, tr, a', h => by cases h; rfl
  | c :: cs, a, tr, a', h => by
    unfold calls at h
    cases hc : call core c a with
    | ub => rw [hc] at h; cases h
    | abort => rw [hc] at h; cases h
    | ok x =>
      rw [hc, Outcome.ok_bind] at h
      cases hr : calls core cs x.2 with
      | ub => rw [hr] at h; cases h
      | abort => rw [hr] at h; cases h
      | ok y =>
        rw [hr, Outcome.ok_bind] at h
        cases h
        rw [List.map_cons, calls_fst core cs x.2 y.1 _ hr]

/-- C110: a host that gives every instance a name length that fits its buffer, never passes a null status to `load_executable`
and never asks for a transfer of no bytes, can make any calls in any order, with any identifiers, addresses, register numbers,
files and step counts: every call returns. -/
theorem C110_careful (R : Params σ) (hR : Still R) (hcap : R.cap < 2 ^ 31) (cs : List Call) (hb : constructs cs < 2 ^ 32)
    (hc : ∀ c ∈ cs, Careful R.cap c) : ∃ tr a, calls (core R) cs empty = .ok (tr, a) ∧ tr.map Prod.fst = cs := by
  suffices h : ∀ n, ∃ tr a, calls (core R) (cs.take n) empty = .ok (tr, a) by
    obtain ⟨tr, a, h⟩ := h cs.length
    rw [List.take_length] at h
    exact ⟨tr, a, h, calls_fst _ _ _ _ _ h⟩
  intro n
  induction n with
  | zero => exact ⟨[], empty, rfl⟩
  | succ n ih =>
    obtain ⟨tr, a, h⟩ := ih
    by_cases hn : n < cs.length
    · have ht := calls_fst _ _ _ _ _ h
      have hcon : constructs (cs.take n) < 2 ^ 32 :=
        Nat.lt_of_le_of_lt (List.Sublist.length_le ((List.take_sublist n cs).filter _)) hb
      have hcc := hc cs[n] (List.getElem_mem hn)
      obtain ⟨r, a', e⟩ := (C110_exact R hR hcap (cs.take n) tr a hcon h cs[n]).2.2.2 (by
        generalize cs[n] = c at hcc
        cases c with
        | loadExecutable i f nl =>
          refine ⟨fun h => ?_, id⟩
          rw [show nl = false from hcc] at h
          cases h
        | readMemory i ad len => exact ⟨id, fun h => hcc h.2.2⟩
        | writeMemory i ad b => exact ⟨id, fun h => hcc h.2.2⟩
        | regInfo i index nl =>
          refine ⟨?_, id⟩
          rintro ⟨-, -, -, len, h1, h2⟩
          obtain ⟨mem, r, h3⟩ := givenLen_mem h1
          have h4 : Call.construct len mem ∈ cs.take n := by
            rw [← ht]; exact List.mem_map_of_mem (f := Prod.fst) h3
          have h5 : 0 ≤ len.toInt ∧ len.toInt ≤ R.cap := hc _ (List.mem_of_mem_take h4)
          omega
        | _ => exact ⟨id, id⟩)
      refine ⟨tr ++ [(cs[n], r)], a', ?_⟩
      rw [List.take_succ_eq_append_getElem hn, calls_append, h, Outcome.ok_bind]
      show (calls (core R) [cs[n]] a >>= _) = _
      unfold calls
      rw [e]
      rfl
    · rw [List.take_of_length_le (by omega)] at h ⊢
      exact ⟨tr, a, h⟩

/-! ## Examples -/

example (keep : Nat → Nat → Bool) (m : Spec.Program.Machine VecRegs) : Still (addCore keep m) :=
  ⟨fun _ _ _ h => h, fun _ _ h => h⟩

/-- The rules can be kept, and each is needed. -/
example (keep : Nat → Nat → Bool) (m : Spec.Program.Machine VecRegs) :
    (∀ c ∈ [Call.construct 32 none, .regInfo 0 5 false, .step 0 1000 true, .readMemory 7 0x400000 4, .destruct 0, .destruct 0],
      Careful (addCore keep m).cap c) ∧
    calls (core (addCore keep m)) [.construct 32 none, .readMemory 0 0x1000 0] empty = .abort ∧
    calls (core (addCore keep m)) [.construct 32 none, .writeMemory 0 0x3fffff []] empty = .abort ∧
    (∃ r, calls (core (addCore keep m)) [.construct 32 none, .readMemory 0 0x400000 0, .destruct 0, .readMemory 0 0x1000 0] empty = .ok r) ∧
    calls (core (addCore keep m)) [.loadExecutable 3 [] true] empty = .ub ∧
    calls (core (addCore keep m)) [.construct (-1) none, .regInfo 0 5 false] empty = .ub ∧
    (∃ r, calls (core (addCore keep m)) [.construct (-1) none, .regInfo 0 33 false] empty = .ok r) := by
  refine ⟨by simp [Careful, addCore], rfl, rfl, ⟨_, rfl⟩, rfl, rfl, ⟨_, rfl⟩⟩

end Verif.Props
