import Verif.Model.RegNames
import Verif.Spec.RegNames

/-! # Register access by name -/

namespace Verif.Proofs.RegNames
open Verif Verif.Model Verif.Model.RegNames Verif.Spec.RegNames

variable {κ : Type}

theorem xName_inj : ∀ i < 32, ∀ j < 32, xName i = xName j → i = j := by decide +kernel

theorem xName_pc : ∀ i < 32, xName i ≠ "pc" := by decide +kernel

/-- The position of a name among the first `i` registers. -/
def idx (alias : Nat → String) (i : Nat) (n : String) : Option Nat :=
  (List.range i).find? fun j => n == xName j || n == alias j

theorem idx_some {alias : Nat → String} {i : Nat} {n : String} {j : Nat} (h : idx alias i n = some j) :
    j < i ∧ (n = xName j ∨ n = alias j) := by
  have h1 := List.mem_of_find?_eq_some h
  have h2 := List.find?_some h
  simp only [Bool.or_eq_true, beq_iff_eq] at h2
  exact ⟨List.mem_range.1 h1, h2⟩

theorem idx_succ (alias : Nat → String) (i : Nat) (n : String) :
    idx alias (i + 1) n = (idx alias i n).or (if n = xName i ∨ n = alias i then some i else none) := by
  unfold idx
  rw [List.range_succ, List.find?_append]
  congr 1
  by_cases h : n = xName i ∨ n = alias i
  · rw [if_pos h, List.find?_cons_of_pos]
    simpa using h
  · rw [if_neg h, List.find?_cons_of_neg, List.find?_nil]
    simpa using h

/-- The state before the names are added: the pc is there, the names to be added are not. -/
structure Bare (alias : Nat → String) (s : St κ) (p : Nat) : Prop where
  pc : s.names "pc" = some p
  size : (s.data p).length = 4
  low : ∀ n k, s.names n = some k → k < s.objs
  own : ∀ n, s.names n = some p → n = "pc"
  free : ∀ i < 32, s.names (xName i) = none ∧ s.names (alias i) = none

theorem addNames_eq {alias : Nat → String} (hd : Distinct alias) {s : St κ} {p : Nat} (h : Bare alias s p) : ∀ i ≤ 32,
    (List.range i).foldl (fun s i => addAlias (xName i) (alias i) (addReg (xName i) 4 s)) s =
      { s with
        names := fun n => ((idx alias i n).map (s.objs + ·)).or (s.names n)
        objs := s.objs + i
        data := fun k => if s.objs ≤ k ∧ k < s.objs + i then List.replicate 4 0 else s.data k }
  | 0, _ => by
    have e1 : (fun k => if s.objs ≤ k ∧ k < s.objs + 0 then List.replicate 4 0 else s.data k) = s.data := by
      funext k; rw [if_neg (by omega)]
    rw [e1]
    simp [idx]
  | i + 1, hi => by
    rw [List.range_succ, List.foldl_append, addNames_eq hd h i (by omega), List.foldl_cons, List.foldl_nil]
    obtain ⟨hd1, hd2⟩ := hd
    have n1 : idx alias i (xName i) = none := by
      cases e : idx alias i (xName i) with
      | none => rfl
      | some j =>
        obtain ⟨hj, h1 | h1⟩ := idx_some e
        · have := xName_inj i (by omega) j (by omega) h1; omega
        · exact absurd h1.symm ((hd1 j (by omega)).2 i (by omega))
    have n2 : idx alias i (alias i) = none := by
      cases e : idx alias i (alias i) with
      | none => rfl
      | some j =>
        obtain ⟨hj, h1 | h1⟩ := idx_some e
        · exact absurd h1 ((hd1 i (by omega)).2 j (by omega))
        · have := hd2 i (by omega) j (by omega) h1; omega
    have ne : alias i ≠ xName i := (hd1 i (by omega)).2 i (by omega)
    obtain ⟨f1, f2⟩ := h.free i (by omega)
    unfold addReg
    simp only [n1, f1, Option.map_none, Option.none_or]
    unfold addAlias
    simp only [if_true, if_neg ne, n2, f2, Option.map_none, Option.none_or]
    congr 1
    · funext n
      rw [idx_succ]
      by_cases e1 : n = alias i
      · subst e1; simp [n2]
      · by_cases e2 : n = xName i
        · subst e2; simp [n1, e1]
        · simp [e1, e2]
    · funext k
      by_cases e : k = s.objs + i
      · subst e; rw [if_pos rfl, if_pos (by omega)]
      · rw [if_neg e]
        by_cases e' : s.objs ≤ k ∧ k < s.objs + i
        · rw [if_pos e', if_pos (by omega)]
        · rw [if_neg e', if_neg (by omega)]

/-- The value of a buffer of four bytes. -/
def num (d : List (BitVec 8)) : BitVec 32 := BitVec.ofNat 32 (leNum d)

/-- The registers with standard names are separate buffers of four bytes that hold the variables. -/
structure Holds (alias : Nat → String) (obj : Nat → Nat) (s : St κ) (var : Nat → BitVec 32) : Prop where
  names : ∀ n i, standard alias n = some i → s.names n = some (obj i)
  only : ∀ n i, i < 33 → s.names n = some (obj i) → standard alias n = some i
  inj : ∀ i < 33, ∀ j < 33, obj i = obj j → i = j
  low : ∀ n k, s.names n = some k → k < s.objs
  objs : ∀ i < 33, obj i < s.objs
  size : ∀ i < 33, (s.data (obj i)).length = 4
  value : ∀ i < 33, num (s.data (obj i)) = var i

theorem standard_lt {alias : Nat → String} {n : String} {i : Nat} (h : standard alias n = some i) : i < 33 := by
  unfold standard at h
  split at h
  · cases h; omega
  · cases e : (List.range 32).find? fun i => n == "x" ++ toString i || n == alias i with
    | none => rw [e] at h; cases h
    | some j =>
      rw [e] at h
      have := List.mem_range.1 (List.mem_of_find?_eq_some e)
      simp only [Option.map_some, Option.some.injEq] at h
      omega

theorem leNum_lt : ∀ d : List (BitVec 8), leNum d < 256 ^ d.length
  | [] => by simp [leNum]
  | b :: d => by
    have := leNum_lt d
    have hb := b.isLt
    simp only [leNum, List.length_cons, Nat.pow_succ]
    omega

theorem getNum_num {d : List (BitVec 8)} (h : d.length = 4) : getNum d = (num d).zeroExtend 64 := by
  have hl := leNum_lt d
  rw [h] at hl
  apply BitVec.eq_of_toNat_eq
  simp only [getNum, num, BitVec.truncate_eq_setWidth, BitVec.toNat_setWidth, BitVec.toNat_ofNat]
  rw [Nat.mod_eq_of_lt (by omega), Nat.mod_eq_of_lt (a := leNum d) (by omega), Nat.mod_eq_of_lt (by omega)]

theorem num_putNum (v : BitVec 64) : num (putNum 4 v) = v.truncate 32 := by
  apply BitVec.eq_of_toNat_eq
  have e : putNum 4 v = [v.extractLsb' 0 8, v.extractLsb' 8 8, v.extractLsb' 16 8, v.extractLsb' 24 8] := rfl
  rw [e]
  simp only [num, leNum, BitVec.truncate_eq_setWidth, BitVec.toNat_setWidth, BitVec.toNat_ofNat, BitVec.extractLsb'_toNat,
    Nat.shiftRight_eq_div_pow]
  omega

theorem putNum_length (n : Nat) (v : BitVec 64) : (putNum n v).length = n := by simp [putNum]

theorem holds_start {alias : Nat → String} (hd : Distinct alias) {s : St κ} {p : Nat} (h : Bare alias s p) :
    Holds alias (fun i => if i = 0 then p else s.objs + (i - 1)) (addNames alias s) (fun i => if i = 0 then num (s.data p) else 0) := by
  have hp := h.low _ _ h.pc
  have e := addNames_eq hd h 32 (Nat.le_refl _)
  unfold addNames
  rw [e]
  have pcn : idx alias 32 "pc" = none := by
    cases e : idx alias 32 "pc" with
    | none => rfl
    | some j =>
      obtain ⟨hj, h1 | h1⟩ := idx_some e
      · exact absurd h1.symm (xName_pc j hj)
      · exact absurd h1.symm (hd.1 j hj).1
  have std : ∀ n, standard alias n = if n = "pc" then some 0 else (idx alias 32 n).map (· + 1) := fun n => rfl
  refine ⟨fun n i hn => ?_, fun n i hi hn => ?_, fun i hi j hj hij => ?_, fun n k hn => ?_, fun i hi => ?_, fun i hi => ?_, fun i hi => ?_⟩
  · rw [std] at hn
    by_cases hpc : n = "pc"
    · rw [if_pos hpc] at hn
      cases hn
      subst hpc
      simp [pcn, h.pc]
    · rw [if_neg hpc] at hn
      cases ex : idx alias 32 n with
      | none => rw [ex] at hn; cases hn
      | some j =>
        rw [ex] at hn
        cases hn
        simp [ex]
  · rw [std]
    cases ex : idx alias 32 n with
    | none =>
      simp only [ex, Option.map_none, Option.none_or] at hn
      by_cases h0 : i = 0
      · subst h0
        rw [if_pos rfl] at hn
        rw [if_pos (h.own n hn)]
      · rw [if_neg h0] at hn
        have := h.low _ _ hn
        omega
    | some j =>
      simp only [ex, Option.map_some, Option.some_or, Option.some.injEq] at hn
      have hpc : n ≠ "pc" := fun e => by rw [e, pcn] at ex; cases ex
      rw [if_neg hpc]
      by_cases h0 : i = 0
      · rw [if_pos h0] at hn; omega
      · rw [if_neg h0] at hn
        simp only [Option.map_some, Option.some.injEq]
        omega
  · split at hij <;> split at hij <;> omega
  · cases ex : idx alias 32 n with
    | none =>
      simp only [ex, Option.map_none, Option.none_or] at hn
      have := h.low _ _ hn
      show k < s.objs + 32
      omega
    | some j =>
      simp only [ex, Option.map_some, Option.some_or, Option.some.injEq] at hn
      have := (idx_some ex).1
      show k < s.objs + 32
      omega
  · show (if i = 0 then p else s.objs + (i - 1)) < s.objs + 32
    split <;> omega
  · show (if s.objs ≤ (if i = 0 then p else s.objs + (i - 1)) ∧ _ then _ else _ : List (BitVec 8)).length = 4
    by_cases h0 : i = 0
    · subst h0
      rw [if_neg (by rw [if_pos rfl]; omega), if_pos rfl]; exact h.size
    · rw [if_pos (by rw [if_neg h0]; omega)]; rfl
  · show num (if s.objs ≤ (if i = 0 then p else s.objs + (i - 1)) ∧ _ then _ else _ : List (BitVec 8)) = if i = 0 then _ else _
    by_cases h0 : i = 0
    · subst h0
      rw [if_neg (by rw [if_pos rfl]; omega), if_pos rfl, if_pos rfl]
    · rw [if_pos (by rw [if_neg h0]; omega), if_neg h0]; rfl

theorem holds_addReg {alias : Nat → String} {obj : Nat → Nat} {s : St κ} {var : Nat → BitVec 32} (h : Holds alias obj s var)
    (n : String) (size : Nat) : Holds alias obj (addReg n size s) var := by
  unfold addReg
  cases hn : s.names n with
  | some k => exact h
  | none =>
    refine ⟨fun m i hm => ?_, fun m i hi hm => ?_, h.inj, fun m k hm => ?_, fun i hi => ?_, fun i hi => ?_, fun i hi => ?_⟩
    · have := h.names m i hm
      show (if m = n then _ else _) = _
      rw [if_neg (fun e => by rw [e, hn] at this; cases this)]
      exact this
    · change (if m = n then some s.objs else s.names m) = _ at hm
      by_cases e : m = n
      · rw [if_pos e] at hm
        have := h.objs i hi
        simp only [Option.some.injEq] at hm
        omega
      · rw [if_neg e] at hm
        exact h.only m i hi hm
    · change (if m = n then some s.objs else s.names m) = _ at hm
      show k < s.objs + 1
      split at hm
      · cases hm; omega
      · have := h.low _ _ hm; omega
    · have := h.objs i hi
      show obj i < s.objs + 1
      omega
    · have := h.objs i hi
      show (if obj i = s.objs then _ else _ : List (BitVec 8)).length = 4
      rw [if_neg (by omega)]; exact h.size i hi
    · have := h.objs i hi
      show num (if obj i = s.objs then _ else _) = _
      rw [if_neg (by omega)]; exact h.value i hi

theorem holds_put {alias : Nat → String} {obj : Nat → Nat} {s : St κ} {var : Nat → BitVec 32} (h : Holds alias obj s var)
    {n : String} {k : Nat} (hk : s.names n = some k) (d : List (BitVec 8)) (hl : d.length = (s.data k).length) (v : BitVec 64)
    (hv : ∀ i, standard alias n = some i → num d = v.truncate 32) (r : Top.HaltReason) :
    Holds alias obj { s with reason := r, data := fun j => if j = k then d else s.data j } (event alias var (.write n v)).2 := by
  have key : ∀ i < 33, obj i = k ↔ standard alias n = some i := fun i hi =>
    ⟨fun e => h.only n i hi (by rw [hk, e]), fun e => by have := h.names n i e; rw [hk] at this; cases this; rfl⟩
  refine ⟨h.names, h.only, h.inj, h.low, h.objs, fun i hi => ?_, fun i hi => ?_⟩
  · show (if obj i = k then d else _ : List (BitVec 8)).length = 4
    split
    · rename_i e
      rw [hl, ← e]; exact h.size i hi
    · exact h.size i hi
  · show num (if obj i = k then d else _) = _
    simp only [event]
    cases e : standard alias n with
    | none =>
      rw [if_neg (fun e' => by rw [(key i hi).1 e'] at e; cases e)]
      exact h.value i hi
    | some j =>
      show _ = if i = j then _ else _
      by_cases e' : obj i = k
      · rw [if_pos e']
        have := (key i hi).1 e'
        rw [e] at this
        cases this
        rw [if_pos rfl]; exact hv _ e
      · rw [if_neg e', if_neg]
        · exact h.value i hi
        · intro hij
          subst hij
          exact e' ((key i hi).2 e)

theorem holds_status {alias : Nat → String} {obj : Nat → Nat} {s : St κ} {var : Nat → BitVec 32} (h : Holds alias obj s var)
    (r : Top.RunStatus) (e : Top.HaltReason) (k : κ) : Holds alias obj { s with status := r, reason := e, csr := k } var :=
  ⟨h.names, h.only, h.inj, h.low, h.objs, h.size, h.value⟩

end Verif.Proofs.RegNames
