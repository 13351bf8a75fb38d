import Verif.Model.Decode
import Verif.Proofs.RegNames

/-!
# C97: registers by name

The specification (`Verif/Spec/RegNames.lean`) is 33 separate variables of 32 bits with 65 names.
-/

namespace Verif.Props
open Verif Verif.Model Verif.Model.RegNames Verif.Spec.RegNames Verif.Proofs.RegNames

variable {κ : Type}

deriving instance DecidableEq for Except

/-- What an operation of a session means for the variables. -/
def meaning (obj : Nat → Nat) : Op → Option Event
  | .read n => some (.read n)
  | .write n v => some (.write n v)
  | .decode _ _ => none
  | .program d => some (.program fun i => num (d (obj i)))
  | .poke n d => some (.write n (getNum d))
  | .status _ _ => none

/-- Writes are made while the core is halted, and the registers keep their four bytes. -/
def LegalAccess (alias : Nat → String) (obj : Nat → Nat) (s : St κ) : Op → Prop
  | .write _ _ => s.status = .halted
  | .program d => ∀ i < 33, (d (obj i)).length = 4
  | .poke n d => s.status = .halted ∧ ∀ i, standard alias n = some i → d.length = 4
  | _ => True

def LegalAccesses (c : Csrs κ) (alias : Nat → String) (obj : Nat → Nat) : St κ → List Op → Prop
  | _, [] => True
  | s, o :: l => LegalAccess alias obj s o ∧ LegalAccesses c alias obj (exec c s o).2 l

/-- The variables after a session. -/
def varsAfter (alias : Nat → String) (obj : Nat → Nat) (var : Nat → BitVec 32) (l : List Op) : Nat → BitVec 32 :=
  (l.filterMap (meaning obj)).foldl (fun v e => (event alias v e).2) var

theorem holds_exec (c : Csrs κ) {alias : Nat → String} {obj : Nat → Nat} {s : St κ} {var : Nat → BitVec 32}
    (h : Holds alias obj s var) (o : Op) (hl : LegalAccess alias obj s o) :
    Holds alias obj (exec c s o).2 (varsAfter alias obj var [o]) := by
  cases o with
  | read n => exact h
  | decode n size => exact holds_addReg h n size
  | status r e => exact holds_status h r e s.csr
  | program d =>
    refine ⟨h.names, h.only, h.inj, h.low, h.objs, fun i hi => ?_, fun i hi => ?_⟩
    · show (if _ then _ else _ : List (BitVec 8)).length = 4
      split
      · exact hl i hi
      · exact h.size i hi
    · show num (if _ then _ else _) = if i < 33 then _ else _
      rw [if_pos (by rw [hl i hi, h.size i hi]), if_pos hi]
  | write n v =>
    show Holds alias obj (writeRegister c n v s).2 (event alias var (.write n v)).2
    unfold writeRegister
    rw [if_neg (by simpa [LegalAccess] using hl)]
    cases hn : s.names n with
    | none =>
      have hs : standard alias n = none := by
        cases e : standard alias n with
        | none => rfl
        | some i => rw [h.names n i e] at hn; cases hn
      have hv : (event alias var (.write n v)).2 = var := by simp [event, hs]
      rw [hv]
      cases c.find n with
      | none => exact h
      | some k => exact holds_status h s.status s.reason _
    | some k =>
      simp only
      by_cases hz : (s.data k).length = 1 ∨ (s.data k).length = 2 ∨ (s.data k).length = 4 ∨ (s.data k).length = 8
      · rw [if_pos hz]
        have := holds_put h hn (putNum (s.data k).length v) (putNum_length _ _) v (fun i hi => by
          have hk := h.names n i hi
          rw [hn] at hk
          cases hk
          rw [h.size i (standard_lt hi)]
          exact num_putNum v) (if n = "pc" ∧ s.reason = .softwareBreakpoint then .none else s.reason)
        split
        · rename_i e; rw [if_pos e] at this; exact this
        · rename_i e; rw [if_neg e] at this; exact this
      · rw [if_neg hz]
        have hs : standard alias n = none := by
          cases e : standard alias n with
          | none => rfl
          | some i =>
            have hk := h.names n i e
            rw [hn] at hk
            cases hk
            exact absurd (.inr (.inr (.inl (h.size i (standard_lt e))))) hz
        have hv : (event alias var (.write n v)).2 = var := by simp [event, hs]
        rw [hv]
        split
        · exact holds_status h s.status .none s.csr
        · exact h
  | poke n d =>
    obtain ⟨h1, h2⟩ := hl
    show Holds alias obj (exec c s (.poke n d)).2 (event alias var (.write n (getNum d))).2
    simp only [exec, getBuffer, h1, ne_eq, not_true, if_false]
    cases hn : s.names n with
    | none =>
      have hs : standard alias n = none := by
        cases e : standard alias n with
        | none => rfl
        | some i => rw [h.names n i e] at hn; cases hn
      have hv : (event alias var (.write n (getNum d))).2 = var := by simp [event, hs]
      rw [hv]; exact h
    | some k =>
      simp only
      by_cases hz : d.length = (s.data k).length
      · have := holds_put h hn d hz (getNum d) (fun i hi => by
          rw [getNum_num (h2 i hi)]
          apply BitVec.eq_of_toNat_eq
          simp only [BitVec.truncate_eq_setWidth, BitVec.toNat_setWidth]
          have := (num d).isLt
          omega) s.reason
        simpa only [hz, and_true, ← h1] using this
      · have hs : standard alias n = none := by
          cases e : standard alias n with
          | none => rfl
          | some i =>
            have hk := h.names n i e
            rw [hn] at hk
            cases hk
            exact absurd ((h2 i e).trans (h.size i (standard_lt e)).symm) hz
        have hv : (event alias var (.write n (getNum d))).2 = var := by simp [event, hs]
        rw [hv]
        simp only [hz, and_false, if_false, ← h1]
        exact h

theorem holds_execAll (c : Csrs κ) {alias : Nat → String} {obj : Nat → Nat} : ∀ (l : List Op) {s : St κ} {var : Nat → BitVec 32},
    Holds alias obj s var → LegalAccesses c alias obj s l → Holds alias obj (execAll c s l).2 (varsAfter alias obj var l)
  | [], _, _, h, _ => h
  | o :: l, s, var, h, hl => by
    have h1 := holds_exec c h o hl.1
    have h2 := holds_execAll c l h1 hl.2
    have e : varsAfter alias obj (varsAfter alias obj var [o]) l = varsAfter alias obj var (o :: l) := by
      unfold varsAfter
      rw [← List.foldl_append, ← List.filterMap_append]
      rfl
    rw [← e]; exact h2

/-- C97 (missing: a value of more than 32 bits is not read back, see `C97_read_back`, and x0 is not zero, see `C97_zero`): after
the names are registered, whatever is decoded, executed, run, written by name or through buffers, a halted core reads every
standard name as the variable of the specification and accepts every write to it; its two names are the same buffer, and different
registers are different buffers. -/
theorem C97_session_partial (c : Csrs κ) (alias : Nat → String) (hd : Distinct alias) (s0 : St κ) (p : Nat) (h0 : Bare alias s0 p) :
    ∃ obj : Nat → Nat, (∀ i < 33, ∀ j < 33, obj i = obj j → i = j) ∧
      ∀ l, LegalAccesses c alias obj (addNames alias s0) l → ∀ s, s = (execAll c (addNames alias s0) l).2 → s.status = .halted →
        ∀ n i, standard alias n = some i →
          readRegister c n s =
            .ok ((varsAfter alias obj (fun i => if i = 0 then num (s0.data p) else 0) l i).zeroExtend 64) ∧
          getBuffer n s = .ok (obj i) ∧ ∀ v, (writeRegister c n v s).1 = .ok () ∧
            (writeRegister c n v s).2.csr = s.csr ∧ (writeRegister c n v s).2.status = s.status := by
  have hs := holds_start hd h0
  refine ⟨_, hs.inj, fun l hl s hse hst n i hn => ?_⟩
  have h := holds_execAll c l hs hl
  rw [← hse] at h
  have hi := standard_lt hn
  have hk := h.names n i hn
  have hz := h.size i hi
  refine ⟨?_, ?_, fun v => ?_⟩
  · unfold readRegister
    rw [if_neg (by simp [hst]), hk]
    simp only
    rw [if_pos (.inr (.inr (.inl hz))), getNum_num hz, h.value i hi]
  · unfold getBuffer
    rw [if_neg (by simp [hst]), hk]
  · unfold writeRegister
    rw [if_neg (by simp [hst]), hk]
    simp only
    rw [if_pos (.inr (.inr (.inl hz)))]
    refine ⟨rfl, ?_, ?_⟩ <;> (simp only; split <;> rfl)

/-- C97: registering the names redirects no name that is already in use, whatever the names and aliases are, and touches no
buffer that exists. -/
theorem C97_registered_stay (alias : Nat → String) (s : St κ) (n : String) (k : Nat) (hn : s.names n = some k) (hk : k < s.objs) :
    (addNames alias s).names n = some k ∧ (addNames alias s).data k = s.data k := by
  have step : ∀ (i : Nat) (t : St κ), t.names n = some k → k < t.objs →
      (addAlias (xName i) (alias i) (addReg (xName i) 4 t)).names n = some k ∧
      k < (addAlias (xName i) (alias i) (addReg (xName i) 4 t)).objs ∧
      (addAlias (xName i) (alias i) (addReg (xName i) 4 t)).data k = t.data k := by
    intro i t ht hkt
    have h1 : (addReg (xName i) 4 t).names n = some k ∧ k < (addReg (xName i) 4 t).objs ∧
        (addReg (xName i) 4 t).data k = t.data k := by
      unfold addReg
      split
      · exact ⟨ht, hkt, rfl⟩
      · rename_i hnone
        refine ⟨?_, Nat.lt_succ_of_lt hkt, if_neg (Nat.ne_of_lt hkt)⟩
        show (if n = xName i then _ else _) = _
        rw [if_neg (fun h => by rw [← h, ht] at hnone; cases hnone)]
        exact ht
    unfold addAlias
    split
    · rename_i hnone
      refine ⟨?_, h1.2.1, h1.2.2⟩
      show (if n = alias i then _ else _) = _
      rw [if_neg (fun h => by rw [← h, h1.1] at hnone; cases hnone)]
      exact h1.1
    · exact h1
  have all : ∀ (l : List Nat) (t : St κ), t.names n = some k → k < t.objs → t.data k = s.data k →
      (l.foldl (fun s i => addAlias (xName i) (alias i) (addReg (xName i) 4 s)) t).names n = some k ∧
      (l.foldl (fun s i => addAlias (xName i) (alias i) (addReg (xName i) 4 s)) t).data k = s.data k := by
    intro l
    induction l with
    | nil => exact fun t h1 _ h3 => ⟨h1, h3⟩
    | cons i l ih =>
      intro t h1 h2 h3
      obtain ⟨g1, g2, g3⟩ := step i t h1 h2
      exact ih _ g1 g2 (g3.trans h3)
  exact all _ s hn hk rfl

/-- C97: while the core runs, everything is refused and nothing changes. -/
theorem C97_refused (c : Csrs κ) (s : St κ) (h : s.status ≠ .halted) (n : String) (v : BitVec 64) :
    readRegister c n s = .error .failedPrecondition ∧ writeRegister c n v s = (.error .failedPrecondition, s) ∧
      getBuffer n s = .error .failedPrecondition := by
  simp [readRegister, writeRegister, getBuffer, h]

/-- C97: a name without register is that of a control register, or is not found; a buffer exists for registers only. -/
theorem C97_unknown (c : Csrs κ) (s : St κ) (h : s.status = .halted) (n : String) (hn : s.names n = none) (v : BitVec 64) :
    getBuffer n s = .error .notFound ∧
    (c.find n = none → readRegister c n s = .error .notFound ∧ writeRegister c n v s = (.error .notFound, s)) ∧
    ∀ k, c.find n = some k → readRegister c n s = .ok ((c.get k s.csr).zeroExtend 64) ∧
      writeRegister c n v s = (.ok (), { s with csr := c.set k (v.truncate 32) s.csr }) := by
  refine ⟨by simp [getBuffer, h, hn], fun hc => ?_, fun k hc => ?_⟩
  · simp [readRegister, writeRegister, h, hn, hc]
  · simp [readRegister, writeRegister, h, hn, hc]

/-- C97: a register of another size than 1, 2, 4 or 8 bytes, such as a vector register, is refused by both calls and keeps its
contents; its buffer is handed out. -/
theorem C97_wide (c : Csrs κ) (s : St κ) (h : s.status = .halted) (n : String) (k : Nat) (hn : s.names n = some k)
    (hw : (s.data k).length ∉ [1, 2, 4, 8]) (hpc : n ≠ "pc") (v : BitVec 64) :
    readRegister c n s = .error .internal ∧ writeRegister c n v s = (.error .internal, s) ∧ getBuffer n s = .ok k := by
  simp only [List.mem_cons, List.not_mem_nil, or_false] at hw
  simp [readRegister, writeRegister, getBuffer, h, hn, hw, hpc]

/-- The state in which only the pc is registered. -/
def bareSt : St Unit := ⟨.halted, .none, fun n => if n = "pc" then some 0 else none, 1, fun _ => List.replicate 4 0, ()⟩

/-- The names of the RISC-V calling convention. -/
def abi (i : Nat) : String :=
  ["zero", "ra", "sp", "gp", "tp", "t0", "t1", "t2", "s0", "s1", "a0", "a1", "a2", "a3", "a4", "a5", "a6", "a7", "s2", "s3", "s4",
    "s5", "s6", "s7", "s8", "s9", "s10", "s11", "t3", "t4", "t5", "t6"].getD i ""

theorem abi_distinct : Distinct abi := by
  refine ⟨?_, ?_⟩
  · have h : ((List.range 32).all fun i => abi i != "pc" && (List.range 32).all fun j => abi i != "x" ++ toString j) = true := by
      decide +kernel
    intro i hi
    have h1 := List.all_eq_true.1 h i (List.mem_range.2 hi)
    simp only [Bool.and_eq_true, bne_iff_ne] at h1
    exact ⟨h1.1, fun j hj => by simpa using List.all_eq_true.1 h1.2 j (List.mem_range.2 hj)⟩
  · have h : ((List.range 32).all fun i => (List.range 32).all fun j => abi i != abi j || i == j) = true := by decide +kernel
    intro i hi j hj e
    have := List.all_eq_true.1 (List.all_eq_true.1 h i (List.mem_range.2 hi)) j (List.mem_range.2 hj)
    simpa [e] using this

theorem bareSt_bare : Bare abi bareSt 0 := by
  refine ⟨rfl, rfl, fun n k h => ?_, fun n h => ?_, fun i hi => ?_⟩
  · simp only [bareSt] at h ⊢
    split at h
    · cases h; omega
    · cases h
  · simp only [bareSt] at h
    split at h
    · assumption
    · cases h
  · simp only [bareSt]
    rw [if_neg (xName_pc i hi), if_neg (abi_distinct.1 i hi).1]
    exact ⟨rfl, rfl⟩

/-- No control registers. -/
def noCsrs : Csrs Unit := ⟨fun _ => none, fun _ _ => 0, fun _ _ s => s⟩

/-- With an alias that is the name of the pc, the pc keeps its register. -/
example : (addNames (fun i => if i = 3 then "pc" else abi i) bareSt).names "pc" = some 0 :=
  (C97_registered_stay _ bareSt "pc" 0 rfl (by decide)).1

/-- C97: what was written is read back exactly if it has at most 32 bits. -/
theorem C97_read_back (c : Csrs κ) (alias : Nat → String) (hd : Distinct alias) (s0 : St κ) (p : Nat) (h0 : Bare alias s0 p)
    (hs : (addNames alias s0).status = .halted) (n m : String) (i : Nat) (hn : standard alias n = some i)
    (hm : standard alias m = some i) (v : BitVec 64) :
    readRegister c m (writeRegister c n v (addNames alias s0)).2 = .ok v ↔ v.toNat < 2 ^ 32 := by
  obtain ⟨obj, -, h⟩ := C97_session_partial c alias hd s0 p h0
  have hst : (execAll c (addNames alias s0) [.write n v]).2.status = .halted :=
    ((h [] trivial _ rfl hs n i hn).2.2 v).2.2.trans hs
  have := (h [.write n v] ⟨hs, trivial⟩ _ rfl hst m i hm).1
  have e : (execAll c (addNames alias s0) [.write n v]).2 = (writeRegister c n v (addNames alias s0)).2 := rfl
  rw [e] at this
  rw [this]
  have e2 : varsAfter alias obj (fun i => if i = 0 then num (s0.data p) else 0) [.write n v] i = v.truncate 32 := by
    simp [varsAfter, meaning, event, hn]
  rw [e2, Except.ok.injEq]
  constructor
  · intro hv
    rw [← hv]
    simp only [BitVec.truncate_eq_setWidth, BitVec.toNat_setWidth]
    omega
  · intro hv
    apply BitVec.eq_of_toNat_eq
    simp only [BitVec.truncate_eq_setWidth, BitVec.toNat_setWidth]
    omega

/-- C97 is false for values of more than 32 bits: 2^32 + 7 is accepted, and 7 is read. -/
theorem C97_truncated : (writeRegister noCsrs "a0" 0x100000007 (addNames abi bareSt)).1 = .ok () ∧
    readRegister noCsrs "x10" (writeRegister noCsrs "a0" 0x100000007 (addNames abi bareSt)).2 = .ok 7 := by decide +kernel

/-- C97 is false for x0: a write to it is accepted and is read back, while the instructions that name it read zero. -/
theorem C97_zero : (writeRegister noCsrs "zero" 5 (addNames abi bareSt)).1 = .ok () ∧
    readRegister noCsrs "x0" (writeRegister noCsrs "zero" 5 (addNames abi bareSt)).2 = .ok 5 ∧ srcRs 0 = .zero := by decide +kernel

/-- Vector registers are found once an instruction naming them has been decoded, and are then refused for their size; the scalar
registers stay. -/
example :
    let s := addNames abi bareSt
    let s' := (execAll noCsrs s [.write "t0" 77, .decode "v3" 32, .program fun k => if k = 11 then [1, 2, 0, 0] else s.data k,
      .poke "sp" [1, 0, 0, 1]]).2
    readRegister noCsrs "v3" s = .error .notFound ∧ readRegister noCsrs "v3" s' = .error .internal ∧
      readRegister noCsrs "x10" s' = .ok 0x201 ∧ readRegister noCsrs "x2" s' = .ok 0x1000001 ∧
      readRegister noCsrs "x5" s' = .ok 0 ∧ readRegister noCsrs "mepc" s' = .error .notFound := by decide +kernel

example : ∃ obj : Nat → Nat, (∀ i < 33, ∀ j < 33, obj i = obj j → i = j) ∧
    ∀ s, s = (execAll noCsrs (addNames abi bareSt) [.write "t0" 77, .decode "v3" 32]).2 →
      readRegister noCsrs "x5" s = .ok 77 ∧ readRegister noCsrs "x6" s = .ok 0 := by
  obtain ⟨obj, h1, h2⟩ := C97_session_partial noCsrs abi abi_distinct bareSt 0 bareSt_bare
  refine ⟨obj, h1, fun s hs => ?_⟩
  have hst : s.status = .halted := by subst hs; decide +kernel
  have hst' : (addNames abi bareSt).status = .halted := by decide +kernel
  have h3 := h2 [.write "t0" 77, .decode "v3" 32] ⟨hst', trivial, trivial⟩ s hs hst
  have e5 : standard abi "x5" = some 6 := by decide +kernel
  have e6 : standard abi "x6" = some 7 := by decide +kernel
  have et : standard abi "t0" = some 6 := by decide +kernel
  refine ⟨(h3 "x5" 6 e5).1.trans ?_, (h3 "x6" 7 e6).1.trans ?_⟩
  · simp [varsAfter, meaning, List.filterMap_cons, event, et]
  · simp [varsAfter, meaning, List.filterMap_cons, event, et]

end Verif.Props
