import Verif.Proofs.RenodeCore

/-! # When the calls of the agent in front of the core have a result -/

namespace Verif.Proofs.RenodeTotal

open Verif Verif.Model.Agent Verif.Model.RenodeCore Verif.Proofs.Agent Verif.Proofs.RenodeCore
open Verif.Model.Top (St fresh Env HaltReason evReason requestHalt execInst fetchExec execLoop getInst setPc)
open Verif.Spec.Program (Ev)

variable {σ δ : Type}

/-- No breakpoint is set and none was met. -/
structure Clear (s : St σ) : Prop where
  stepOver : s.stepOver = false
  bps : ∀ a, s.bps a = false
  sw : s.reason ≠ .softwareBreakpoint
  ap : s.reason ≠ .actionPoint

/-- Halted, with no breakpoint. -/
def Idle (s : St σ) : Prop := s.status = .halted ∧ Clear s

theorem clear_request {s : St σ} (h : Clear s) (r : HaltReason) (h1 : r ≠ .softwareBreakpoint) (h2 : r ≠ .actionPoint) :
    Clear (requestHalt r s) :=
  ⟨by simp [requestHalt, h.stepOver, h1, h2], h.bps, h1, h2⟩

theorem clear_fold : ∀ (l : List Ev) (s : St σ), Clear s → Clear (l.foldl (fun s e => requestHalt (evReason e) s) s)
  | [], _, h => h
  | e :: l, s, h => clear_fold l _ (clear_request h _ (by cases e <;> simp [evReason]) (by cases e <;> simp [evReason]))

theorem clear_machine {s : St σ} (h : Clear s) (m : Spec.Program.Machine σ) : Clear { s with m } :=
  ⟨h.stepOver, h.bps, h.sw, h.ap⟩

theorem clear_execInst (env : Env σ) (w : BitVec 32) (a : Nat) {s : St σ} (h : Clear s) : Clear (execInst env w a s) := by
  unfold execInst
  split
  · split
    · exact clear_fold _ _ (clear_machine h _)
    · rw [h.bps a]
      exact clear_request h _ (by simp) (by simp)
  · exact clear_fold _ _ (clear_machine h _)

theorem clear_getInst (env : Env σ) (a : Nat) {s : St σ} (h : Clear s) : Clear (getInst env a s).2 := by
  unfold getInst
  split
  · exact h
  · exact ⟨h.stepOver, h.bps, h.sw, h.ap⟩

theorem clear_fetchExec (env : Env σ) (pc : Nat) {s : St σ} (h : Clear s) : Clear (fetchExec env pc s) := by
  have h1 := clear_execInst env (getInst env pc s).1 pc (clear_machine (clear_getInst env pc h)
    { (getInst env pc s).2.m with pc := BitVec.ofNat 32 (pc + 4) })
  exact ⟨h1.stepOver, h1.bps, h1.sw, h1.ap⟩

theorem clear_loop (env : Env σ) (b : Bool) (n : Nat) : ∀ (fuel count : Nat) (last : Option Nat) (next : Nat) (s : St σ),
    Clear s → count ≤ n → Clear (execLoop env b n fuel count last next s).2.2.2 ∧ (execLoop env b n fuel count last next s).1 ≤ n
  | 0, _, _, _, _, h, hc => ⟨h, hc⟩
  | fuel + 1, count, last, next, s, h, hc => by
    have h1 := clear_fetchExec env next h
    unfold execLoop
    split
    · exact ⟨h, hc⟩
    · next hh =>
      have hlt : count + 1 ≤ n := by
        rcases Nat.lt_or_ge count n with h | h
        · exact h
        · exact absurd (Or.inr h) hh
      dsimp only
      split
      · exact clear_loop env b n fuel _ _ _ _ h1 hlt
      · rw [if_neg h1.ap]
        exact ⟨h1, hlt⟩

/-- `Step` of a halted core without breakpoints. -/
theorem step_idle (env : Env σ) (k : Nat) (hk : 0 < k) {s : St σ} (h : Idle s) :
    ∃ e s', Model.Top.step env k s = .ok (.ok e, s') ∧ e ≤ k ∧ Idle s' := by
  have h0 : Clear { s with status := .singleStep, halted := false } := ⟨h.2.stepOver, h.2.bps, h.2.sw, h.2.ap⟩
  obtain ⟨c1, c2⟩ := clear_loop env true k k 0 none s.m.pc.toNat _ h0 (Nat.zero_le _)
  obtain ⟨r, hr⟩ : ∃ r, r = execLoop env true k k 0 none s.m.pc.toNat { s with status := .singleStep, halted := false } := ⟨_, rfl⟩
  rw [← hr] at c1 c2
  refine ⟨r.1, { setPc r.2.2.1 r.2.2.2 with reason := if (setPc r.2.2.1 r.2.2.2).halted then (setPc r.2.2.1 r.2.2.2).reason else .none, status := .halted },
    ?_, c2, rfl, ?_⟩
  · unfold Model.Top.step
    rw [if_neg (by omega), if_neg (by simp [h.1])]
    dsimp only
    rw [h.2.stepOver]
    simp only [Bool.false_eq_true, if_false, Int.toNat_natCast]
    rw [h.2.stepOver] at hr
    rw [← hr]
    unfold Model.Top.stepEnd Model.Top.finishPc
    rw [if_neg c1.sw, Outcome.ok_bind]
  · refine ⟨c1.stepOver, c1.bps, ?_, ?_⟩ <;> dsimp only <;> split
    · exact c1.sw
    · simp
    · exact c1.ap
    · simp

/-- The loop of the agent's `Step` has a result if every call of the core's `Step` in it has. -/
theorem stepLoop_total {core : Core δ} {P : δ → Prop} (hs : ∀ (k : Nat) d, 0 < k → P d → ∃ r d', core.step k d = .ok (r, d') ∧ P d' ∧
    ∀ e, r = some e → e ≤ k) : ∀ (fuel : Nat) (left : BitVec 64) (total : BitVec 32) (d : δ), left.toNat ≤ fuel → P d →
    ∃ r, stepLoop core fuel left total d = .ok r
  | 0, left, total, d, hl, _ => by
    have : left = 0 := BitVec.eq_of_toNat_eq (by simpa using hl)
    exact ⟨_, by rw [stepLoop, if_pos this]⟩
  | fuel + 1, left, total, d, hl, hd => by
    by_cases h0 : left = 0
    · exact ⟨_, by rw [stepLoop, if_pos h0]⟩
    · have hl' : left.toNat ≠ 0 := fun h => h0 (BitVec.eq_of_toNat_eq (by simpa using h))
      rw [stepLoop, if_neg h0]
      dsimp only
      generalize hk : (if left.toNat > intMax then intMax else left.toNat) = k
      have hk1 : 0 < k ∧ k ≤ left.toNat := by
        rw [← hk]; unfold intMax; split <;> omega
      obtain ⟨r, d', e1, e2, e3⟩ := hs k d hk1.1 hd
      rw [e1, Outcome.ok_bind]
      cases r with
      | none => exact ⟨_, rfl⟩
      | some e =>
        dsimp only
        split
        · exact ⟨_, rfl⟩
        · split
          · exact ⟨_, rfl⟩
          · split
            · exact ⟨_, rfl⟩
            · next hlt =>
              have he := e3 e rfl
              refine stepLoop_total hs fuel _ _ d' ?_ e2
              have hb := left.isLt
              rw [BitVec.toNat_sub, BitVec.toNat_ofInt]
              have : (e % ((2 ^ 64 : Nat) : Int)).toNat = k := by omega
              rw [this]
              omega

theorem idle_fresh (m : Spec.Program.Machine σ) : Idle (fresh m) := ⟨rfl, rfl, fun _ => rfl, by simp [fresh], by simp [fresh]⟩

theorem idle_writePc (v : Nat) {s : St σ} (h : Idle s) : Idle (Model.Top.writePc v s).2 := by
  unfold Model.Top.writePc
  rw [if_neg (by simp [h.1])]
  dsimp only
  rw [if_neg h.2.sw]
  exact ⟨h.1, clear_machine h.2 _⟩

/-- What is assumed of the registers outside the table and of the ELF loader. -/
structure Still (R : Params σ) : Prop where
  set : ∀ n v s, Idle s → Idle (R.otherSet n v s).2
  elf : ∀ f s, Idle s → Idle (R.elf f s).2

theorem keeps (R : Params σ) (hR : Still R) : Keeps (core R) Idle := by
  constructor
  · intro mem c d h
    cases h; exact idle_fresh _
  · intro reg v s hs
    show Idle (Model.RenodeCore.writeReg R reg v s).2
    unfold Model.RenodeCore.writeReg
    split
    · exact hs
    · split
      · exact hR.set _ _ _ hs
      · exact hs
    · exact idle_writePc _ hs
    · split
      · exact ⟨hs.1, clear_machine hs.2 _⟩
      · exact hs
  · intro ad b s r hs h
    revert h
    show Model.RenodeCore.writeMem ad b s = _ → _
    unfold Model.RenodeCore.writeMem
    cases Model.DebugMem.writeMemory (isHalted s) s.m.mem ad.toNat b with
    | ok x => intro h; cases h; exact ⟨hs.1, clear_machine hs.2 _⟩
    | ub => intro h; cases h
    | abort => intro h; cases h
  · intro f s hs
    exact hR.elf f s hs
  · intro e s hs
    exact idle_writePc _ hs
  · intro f ad s r hs h
    revert h
    show Model.RenodeCore.loadImage R f ad s = _ → _
    unfold Model.RenodeCore.loadImage
    cases Model.DebugMem.loadImage (isHalted s) s.m.mem (R.file f) ad.toNat with
    | ok x => intro h; cases h; exact ⟨hs.1, clear_machine hs.2 _⟩
    | ub => intro h; cases h
    | abort => intro h; cases h
  · intro n s r hs h
    revert h
    show stepN R n s = _ → _
    unfold stepN
    by_cases hn : n ≤ 0
    · have : Model.Top.step R.env n s = .ok (.error .invalidArgument, s) := by
        unfold Model.Top.step; rw [if_pos hn]
      rw [this]
      intro h; cases h; exact hs
    · obtain ⟨e, s', e1, -, e3⟩ := step_idle R.env n.toNat (by omega) hs
      rw [show (n.toNat : Int) = n by omega] at e1
      rw [e1]
      intro h; cases h; exact e3
  · intro s hs
    show Idle (Model.RenodeCore.halt s).2
    unfold Model.RenodeCore.halt
    rw [hs.1]
    exact hs

/-! ## The core's own calls -/

theorem loadImage_total (R : Params σ) (f : List (BitVec 8)) (ad : BitVec 64) {s : St σ} (h : s.status = .halted) :
    ∃ r, (core R).loadImage f ad s = .ok r := by
  show ∃ r, Model.RenodeCore.loadImage R f ad s = .ok r
  unfold Model.RenodeCore.loadImage
  suffices hx : ∃ r, Model.DebugMem.loadImage (isHalted s) s.m.mem (R.file f) ad.toNat = .ok r by
    obtain ⟨r, hr⟩ := hx
    exact ⟨_, by rw [hr, Outcome.ok_bind]⟩
  have hh : isHalted s = true := by simp [isHalted, h]
  rw [hh]
  unfold Model.DebugMem.loadImage
  split
  · exact ⟨_, rfl⟩
  · next g _ =>
    obtain ⟨h1, h2⟩ := DebugMem.loadLoop_spec (g.length + 1) s.m.mem ad.toNat g (Nat.lt_succ_self _)
    by_cases hf : Spec.DebugMem.Fits ad.toNat g
    · exact ⟨_, h1 hf⟩
    · obtain ⟨n, -, e⟩ := h2 hf
      exact ⟨_, e⟩

theorem readMem_exact (R : Params σ) (ad len : BitVec 64) {s : St σ} (h : s.status = .halted) :
    ((core R).readMem ad len s = .abort ∧ ad.toNat < 0x400000 ∧ len = 0) ∨
    ((∃ r, (core R).readMem ad len s = .ok r) ∧ ¬ (ad.toNat < 0x400000 ∧ len = 0)) := by
  have e : (core R).readMem ad len s = Model.DebugMem.readMemory true s.m.mem ad.toNat len.toNat >>= fun r => .ok r.toOption := by
    show Model.RenodeCore.readMem ad len s = _
    unfold Model.RenodeCore.readMem
    rw [show isHalted s = true by simp [isHalted, h]]
  rw [e]
  unfold Model.DebugMem.readMemory
  simp only [Bool.not_true, Bool.false_eq_true, if_false]
  by_cases h1 : Model.DebugMem.maxAddr < ad.toNat
  · rw [if_pos h1]
    refine Or.inr ⟨⟨_, rfl⟩, ?_⟩
    unfold Model.DebugMem.maxAddr at h1
    omega
  · rw [if_neg h1]
    rw [DebugMem.room _ (by omega)]
    unfold Model.DebugMem.load
    unfold Model.DebugMem.maxAddr at h1
    by_cases h2 : len = 0
    · subst h2
      exact Or.inl ⟨rfl, by omega, rfl⟩
    · have h2' : len.toNat ≠ 0 := fun h => h2 (BitVec.eq_of_toNat_eq (by simpa using h))
      rw [if_neg (by omega)]
      exact Or.inr ⟨⟨_, rfl⟩, fun h => h2 h.2⟩

theorem writeMem_exact (R : Params σ) (ad : BitVec 64) (b : List (BitVec 8)) {s : St σ} (h : s.status = .halted) :
    ((core R).writeMem ad b s = .abort ∧ ad.toNat < 0x400000 ∧ b = []) ∨
    ((∃ r, (core R).writeMem ad b s = .ok r) ∧ ¬ (ad.toNat < 0x400000 ∧ b = [])) := by
  have e : (core R).writeMem ad b s = Model.DebugMem.writeMemory true s.m.mem ad.toNat b >>= fun r =>
      .ok (r.1.toOption, { s with m := { s.m with mem := r.2 } }) := by
    show Model.RenodeCore.writeMem ad b s = _
    unfold Model.RenodeCore.writeMem
    rw [show isHalted s = true by simp [isHalted, h]]
  rw [e]
  unfold Model.DebugMem.writeMemory
  simp only [Bool.not_true, Bool.false_eq_true, if_false]
  by_cases h1 : Model.DebugMem.maxAddr < ad.toNat
  · rw [if_pos h1]
    refine Or.inr ⟨⟨_, rfl⟩, ?_⟩
    unfold Model.DebugMem.maxAddr at h1
    omega
  · rw [if_neg h1]
    rw [DebugMem.room _ (by omega)]
    unfold Model.DebugMem.store
    unfold Model.DebugMem.maxAddr at h1
    by_cases h2 : b = []
    · subst h2
      exact Or.inl ⟨rfl, by omega, rfl⟩
    · have h2' : 0 < b.length := List.length_pos_iff.2 h2
      rw [if_neg (fun h => by
        have := congrArg List.length h
        rw [List.length_take, List.length_nil] at this
        omega)]
      exact Or.inr ⟨⟨_, rfl⟩, fun h => h2 h.2⟩

/-- Every entry of the table is a register the numbering knows. -/
theorem table_find (nb : Numbering) (i : Nat) (hi : i < 33) :
    ∃ info r, (table nb)[i]? = some info ∧ nb.find (BitVec.ofNat 32 info.index) = some (.inl r) := by
  have hl : (table nb).length = 33 := rfl
  have hm : ∀ info ∈ table nb, ∃ r, nb.find (BitVec.ofNat 32 info.index) = some (.inl r) := by
    have key : ∀ r, nb.find (BitVec.ofNat 32 (nb.num r).toNat) = some (.inl r) := fun r => by
      rw [BitVec.ofNat_toNat, BitVec.setWidth_eq, nb.find_num]
    intro info h
    unfold table at h
    rw [List.mem_cons, List.mem_cons, List.mem_map] at h
    rcases h with rfl | rfl | ⟨j, -, rfl⟩ <;> exact ⟨_, key _⟩
  have hg : (table nb)[i]? = some (table nb)[i] := List.getElem?_eq_getElem (by omega)
  obtain ⟨r, hr⟩ := hm _ (List.getElem_mem (by omega : i < (table nb).length))
  exact ⟨_, r, hg, hr⟩

theorem regInfo_exact (R : Params σ) (hcap : R.cap < 2 ^ 31) (index len : BitVec 32) (s : St σ) :
    ((core R).regInfo index len s = .ub ∧ index.toNat < 33 ∧ (len.toInt < 0 ∨ R.cap < len.toInt)) ∨
    ((∃ r, (core R).regInfo index len s = .ok r) ∧ ¬ (index.toNat < 33 ∧ (len.toInt < 0 ∨ (R.cap : Int) < len.toInt))) := by
  have e : (core R).regInfo index len s = getInfo R.nb R.cap index len := rfl
  rw [e]
  unfold getInfo
  rw [show (table R.nb).length = 33 from rfl]
  have hidx : (index.toInt < 0 ∨ ((33 : Nat) : Int) ≤ index.toInt) ↔ ¬ index.toNat < 33 := by
    have := index.isLt
    rw [BitVec.toInt_eq_toNat_cond]
    split <;> omega
  have hlen : R.cap < (len.signExtend 64).toNat ↔ (len.toInt < 0 ∨ (R.cap : Int) < len.toInt) := by
    have h1 := len.isLt
    have h2 : ((len.signExtend 64).toInt) = len.toInt := BitVec.toInt_signExtend_of_le (by omega)
    have h3 := (len.signExtend 64).isLt
    rw [BitVec.toInt_eq_toNat_cond, BitVec.toInt_eq_toNat_cond] at h2
    rw [BitVec.toInt_eq_toNat_cond]
    split at h2 <;> split at h2 <;> omega
  by_cases hi : index.toNat < 33
  · rw [if_neg (fun h => hidx.1 h hi)]
    obtain ⟨info, r, h1, h2⟩ := table_find R.nb index.toNat hi
    rw [h1]
    dsimp only
    rw [h2]
    dsimp only
    unfold strncpy
    by_cases hl : R.cap < (len.signExtend 64).toNat
    · rw [if_pos hl]
      exact Or.inl ⟨rfl, hi, hlen.1 hl⟩
    · rw [if_neg hl]
      exact Or.inr ⟨⟨_, rfl⟩, fun h => hl (hlen.2 h.2)⟩
  · rw [if_pos (hidx.2 hi)]
    exact Or.inr ⟨⟨_, rfl⟩, fun h => hi h.1⟩

theorem step_total (R : Params σ) (k : Nat) (d : St σ) (hk : 0 < k) (hd : Idle d) :
    ∃ r d', (core R).step k d = .ok (r, d') ∧ Idle d' ∧ ∀ e, r = some e → e ≤ k := by
  obtain ⟨e, s', e1, e2, e3⟩ := step_idle R.env k hk hd
  refine ⟨some e, s', ?_, e3, fun e' he => by cases he; omega⟩
  show stepN R k d = _
  unfold stepN
  rw [e1, Outcome.ok_bind]

/-! ## The lengths recorded -/

/-- The name length given when the identifier was handed out. -/
def givenLen (tr : List (Call × Reply)) (id : BitVec 32) : Option (BitVec 32) :=
  tr.findSome? fun e => match e with
    | (.construct len _, r) => if r.ret.truncate 32 = id then some len else none
    | _ => none

theorem call_len (R : Params σ) (c : Call) (a a' : Agent (St σ)) (r : Reply) (h : call (core R) c a = .ok (r, a')) (id : BitVec 32) :
    a'.nameLen id = (a.nameLen id).or (givenLen [(c, r)] id) := by
  cases hid : c.id? with
  | some i =>
    rw [(call_local (core R) c a a' r i hid h).1.1]
    have : givenLen [(c, r)] id = none := by
      cases c <;> first | rfl | cases hid
    rw [this, Option.or_none]
  | none =>
    cases c with
    | construct len mem =>
      cases h
      have eg : givenLen [(Call.construct len mem, { ret := BitVec.zeroExtend 64 a.count })] id =
          (if (BitVec.zeroExtend 64 a.count).truncate 32 = id then some len else none) := by
        unfold givenLen
        rw [List.findSome?_cons]
        dsimp only
        by_cases hh : (BitVec.zeroExtend 64 a.count).truncate 32 = id
        · rw [if_pos hh]
        · rw [if_neg hh]; rfl
      rw [eg]
      show emplace a.nameLen a.count len id = _
      have e : (BitVec.zeroExtend 64 a.count).truncate 32 = a.count := by
        apply BitVec.eq_of_toNat_eq; simp
      rw [e]
      unfold emplace
      cases hn : a.nameLen a.count with
      | some x =>
        dsimp only
        by_cases hh : a.count = id
        · subst hh; rw [hn]; rfl
        · rw [if_neg hh, Option.or_none]
      | none =>
        dsimp only
        by_cases hh : a.count = id
        · subst hh; rw [put_same, hn, if_pos rfl]; rfl
        · rw [put_ne _ _ (fun h => hh h.symm), if_neg hh, Option.or_none]
    | _ => cases hid

theorem calls_len (R : Params σ) : ∀ (cs : List Call) (a a' : Agent (St σ)) (tr : List (Call × Reply)),
    calls (core R) cs a = .ok (tr, a') → ∀ id, a'.nameLen id = (a.nameLen id).or (givenLen tr id)
  | [], a, a', tr, h, id => by
    cases h
    exact (Option.or_none).symm
  | c :: cs, a, a', tr, h, id => by
    unfold calls at h
    cases hc : call (core R) c a with
    | ub => rw [hc] at h; cases h
    | abort => rw [hc] at h; cases h
    | ok x =>
      obtain ⟨r, a1⟩ := x
      rw [hc, Outcome.ok_bind] at h
      cases hr : calls (core R) cs a1 with
      | ub => simp only [hr] at h; cases h
      | abort => simp only [hr] at h; cases h
      | ok y =>
        obtain ⟨tr1, a2⟩ := y
        simp only [hr, Outcome.ok_bind] at h
        cases h
        rw [calls_len R cs a1 a' tr1 hr id, call_len R c a a1 r hc id, Option.or_assoc]
        congr 1
        unfold givenLen
        rw [show (c, r) :: tr1 = [(c, r)] ++ tr1 from rfl, List.findSome?_append]

end Verif.Proofs.RenodeTotal
