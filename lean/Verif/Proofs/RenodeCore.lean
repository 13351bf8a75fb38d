import Verif.Model.RenodeCore
import Verif.Proofs.Agent
import Verif.Proofs.DebugMem
import Verif.Proofs.TopPlain

/-! # Helper lemmas for the core behind the agent -/

namespace Verif.Proofs.RenodeCore

open Verif Verif.Model.Agent Verif.Model.RenodeCore Verif.Proofs.Agent
open Verif.Model.Top (St fresh)
open Verif.Spec.Program (Machine next run Steady word)

variable {σ δ : Type}

/-- The agent with the instance `d` at `id`. -/
def seat (a : Agent δ) (id : BitVec 32) (d : δ) : Agent δ := { a with inst := put a.inst id (some d) }

theorem seat_inst (a : Agent δ) (id : BitVec 32) (d : δ) : (seat a id d).inst id = some d := put_same _ _ _

theorem seat_seat (a : Agent δ) (id : BitVec 32) (d d' : δ) : seat (seat a id d) id d' = seat a id d' := by
  unfold seat put
  congr 1
  funext k
  by_cases h : k = id <;> simp [h]

theorem seat_self (a : Agent δ) (id : BitVec 32) (d : δ) (h : a.inst id = some d) : seat a id d = a := by
  obtain ⟨i, n, c⟩ := a
  unfold seat put
  congr 1
  funext k
  by_cases hk : k = id
  · subst hk; simp [h.symm]
  · simp [hk]

theorem calls_cons {core : Core δ} {c : Call} {cs : List Call} {a a' a'' : Agent δ} {r : Reply} {tr : List (Call × Reply)}
    (h : call core c a = .ok (r, a')) (h' : calls core cs a' = .ok (tr, a'')) :
    calls core (c :: cs) a = .ok ((c, r) :: tr, a'') := by
  rw [calls, h, Outcome.ok_bind, h', Outcome.ok_bind]

theorem replies_cons {core : Core δ} {c : Call} {cs : List Call} {a a' a'' : Agent δ} {r : Reply} {L : List Reply}
    (h : call core c a = .ok (r, a')) (h' : ∃ tr, calls core cs a' = .ok (tr, a'') ∧ tr.map Prod.snd = L) :
    ∃ tr, calls core (c :: cs) a = .ok (tr, a'') ∧ tr.map Prod.snd = r :: L := by
  obtain ⟨tr, h1, h2⟩ := h'
  exact ⟨_, calls_cons h h1, by rw [List.map_cons, h2]⟩

/-! ## Setting up a core that has been reset -/

theorem call_poke (R : Params σ) (id : BitVec 32) (ad : BitVec 64) (b : List (BitVec 8)) (hb : b ≠ [])
    (hl : ad.toNat + b.length ≤ 0x400000) (a : Agent (St σ)) (m : Machine σ) :
    call (core R) (.writeMemory id ad b) (seat a id (fresh m)) = .ok ({ ret := BitVec.ofNat 64 b.length },
      seat a id (fresh { m with mem := DebugMem.put m.mem ad.toNat b })) := by
  have h0 : 0 < b.length := List.length_pos_iff.2 hb
  have hw := DebugMem.writeMemory_ok m.mem ad.toNat b (show ad.toNat ≤ 0x3fffff by omega) hb
  rw [Nat.min_eq_left (by omega), List.take_of_length_le (by omega)] at hw
  have h1 : (core R).writeMem ad b (fresh m) =
      .ok (some b.length, fresh { m with mem := DebugMem.put m.mem ad.toNat b }) := by
    show writeMem ad b (fresh m) = _
    unfold writeMem
    show Model.DebugMem.writeMemory true m.mem ad.toNat b >>= _ = _
    rw [hw, Outcome.ok_bind]
    rfl
  show writeMemory (core R) id ad b _ = _
  unfold writeMemory
  rw [seat_inst]
  dsimp only
  rw [h1, Outcome.ok_bind]
  show Outcome.ok (_, seat (seat a id _) id _) = _
  rw [seat_seat]
  rfl

theorem call_setX (R : Params σ) (id : BitVec 32) (i : Fin 32) (v : BitVec 64) (a : Agent (St σ)) (m : Machine σ) :
    call (core R) (.writeRegister id (R.nb.num (.x i)) v) (seat a id (fresh m)) = .ok (zero,
      seat a id (fresh { m with regs := R.setX m.regs i (v.truncate 32) })) := by
  have h1 : (core R).writeReg (R.nb.num (.x i)) v (fresh m) =
      (some (), fresh { m with regs := R.setX m.regs i (v.truncate 32) }) := by
    show Model.RenodeCore.writeReg R _ v (fresh m) = _
    unfold Model.RenodeCore.writeReg
    rw [R.nb.find_num]
    rfl
  show Outcome.ok (writeRegister (core R) id _ v _) = _
  unfold writeRegister
  simp only [seat_inst, h1]
  show Outcome.ok (_, seat (seat a id _) id _) = _
  rw [seat_seat]
  rfl

theorem call_setPc (R : Params σ) (id : BitVec 32) (v : BitVec 64) (a : Agent (St σ)) (m : Machine σ) :
    call (core R) (.writeRegister id (R.nb.num .pc) v) (seat a id (fresh m)) = .ok (zero,
      seat a id (fresh { m with pc := BitVec.ofNat 32 v.toNat })) := by
  have h1 : (core R).writeReg (R.nb.num .pc) v (fresh m) = (some (), fresh { m with pc := BitVec.ofNat 32 v.toNat }) := by
    show Model.RenodeCore.writeReg R _ v (fresh m) = _
    unfold Model.RenodeCore.writeReg
    rw [R.nb.find_num]
    rfl
  show Outcome.ok (writeRegister (core R) id _ v _) = _
  unfold writeRegister
  simp only [seat_inst, h1]
  show Outcome.ok (_, seat (seat a id _) id _) = _
  rw [seat_seat]
  rfl

/-- Reading memory that exists. -/
theorem call_peek (R : Params σ) (id : BitVec 32) (ad len : BitVec 64) (h0 : 0 < len.toNat)
    (hl : ad.toNat + len.toNat ≤ 0x400000) (a : Agent (St σ)) (s : St σ) (hs : s.status = .halted) :
    call (core R) (.readMemory id ad len) (seat a id s) =
      .ok ({ ret := len, bytes := some ((List.range len.toNat).map fun k => s.m.mem (ad.toNat + k)) }, seat a id s) := by
  have h1 : (core R).readMem ad len s = .ok (some ((List.range len.toNat).map fun k => s.m.mem (ad.toNat + k))) := by
    show readMem ad len s = _
    unfold readMem isHalted
    rw [hs]
    show Model.DebugMem.readMemory true s.m.mem ad.toNat len.toNat >>= _ = _
    have h' : ad.toNat ≤ Model.DebugMem.maxAddr := by unfold Model.DebugMem.maxAddr; omega
    unfold Model.DebugMem.readMemory
    rw [DebugMem.room _ h', Nat.min_eq_left (by omega)]
    simp only [Bool.not_true, Bool.false_eq_true, if_false, Nat.not_lt.2 h']
    unfold Model.DebugMem.load
    rw [if_neg (by omega)]
    rfl
  show readMemory (core R) id ad len _ = _
  unfold readMemory
  rw [seat_inst]
  dsimp only
  rw [h1, Outcome.ok_bind]
  simp

/-! ## Executing in pieces -/

/-- The core has executed `i` instructions of an execution of `T + 1` from `m`, and has nothing pending. -/
structure At (R : Params σ) (m : Machine σ) (T i : Nat) (s : St σ) : Prop where
  status : s.status = .halted
  stepOver : s.stepOver = false
  reason : s.reason = .none
  m : s.m = run R.env.sem i m
  cache : Top.Agrees R.env.sem (T + 1 - i) s.cache s.m

theorem At.fresh (R : Params σ) (m : Machine σ) (T : Nat) : At R m T 0 (fresh m) :=
  ⟨rfl, rfl, rfl, rfl, fun _ _ _ h => nomatch h⟩

/-- One step of the agent that does not reach the end. -/
theorem call_part (R : Params σ) (m : Machine σ) (T i : Nat) (hT : T < 2147483647)
    (hq : ∀ j < T, (next R.env.sem (run R.env.sem j m)).2 = []) (hst : Steady R.env.sem m (T + 1))
    (id : BitVec 32) (n : BitVec 64) (hn : 0 < n.toNat) (hi : i + n.toNat ≤ T) (a : Agent (St σ)) (s : St σ) (hs : At R m T i s) :
    ∃ s', call (core R) (.step id n false) (seat a id s) = .ok ({ ret := n, status := some 0 }, seat a id s') ∧
      At R m T (i + n.toNat) s' := by
  have hrun : ∀ j, run R.env.sem j s.m = run R.env.sem (i + j) m := fun j => by rw [hs.m, ← Top.run_add]
  obtain ⟨s', e, hm, h1, h2, h3, -, -, hc⟩ := Top.step_quiet R.env s n.toNat hn hs.status hs.stepOver
    (by rw [hs.reason]; simp) (fun j hj => by rw [hrun]; exact hq _ (by omega))
    (fun j hj w hw => hs.cache j (by omega) w hw)
    (fun j k hjk hk => by rw [hrun, hrun]; exact hst _ _ (by omega) (by omega))
  have hrun' : ∀ j, run R.env.sem j s'.m = run R.env.sem (i + n.toNat + j) m := fun j => by
    rw [hm, ← Top.run_add, hrun, Nat.add_assoc]
  refine ⟨s', ?_, h1, h3, h2, by rw [hm, hrun], ?_⟩
  · show step (core R) id n false _ = _
    unfold step
    rw [seat_inst]
    dsimp only
    have hn0 : n ≠ 0 := by rintro rfl; simp at hn
    rw [if_neg hn0]
    have hr : (core R).reason s = some .none := congrArg some hs.reason
    rw [hr]
    dsimp only
    rw [if_neg (by simp)]
    have hstep : (core R).step n.toNat s = .ok (some (n.toNat : Int), s') := by
      show stepN R n.toNat s = _
      unfold stepN
      rw [e, Outcome.ok_bind]
    have hr' : (core R).reason s' = some .none := congrArg some h2
    have hloop : stepLoop (core R) n.toNat n 0 s = .ok (n.truncate 32, kOk, s') := by
      obtain ⟨f, hf⟩ : ∃ f, n.toNat = f + 1 := ⟨n.toNat - 1, by omega⟩
      rw [hf, stepLoop, if_neg hn0]
      dsimp only
      rw [if_neg (by unfold intMax; omega), hstep, Outcome.ok_bind]
      dsimp only
      rw [hr']
      dsimp only [stopStatus]
      rw [if_neg (by omega)]
      have e1 : n - BitVec.ofInt 64 (n.toNat : Int) = 0 := by
        apply BitVec.eq_of_toNat_eq
        simp
      have e2 : (0 : BitVec 32) + BitVec.ofInt 32 (n.toNat : Int) = n.truncate 32 := by
        apply BitVec.eq_of_toNat_eq
        simp
      rw [e1, e2]
      cases f <;> (unfold stepLoop; rw [if_pos rfl])
    rw [hloop, Outcome.ok_bind]
    show Outcome.ok (_, seat (seat a id _) id _) = _
    rw [seat_seat]
    congr 3
    apply BitVec.eq_of_toNat_eq
    simp
    omega
  · intro j hj w hw
    rw [hrun'] at hw ⊢
    rcases hc _ _ hw with h | ⟨k, hk, h4, h5⟩
    · have := hs.cache (n.toNat + j) (by omega) w (by rw [hrun, ← Nat.add_assoc]; exact h)
      rw [hrun, ← Nat.add_assoc] at this
      exact this
    · rw [hrun] at h4 h5
      rw [h5]
      have := hst (i + k) (i + n.toNat + j) (by omega) (by omega)
      rw [h4] at this
      exact this.symm

/-- The step of the agent that reaches the end. -/
theorem call_last (R : Params σ) (m : Machine σ) (T i : Nat) (hT : T < 2147483647) (hiT : i ≤ T)
    (hq : ∀ j < T, (next R.env.sem (run R.env.sem j m)).2 = [])
    (hlast : (next R.env.sem (run R.env.sem T m)).2 = [.ev .userRequest]) (hst : Steady R.env.sem m (T + 1))
    (id : BitVec 32) (n : BitVec 64) (hi : T < i + n.toNat) (a : Agent (St σ)) (s : St σ) (hs : At R m T i s) :
    ∃ s', call (core R) (.step id n false) (seat a id s) =
        .ok ({ ret := BitVec.ofNat 64 (T + 1 - i), status := some 0 }, seat a id s') ∧
      s'.status = .halted ∧ s'.m = run R.env.sem (T + 1) m := by
  have hrun : ∀ j, run R.env.sem j s.m = run R.env.sem (i + j) m := fun j => by rw [hs.m, ← Top.run_add]
  obtain ⟨k, hk⟩ : ∃ k, k = (if n.toNat > intMax then intMax else n.toNat) := ⟨_, rfl⟩
  have hk' : T - i < k := by
    rw [hk]; split
    · unfold intMax; omega
    · omega
  obtain ⟨s', e, hm, h1, h2, -, -⟩ := Top.step_stops R.env s (T - i) k hk' hs.status hs.stepOver
    (fun j hj => by rw [hrun]; exact hq _ (by omega))
    (by rw [hrun, show i + (T - i) = T by omega]; exact hlast)
    (fun j hj w hw => hs.cache j (by omega) w hw)
    (fun j k hjk hk => by rw [hrun, hrun]; exact hst _ _ (by omega) (by omega))
  refine ⟨s', ?_, h1, by rw [hm, hrun, show i + (T - i + 1) = T + 1 by omega]⟩
  show step (core R) id n false _ = _
  unfold step
  rw [seat_inst]
  dsimp only
  have hn0 : n ≠ 0 := by rintro rfl; simp at hi; omega
  rw [if_neg hn0]
  have hr : (core R).reason s = some .none := congrArg some hs.reason
  rw [hr]
  dsimp only
  rw [if_neg (by simp)]
  have hstep : (core R).step k s = .ok (some ((T - i + 1 : Nat) : Int), s') := by
    show stepN R k s = _
    unfold stepN
    rw [e, Outcome.ok_bind]
  have hr' : (core R).reason s' = some .userRequest := congrArg some h2
  have hloop : stepLoop (core R) n.toNat n 0 s = .ok (0 + BitVec.ofInt 32 ((T - i + 1 : Nat) : Int), kOk, s') := by
    obtain ⟨f, hf⟩ : ∃ f, n.toNat = f + 1 := ⟨n.toNat - 1, by omega⟩
    have hk2 := hk
    rw [hf] at hk2 ⊢
    rw [stepLoop, if_neg hn0]
    dsimp only
    rw [hf, ← hk2, hstep, Outcome.ok_bind]
    dsimp only
    rw [hr']
    rfl
  rw [hloop, Outcome.ok_bind]
  show Outcome.ok (_, seat (seat a id _) id _) = _
  rw [seat_seat]
  congr 3
  apply BitVec.eq_of_toNat_eq
  simp
  omega

/-- Stepping in pieces up to the end. -/
theorem calls_steps (R : Params σ) (m : Machine σ) (T : Nat) (hT : T < 2147483647)
    (hq : ∀ j < T, (next R.env.sem (run R.env.sem j m)).2 = [])
    (hlast : (next R.env.sem (run R.env.sem T m)).2 = [.ev .userRequest]) (hst : Steady R.env.sem m (T + 1))
    (id : BitVec 32) (n : BitVec 64) (a : Agent (St σ)) (cs : List Call) :
    ∀ (ns : List (BitVec 64)) (i : Nat) (s : St σ), (∀ k ∈ ns, 0 < k.toNat) → i + (ns.map BitVec.toNat).sum ≤ T →
      T < i + (ns.map BitVec.toNat).sum + n.toNat → At R m T i s →
      ∃ s', s'.status = .halted ∧ s'.m = run R.env.sem (T + 1) m ∧ ∀ tr a', calls (core R) cs (seat a id s') = .ok (tr, a') →
        ∃ tr', calls (core R) (ns.map (fun k => Call.step id k false) ++ .step id n false :: cs) (seat a id s) = .ok (tr', a') ∧
          tr'.map Prod.snd = ns.map (fun k => { ret := k, status := some 0 }) ++
            { ret := BitVec.ofNat 64 (T + 1 - (i + (ns.map BitVec.toNat).sum)), status := some 0 } :: tr.map Prod.snd
  | [], i, s, _, h1, h2, hs => by
    simp only [List.map_nil, List.sum_nil, Nat.add_zero] at h1 h2
    obtain ⟨s', e, e1, e2⟩ := call_last R m T i hT h1 hq hlast hst id n h2 a s hs
    exact ⟨s', e1, e2, fun tr a' h => ⟨_, calls_cons e h, rfl⟩⟩
  | k :: ns, i, s, h0, h1, h2, hs => by
    simp only [List.map_cons, List.sum_cons] at h1 h2
    obtain ⟨s1, e, e1⟩ := call_part R m T i hT hq hst id k (h0 k (by simp)) (by omega) a s hs
    obtain ⟨s', f1, f2, f3⟩ := calls_steps R m T hT hq hlast hst id n a cs ns _ s1 (fun j hj => h0 j (by simp [hj]))
      (by omega) (by omega) e1
    refine ⟨s', f1, f2, fun tr a' h => ?_⟩
    obtain ⟨tr', g1, g2⟩ := f3 tr a' h
    refine ⟨_, calls_cons e g1, ?_⟩
    simp only [List.map_cons, List.sum_cons, List.cons_append, g2]
    rw [Nat.add_assoc]

/-! ## What the calls keep -/

/-- Every call of the core keeps `P`. -/
structure Keeps (core : Core δ) (P : δ → Prop) : Prop where
  create : ∀ mem c d, core.create mem c = some d → P d
  writeReg : ∀ reg v d, P d → P (core.writeReg reg v d).2
  writeMem : ∀ ad b d r, P d → core.writeMem ad b d = .ok r → P r.2
  loadElf : ∀ f d, P d → P (core.loadElf f d).2
  writePc : ∀ e d, P d → P (core.writePc e d).2
  loadImage : ∀ f ad d r, P d → core.loadImage f ad d = .ok r → P r.2
  step : ∀ n d r, P d → core.step n d = .ok r → P r.2
  halt : ∀ d, P d → P (core.halt d).2

theorem stepLoop_inv {core : Core δ} {P : δ → Prop} (hk : Keeps core P) : ∀ (fuel : Nat) (left : BitVec 64) (total : BitVec 32)
    (d : δ) (r : BitVec 32 × BitVec 32 × δ), P d → stepLoop core fuel left total d = .ok r → P r.2.2
  | 0, left, total, d, r, hd, h => by
    unfold stepLoop at h
    split at h
    · cases h; exact hd
    · cases h
  | fuel + 1, left, total, d, r, hd, h => by
    unfold stepLoop at h
    split at h
    · cases h; exact hd
    · dsimp only at h
      generalize (if left.toNat > intMax then intMax else left.toNat : Nat) = c at h
      cases hx : core.step c d with
      | ub => rw [hx] at h; cases h
      | abort => rw [hx] at h; cases h
      | ok x =>
        have hp := hk.step _ _ _ hd hx
        rw [hx, Outcome.ok_bind] at h
        obtain ⟨e, d'⟩ := x
        cases e with
        | none => cases h; exact hp
        | some e =>
          dsimp only at h
          split at h
          · cases h; exact hp
          · split at h
            · cases h; exact hp
            · split at h
              · cases h; exact hp
              · exact stepLoop_inv hk fuel _ _ d' r hp h

theorem seat_inv {P : δ → Prop} {a : Agent δ} (ha : ∀ id d, a.inst id = some d → P d) (id : BitVec 32) (d : δ) (hd : P d)
    (k : BitVec 32) (e : δ) (he : ({ a with inst := put a.inst id (some d) } : Agent δ).inst k = some e) : P e := by
  by_cases h : k = id
  · subst h
    rw [show ({ a with inst := put a.inst k (some d) } : Agent δ).inst k = some d from put_same _ _ _] at he
    cases he; exact hd
  · rw [show ({ a with inst := put a.inst id (some d) } : Agent δ).inst k = a.inst k from put_ne _ _ h] at he
    exact ha k e he

theorem call_inv {core : Core δ} {P : δ → Prop} (hk : Keeps core P) (c : Call) (a : Agent δ)
    (ha : ∀ id d, a.inst id = some d → P d) (r : Reply) (a' : Agent δ) (h : call core c a = .ok (r, a')) :
    ∀ id d, a'.inst id = some d → P d := by
  cases c with
  | construct len mem =>
    simp only [call, construct] at h
    cases hc : core.create mem a.count with
    | none => rw [hc] at h; cases h; exact ha
    | some d =>
      rw [hc] at h; cases h
      intro id e he
      dsimp only at he
      unfold emplace at he
      cases hi : a.inst a.count with
      | some _ => rw [hi] at he; exact ha id e he
      | none => rw [hi] at he; exact seat_inv ha _ d (hk.create _ _ _ hc) id e he
  | destruct id =>
    simp only [call, destroy] at h
    cases hi : a.inst id with
    | none => rw [hi] at h; cases h; exact ha
    | some d =>
      rw [hi] at h; cases h
      intro k e he
      by_cases hkk : k = id
      · subst hkk; simp [put_same] at he
      · dsimp only at he; rw [put_ne _ _ hkk] at he; exact ha k e he
  | reset id =>
    simp only [call, reset] at h
    cases hi : a.inst id <;> (rw [hi] at h; cases h; exact ha)
  | regInfoSize id =>
    simp only [call, regInfoSize] at h
    cases hi : a.inst id <;> (rw [hi] at h; cases h; exact ha)
  | regInfo id index nl =>
    simp only [call, regInfo] at h
    split at h
    · cases h; exact ha
    · split at h
      · cases h; exact ha
      · split at h
        · cases h
        · rename_i d _ _ len _
          cases hx : core.regInfo index len d with
          | ub => rw [hx] at h; cases h
          | abort => rw [hx] at h; cases h
          | ok x => rw [hx, Outcome.ok_bind] at h; cases x <;> (cases h; exact ha)
  | loadExecutable id f nl =>
    simp only [call, loadExecutable] at h
    split at h
    · cases h
    · cases hi : a.inst id with
      | none => rw [hi] at h; cases h; exact ha
      | some d =>
        rw [hi] at h
        dsimp only at h
        have h1 := hk.loadElf f d (ha id d hi)
        rcases hr : core.loadElf f d with ⟨_ | e, d'⟩
        · rw [hr] at h h1; cases h; exact seat_inv ha id d' h1
        · rw [hr] at h h1
          dsimp only at h
          have h2 := hk.writePc e d' h1
          rcases hw : core.writePc e d' with ⟨_ | u, d''⟩ <;> (rw [hw] at h h2; cases h; exact seat_inv ha id d'' h2)
  | loadImage id f ad =>
    simp only [call, Model.Agent.loadImage] at h
    cases hi : a.inst id with
    | none => rw [hi] at h; cases h; exact ha
    | some d =>
      rw [hi] at h
      dsimp only at h
      cases hx : core.loadImage f ad d with
      | ub => rw [hx] at h; cases h
      | abort => rw [hx] at h; cases h
      | ok x =>
        have h1 := hk.loadImage _ _ _ _ (ha id d hi) hx
        rw [hx, Outcome.ok_bind] at h; cases h; exact seat_inv ha id _ h1
  | readRegister id reg nl =>
    simp only [call, readRegister] at h
    split at h
    · cases h; exact ha
    · split at h
      · cases h; exact ha
      · split at h <;> (cases h; exact ha)
  | writeRegister id reg v =>
    simp only [call, writeRegister] at h
    cases hi : a.inst id with
    | none => rw [hi] at h; cases h; exact ha
    | some d => rw [hi] at h; cases h; exact seat_inv ha id _ (hk.writeReg _ _ _ (ha id d hi))
  | readMemory id ad len =>
    simp only [call, readMemory] at h
    cases hi : a.inst id with
    | none => rw [hi] at h; cases h; exact ha
    | some d =>
      rw [hi] at h
      dsimp only at h
      cases hx : core.readMem ad len d with
      | ub => rw [hx] at h; cases h
      | abort => rw [hx] at h; cases h
      | ok x => rw [hx, Outcome.ok_bind] at h; cases x <;> (cases h; exact ha)
  | writeMemory id ad b =>
    simp only [call, writeMemory] at h
    cases hi : a.inst id with
    | none => rw [hi] at h; cases h; exact ha
    | some d =>
      rw [hi] at h
      dsimp only at h
      cases hx : core.writeMem ad b d with
      | ub => rw [hx] at h; cases h
      | abort => rw [hx] at h; cases h
      | ok x =>
        have h1 := hk.writeMem _ _ _ _ (ha id d hi) hx
        rw [hx, Outcome.ok_bind] at h; cases h; exact seat_inv ha id _ h1
  | step id n nl =>
    simp only [call, step] at h
    cases hi : a.inst id with
    | none => rw [hi] at h; cases h; exact ha
    | some d =>
      rw [hi] at h
      dsimp only at h
      split at h
      · cases h; exact ha
      · split at h
        · cases h; exact ha
        · split at h
          · cases h; exact ha
          · cases hx : stepLoop core n.toNat n 0 d with
            | ub => rw [hx] at h; cases h
            | abort => rw [hx] at h; cases h
            | ok x =>
              have h1 := stepLoop_inv hk _ _ _ _ _ (ha id d hi) hx
              rw [hx, Outcome.ok_bind] at h; cases h; exact seat_inv ha id _ h1
  | halt id nl =>
    simp only [call, Model.Agent.halt] at h
    cases hi : a.inst id with
    | none => rw [hi] at h; cases h; exact ha
    | some d =>
      rw [hi] at h
      have h1 := hk.halt d (ha id d hi)
      rcases hr : core.halt d with ⟨o, d'⟩
      rw [hr] at h1
      simp only [hr] at h
      split at h
      · cases h; exact seat_inv ha id d' h1
      · split at h <;> (cases h; exact seat_inv ha id d' h1)

theorem calls_inv (core : Core δ) (P : δ → Prop) (hk : Keeps core P) : ∀ (cs : List Call) (a : Agent δ),
    (∀ id d, a.inst id = some d → P d) → ∀ tr a', calls core cs a = .ok (tr, a') → ∀ id d, a'.inst id = some d → P d
  | [], a, ha, tr, a', h => by cases h; exact ha
  | c :: cs, a, ha, tr, a', h => by
    rw [calls] at h
    cases hx : call core c a with
    | ub => rw [hx] at h; cases h
    | abort => rw [hx] at h; cases h
    | ok x =>
      rw [hx, Outcome.ok_bind] at h
      cases hy : calls core cs x.2 with
      | ub => rw [hy] at h; cases h
      | abort => rw [hy] at h; cases h
      | ok y =>
        rw [hy, Outcome.ok_bind] at h
        cases h
        exact calls_inv core P hk cs x.2 (call_inv hk c a ha x.1 x.2 hx) y.1 y.2 hy

theorem writePc_halted (v : Nat) (s : St σ) (h : s.status = .halted) : (Model.Top.writePc v s).2.status = .halted := by
  unfold Model.Top.writePc
  rw [if_neg (by simp [h])]
  dsimp only [Model.Top.setPc]
  split <;> exact h

theorem step_halted {env : Model.Top.Env σ} {n : Int} {s : St σ} {r : Except Model.Top.Err Nat × St σ}
    (h : Model.Top.step env n s = .ok r) (hs : s.status = .halted) : r.2.status = .halted := by
  unfold Model.Top.step at h
  split at h
  · cases h; exact hs
  · split at h
    · cases h; exact hs
    · dsimp only [Model.Top.stepEnd] at h
      revert h
      generalize Model.Top.finishPc _ _ _ = o
      cases o with
      | ok x => intro h; cases h; rfl
      | ub => intro h; cases h
      | abort => intro h; cases h

/-- Writing memory that exists, on any halted instance. -/
theorem poke_live (R : Params σ) (id : BitVec 32) (ad : BitVec 64) (b : List (BitVec 8)) (hb : b ≠ [])
    (hl : ad.toNat + b.length ≤ 0x400000) (a : Agent (St σ)) (s : St σ) (hs : s.status = .halted) :
    ∃ s', writeMemory (core R) id ad b (seat a id s) = .ok ({ ret := BitVec.ofNat 64 b.length }, seat a id s') ∧
      s'.status = .halted ∧ Spec.DebugMem.IsWrite s.m.mem s'.m.mem ad.toNat b := by
  have h0 : 0 < b.length := List.length_pos_iff.2 hb
  have hw := DebugMem.writeMemory_ok s.m.mem ad.toNat b (show ad.toNat ≤ 0x3fffff by omega) hb
  rw [Nat.min_eq_left (by omega), List.take_of_length_le (by omega)] at hw
  have h1 : (core R).writeMem ad b s =
      .ok (some b.length, { s with m := { s.m with mem := DebugMem.put s.m.mem ad.toNat b } }) := by
    show writeMem ad b s = _
    unfold writeMem isHalted
    rw [hs]
    show Model.DebugMem.writeMemory true s.m.mem ad.toNat b >>= _ = _
    rw [hw, Outcome.ok_bind]
    rfl
  refine ⟨{ s with m := { s.m with mem := DebugMem.put s.m.mem ad.toNat b } }, ?_, hs, DebugMem.isWrite_put _ _ _⟩
  unfold writeMemory
  rw [seat_inst]
  dsimp only
  rw [h1, Outcome.ok_bind]
  show Outcome.ok (_, seat (seat a id _) id _) = _
  rw [seat_seat]
  rfl

end Verif.Proofs.RenodeCore
