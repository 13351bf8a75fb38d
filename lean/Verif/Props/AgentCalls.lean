import Verif.Proofs.Agent

/-!
# C92: the agent stands in front of each instance as if it were the only one

The replies to the calls on one identifier are those the instance behind it would give alone, under any identifier, and
they report the instance's own answer.
-/

namespace Verif.Props

open Verif.Model.Agent Verif.Proofs.Agent

variable {δ : Type}

/-- The same call addressed to another identifier. -/
def readdress (j : BitVec 32) : Call → Call
  | .construct len mem => .construct len mem
  | .destruct _ => .destruct j
  | .reset _ => .reset j
  | .regInfoSize _ => .regInfoSize j
  | .regInfo _ index nl => .regInfo j index nl
  | .loadExecutable _ f nl => .loadExecutable j f nl
  | .loadImage _ f ad => .loadImage j f ad
  | .readRegister _ r nl => .readRegister j r nl
  | .writeRegister _ r v => .writeRegister j r v
  | .readMemory _ ad l => .readMemory j ad l
  | .writeMemory _ ad b => .writeMemory j ad b
  | .step _ n nl => .step j n nl
  | .halt _ nl => .halt j nl

/-- One call: the reply, and what becomes of the instance, depend on the instance and its name length alone. -/
theorem C92_call (core : Core δ) (c : Call) (i j : BitVec 32) (hi : c.id? = some i) (a b : Agent δ)
    (hinst : a.inst i = b.inst j) (hlen : a.nameLen i = b.nameLen j) (a' : Agent δ) (r : Reply)
    (h : call core c a = .ok (r, a')) :
    ∃ b', call core (readdress j c) b = .ok (r, b') ∧ a'.inst i = b'.inst j ∧ a'.nameLen i = b'.nameLen j ∧
      ∀ k, k ≠ j → b'.inst k = b.inst k := by
  suffices hs : ∃ b', call core (readdress j c) b = .ok (r, b') ∧ a'.inst i = b'.inst j by
    obtain ⟨b', h1, h2⟩ := hs
    have la := (call_local core c a a' r i hi h).1
    have lb := (call_local core (readdress j c) b b' r j (by cases c <;> first | rfl | cases hi) h1).1
    exact ⟨b', h1, h2, by rw [la.1, lb.1, hlen], lb.2.2⟩
  cases c with
  | construct _ _ => cases hi
  | destruct k =>
    injection hi with hi; subst hi
    simp only [call, readdress, destroy, hinst] at h ⊢
    cases hb : b.inst j with
    | none => rw [hb] at h; obtain ⟨rfl, rfl⟩ := ok_pair h; exact ⟨_, rfl, by rw [hinst]⟩
    | some d => rw [hb] at h; obtain ⟨rfl, rfl⟩ := ok_pair h; exact ⟨_, rfl, by simp [put_same]⟩
  | reset k =>
    injection hi with hi; subst hi
    simp only [call, readdress, reset, hinst] at h ⊢
    cases hb : b.inst j <;> (rw [hb] at h; obtain ⟨rfl, rfl⟩ := ok_pair h; exact ⟨_, rfl, by rw [hinst]⟩)
  | regInfoSize k =>
    injection hi with hi; subst hi
    simp only [call, readdress, regInfoSize, hinst] at h ⊢
    cases hb : b.inst j <;> (rw [hb] at h; obtain ⟨rfl, rfl⟩ := ok_pair h; exact ⟨_, rfl, by rw [hinst]⟩)
  | regInfo k index nl =>
    injection hi with hi; subst hi
    simp only [call, readdress, regInfo, hinst, hlen] at h ⊢
    cases nl with
    | true => obtain ⟨rfl, rfl⟩ := ok_pair h; exact ⟨_, rfl, hinst⟩
    | false =>
      cases hb : b.inst j with
      | none => rw [hb] at h; obtain ⟨rfl, rfl⟩ := ok_pair h; exact ⟨_, rfl, by rw [hinst]⟩
      | some d =>
        rw [hb] at h
        cases hl : b.nameLen j with
        | none => rw [hl] at h; cases h
        | some len =>
          rw [hl] at h
          dsimp only at h ⊢
          cases hr : core.regInfo index len d with
          | ub => rw [hr] at h; cases h
          | abort => rw [hr] at h; cases h
          | ok x =>
            rw [hr] at h
            cases x <;> (obtain ⟨rfl, rfl⟩ := ok_pair h; exact ⟨_, rfl, hinst⟩)
  | loadExecutable k f nl =>
    injection hi with hi; subst hi
    simp only [call, readdress, loadExecutable, hinst] at h ⊢
    cases nl with
    | true => cases h
    | false =>
      cases hb : b.inst j with
      | none => rw [hb] at h; obtain ⟨rfl, rfl⟩ := ok_pair h; exact ⟨_, rfl, by rw [hinst]⟩
      | some d =>
        rw [hb] at h
        dsimp only at h ⊢
        rcases hr : core.loadElf f d with ⟨_ | e, d'⟩
        · rw [hr] at h; obtain ⟨rfl, rfl⟩ := ok_pair h; exact ⟨_, rfl, by simp [put_same]⟩
        · rw [hr] at h
          dsimp only at h ⊢
          rcases hw : core.writePc e d' with ⟨_ | u, d''⟩ <;>
            (rw [hw] at h; obtain ⟨rfl, rfl⟩ := ok_pair h; exact ⟨_, rfl, by simp [put_same]⟩)
  | loadImage k f ad =>
    injection hi with hi; subst hi
    simp only [call, readdress, loadImage, hinst] at h ⊢
    cases hb : b.inst j with
    | none => rw [hb] at h; obtain ⟨rfl, rfl⟩ := ok_pair h; exact ⟨_, rfl, by rw [hinst]⟩
    | some d =>
      rw [hb] at h
      dsimp only at h ⊢
      cases hr : core.loadImage f ad d with
      | ub => rw [hr] at h; cases h
      | abort => rw [hr] at h; cases h
      | ok x => rw [hr] at h; obtain ⟨rfl, rfl⟩ := ok_pair h; exact ⟨_, rfl, by simp [put_same]⟩
  | readRegister k rg nl =>
    injection hi with hi; subst hi
    simp only [call, readdress, readRegister, hinst] at h ⊢
    cases nl with
    | true => obtain ⟨rfl, rfl⟩ := ok_pair h; exact ⟨_, rfl, hinst⟩
    | false =>
      cases hb : b.inst j with
      | none => rw [hb] at h; obtain ⟨rfl, rfl⟩ := ok_pair h; exact ⟨_, rfl, by rw [hinst]⟩
      | some d =>
        rw [hb] at h
        dsimp only at h ⊢
        cases hr : core.readReg rg d <;>
          (rw [hr] at h; obtain ⟨rfl, rfl⟩ := ok_pair h; exact ⟨_, rfl, hinst⟩)
  | writeRegister k rg v =>
    injection hi with hi; subst hi
    simp only [call, readdress, writeRegister, hinst] at h ⊢
    cases hb : b.inst j with
    | none => rw [hb] at h; obtain ⟨rfl, rfl⟩ := ok_pair h; exact ⟨_, rfl, by rw [hinst]⟩
    | some d => rw [hb] at h; obtain ⟨rfl, rfl⟩ := ok_pair h; exact ⟨_, rfl, by simp [put_same]⟩
  | readMemory k ad l =>
    injection hi with hi; subst hi
    simp only [call, readdress, readMemory, hinst] at h ⊢
    cases hb : b.inst j with
    | none => rw [hb] at h; obtain ⟨rfl, rfl⟩ := ok_pair h; exact ⟨_, rfl, by rw [hinst]⟩
    | some d =>
      rw [hb] at h
      dsimp only at h ⊢
      cases hr : core.readMem ad l d with
      | ub => rw [hr] at h; cases h
      | abort => rw [hr] at h; cases h
      | ok x =>
        rw [hr] at h
        cases x <;> (obtain ⟨rfl, rfl⟩ := ok_pair h; exact ⟨_, rfl, hinst⟩)
  | writeMemory k ad bs =>
    injection hi with hi; subst hi
    simp only [call, readdress, writeMemory, hinst] at h ⊢
    cases hb : b.inst j with
    | none => rw [hb] at h; obtain ⟨rfl, rfl⟩ := ok_pair h; exact ⟨_, rfl, by rw [hinst]⟩
    | some d =>
      rw [hb] at h
      dsimp only at h ⊢
      cases hr : core.writeMem ad bs d with
      | ub => rw [hr] at h; cases h
      | abort => rw [hr] at h; cases h
      | ok x => rw [hr] at h; obtain ⟨rfl, rfl⟩ := ok_pair h; exact ⟨_, rfl, by simp [put_same]⟩
  | step k n nl =>
    injection hi with hi; subst hi
    simp only [call, readdress, step, hinst] at h ⊢
    cases hb : b.inst j with
    | none => rw [hb] at h; obtain ⟨rfl, rfl⟩ := ok_pair h; exact ⟨_, rfl, by rw [hinst]⟩
    | some d =>
      rw [hb] at h
      dsimp only at h ⊢
      split at h
      · next hn => rw [if_pos hn]; obtain ⟨rfl, rfl⟩ := ok_pair h; exact ⟨_, rfl, hinst⟩
      · next hn =>
        rw [if_neg hn]
        cases hr : core.reason d with
        | none => rw [hr] at h; obtain ⟨rfl, rfl⟩ := ok_pair h; exact ⟨_, rfl, hinst⟩
        | some x =>
          rw [hr] at h
          dsimp only at h ⊢
          split at h
          · next hx => rw [if_pos hx]; obtain ⟨rfl, rfl⟩ := ok_pair h; exact ⟨_, rfl, hinst⟩
          · next hx =>
            rw [if_neg hx]
            cases hs : stepLoop core n.toNat n 0 d with
            | ub => rw [hs] at h; cases h
            | abort => rw [hs] at h; cases h
            | ok x =>
              rw [hs] at h
              obtain ⟨rfl, rfl⟩ := ok_pair h; exact ⟨_, rfl, by simp [put_same]⟩
  | halt k nl =>
    injection hi with hi; subst hi
    change Outcome.ok (halt core k nl a) = _ at h
    change ∃ b', Outcome.ok (halt core j nl b) = _ ∧ _
    unfold halt at h ⊢
    rw [hinst] at h
    cases hb : b.inst j with
    | none => rw [hb] at h; obtain ⟨rfl, rfl⟩ := ok_pair h; exact ⟨_, rfl, by rw [hinst]⟩
    | some d =>
      rw [hb] at h
      rcases hr : core.halt d with ⟨_ | u, d'⟩
      · simp only [hr] at h ⊢; obtain ⟨rfl, rfl⟩ := ok_pair h; exact ⟨_, rfl, by simp [put_same]⟩
      · simp only [hr] at h ⊢
        cases hq : core.reason d' <;>
          (rw [hq] at h; obtain ⟨rfl, rfl⟩ := ok_pair h; exact ⟨_, rfl, by simp [put_same]⟩)

/-- C92: take any history on any agent in which the instance `i` is never ended. The calls on `i`, made instead in the
same order on an agent that has only that instance, under whatever identifier `j`, get the same replies and leave the
instance in the same state. -/
theorem C92_alone (core : Core δ) (i j : BitVec 32) : ∀ (cs : List Call) (a a' : Agent δ) (tr : List (Call × Reply))
    (d : δ) (len : BitVec 32), a.inst i = some d → a.nameLen i = some len → Call.destruct i ∉ cs →
    calls core cs a = .ok (tr, a') → ∀ b : Agent δ, b.inst j = some d → b.nameLen j = some len →
    ∃ b', calls core ((cs.filter fun c => c.id? = some i).map (readdress j)) b =
        .ok ((tr.filter fun p => p.1.id? = some i).map fun p => (readdress j p.1, p.2), b') ∧
      a'.inst i = b'.inst j ∧ (a'.inst i).isSome = true ∧ ∀ k, k ≠ j → b'.inst k = b.inst k
  | [], a, a', tr, d, len, hd, _, _, h, b, hb, _ => by
    obtain ⟨rfl, rfl⟩ := ok_pair h
    exact ⟨b, rfl, by rw [hd, hb], by rw [hd]; rfl, fun _ _ => rfl⟩
  | c :: cs, a, a', tr, d, len, hd, hl, hno, h, b, hb, hbl => by
    unfold calls at h
    cases hc : call core c a with
    | ub => rw [hc] at h; cases h
    | abort => rw [hc] at h; cases h
    | ok x =>
      obtain ⟨r, a1⟩ := x
      rw [hc, Outcome.ok_bind] at h
      dsimp only at h
      cases hcs : calls core cs a1 with
      | ub => rw [hcs] at h; cases h
      | abort => rw [hcs] at h; cases h
      | ok y =>
        obtain ⟨tr1, a2⟩ := y
        rw [hcs, Outcome.ok_bind] at h
        obtain ⟨rfl, rfl⟩ := ok_pair h
        have hno' : Call.destruct i ∉ cs := fun hm => hno (List.mem_cons_of_mem _ hm)
        by_cases hid : c.id? = some i
        · obtain ⟨b1, e1, e2, e3, e4⟩ := C92_call core c i j hid a b (by rw [hd, hb]) (by rw [hl, hbl]) a1 r hc
          have hsome : (a1.inst i).isSome = true := by
            rw [(call_local core c a a1 r i hid hc).2 (fun k hk => ?_), hd]; · rfl
            subst hk
            injection hid with hid; subst hid
            exact hno List.mem_cons_self
          obtain ⟨d1, hd1⟩ := Option.isSome_iff_exists.1 hsome
          have hl1 : a1.nameLen i = some len := by rw [(call_local core c a a1 r i hid hc).1.1, hl]
          obtain ⟨b', f1, f2, f3, f4⟩ := C92_alone core i j cs a1 a2 tr1 d1 len hd1 hl1 hno' hcs b1 (e2 ▸ hd1)
            (e3 ▸ hl1)
          refine ⟨b', ?_, f2, f3, fun k hk => (f4 k hk).trans (e4 k hk)⟩
          simp only [List.filter_cons, hid, decide_true, if_true, List.map_cons]
          unfold calls
          rw [e1, Outcome.ok_bind]
          dsimp only
          rw [f1, Outcome.ok_bind]
        · have hkeep : a1.inst i = some d ∧ a1.nameLen i = some len := by
            cases hk : c.id? with
            | some k =>
              have := (call_local core c a a1 r k hk hc).1
              rw [this.1, this.2.2 i (by rintro rfl; exact hid hk)]
              exact ⟨hd, hl⟩
            | none =>
              cases c with
              | construct ln mem =>
                simp only [call, construct] at hc
                split at hc
                · obtain ⟨-, rfl⟩ := ok_pair hc; exact ⟨hd, hl⟩
                · obtain ⟨-, rfl⟩ := ok_pair hc
                  exact ⟨emplace_keep _ _ _ _ _ hd, emplace_keep _ _ _ _ _ hl⟩
              | _ => cases hk
          obtain ⟨b', f1, f2, f3, f4⟩ := C92_alone core i j cs a1 a2 tr1 d len hkeep.1 hkeep.2 hno' hcs b hb hbl
          refine ⟨b', ?_, f2, f3, f4⟩
          simpa only [List.filter_cons, hid, decide_false, if_false, Bool.false_eq_true] using f1

/-- C92: what the replies say. An accepted request is answered 0 (memory transfers: the number of bytes; a loaded
program: its entry point) together with the instance's own value; a refused one -1 (memory transfers: 0; a program: the
aborted status). The reading calls change nothing at all; the others leave the instance as the core left it. -/
theorem C92_reply (core : Core δ) (a : Agent δ) (id : BitVec 32) (d : δ) (hd : a.inst id = some d) :
    (∀ reg v, core.readReg reg d = some v → call core (.readRegister id reg false) a = .ok ({ ret := 0, value := some v }, a)) ∧
    (∀ reg, core.readReg reg d = none → call core (.readRegister id reg false) a = .ok ({ ret := 0xffffffff }, a)) ∧
    (∀ reg, call core (.readRegister id reg true) a = .ok ({ ret := 0xffffffff }, a)) ∧
    (∀ addr len b, core.readMem addr len d = .ok (some b) → b.length < 2 ^ 64 → ∃ rep,
      call core (.readMemory id addr len) a = .ok (rep, a) ∧ rep.ret.toNat = b.length ∧ rep.bytes = some b) ∧
    (∀ addr len, core.readMem addr len d = .ok none → call core (.readMemory id addr len) a = .ok ({ ret := 0 }, a)) ∧
    (core.infoSize d < 2 ^ 31 → ∃ rep, call core (.regInfoSize id) a = .ok (rep, a) ∧ rep.ret.toNat = core.infoSize d) ∧
    (∀ index len info, a.nameLen id = some len → core.regInfo index len d = .ok (some info) →
      call core (.regInfo id index false) a = .ok ({ ret := 0, info := some info }, a)) ∧
    (∀ index len, a.nameLen id = some len → core.regInfo index len d = .ok none →
      call core (.regInfo id index false) a = .ok ({ ret := 0xffffffff }, a)) ∧
    (∀ index, call core (.regInfo id index true) a = .ok ({ ret := 0xffffffff }, a)) ∧
    call core (.reset id) a = .ok ({ ret := 0 }, a) ∧
    (∃ a', call core (.destruct id) a = .ok ({ ret := 0 }, a') ∧ a'.inst id = none) ∧
    (∀ reg v d', core.writeReg reg v d = (some (), d') → ∃ a', call core (.writeRegister id reg v) a = .ok ({ ret := 0 }, a') ∧
      a'.inst id = some d') ∧
    (∀ reg v d', core.writeReg reg v d = (none, d') → ∃ a', call core (.writeRegister id reg v) a =
      .ok ({ ret := 0xffffffff }, a') ∧ a'.inst id = some d') ∧
    (∀ addr b n d', core.writeMem addr b d = .ok (some n, d') → n < 2 ^ 64 → ∃ rep a', call core (.writeMemory id addr b) a =
      .ok (rep, a') ∧ rep.ret.toNat = n ∧ a'.inst id = some d') ∧
    (∀ addr b d', core.writeMem addr b d = .ok (none, d') → ∃ a', call core (.writeMemory id addr b) a =
      .ok ({ ret := 0 }, a') ∧ a'.inst id = some d') ∧
    (∀ file addr d', core.loadImage file addr d = .ok (some (), d') → ∃ a', call core (.loadImage id file addr) a =
      .ok ({ ret := 0 }, a') ∧ a'.inst id = some d') ∧
    (∀ file addr d', core.loadImage file addr d = .ok (none, d') → ∃ a', call core (.loadImage id file addr) a =
      .ok ({ ret := 0xffffffff }, a') ∧ a'.inst id = some d') ∧
    (∀ file entry d' d'', core.loadElf file d = (some entry, d') → core.writePc entry d' = (some (), d'') → ∃ a',
      call core (.loadExecutable id file false) a = .ok ({ ret := entry, status := some 0 }, a') ∧ a'.inst id = some d'') ∧
    (∀ file d', core.loadElf file d = (none, d') → ∃ a',
      call core (.loadExecutable id file false) a = .ok ({ ret := 0, status := some 0xffffffff }, a') ∧
        a'.inst id = some d') ∧
    (∀ file entry d' d'', core.loadElf file d = (some entry, d') → core.writePc entry d' = (none, d'') → ∃ a',
      call core (.loadExecutable id file false) a = .ok ({ ret := 0, status := some 0xffffffff }, a') ∧
        a'.inst id = some d'') := by
  refine ⟨?_, ?_, ?_, ?_, ?_, ?_, ?_, ?_, ?_, ?_, ?_, ?_, ?_, ?_, ?_, ?_, ?_, ?_, ?_, ?_⟩
  · intro reg v h; simp [call, readRegister, hd, h]
  · intro reg h; simp [call, readRegister, hd, h, err]
  · intro reg; simp [call, readRegister, err]
  · intro addr len b h hl; simp [call, readMemory, hd, h]; omega
  · intro addr len h; simp [call, readMemory, hd, h, zero]
  · intro h; simp [call, regInfoSize, hd]; omega
  · intro index len info hl h; simp [call, regInfo, hd, hl, h]
  · intro index len hl h; simp [call, regInfo, hd, hl, h, err]
  · intro index; simp [call, regInfo, err]
  · simp [call, reset, hd, zero]
  · simp [call, destroy, hd, zero, put]
  · intro reg v d' h; simp [call, writeRegister, hd, h, zero, put]
  · intro reg v d' h; simp [call, writeRegister, hd, h, err, put]
  · intro addr b n d' h hn
    refine ⟨_, _, by simp [call, writeMemory, hd, h]; exact ⟨rfl, rfl⟩, ?_, ?_⟩ <;> simp [put]
    omega
  · intro addr b d' h; simp [call, writeMemory, hd, h, put]
  · intro file addr d' h; simp [call, loadImage, hd, h, zero, put]
  · intro file addr d' h; simp [call, loadImage, hd, h, err, put]
  · intro file entry d' d'' h h'; simp [call, loadExecutable, hd, h, h', put]
  · intro file d' h; simp [call, loadExecutable, hd, h, put, kAborted]
  · intro file entry d' d'' h h'; simp [call, loadExecutable, hd, h, h', put, kAborted]

/-- C92: which calls reach the core, and in which state: `construct` gives the new instance the requested name length and
the state the simulator was created in. -/
theorem C92_construct (core : Core δ) (a : Agent δ) (len : BitVec 32) (mem : Option (Nat × Nat × Nat))
    (hn : a.inst a.count = none) (hl : a.nameLen a.count = none) :
    (∀ d, core.create mem a.count = some d → ∃ rep a', call core (.construct len mem) a = .ok (rep, a') ∧
      rep.ret.toNat = a.count.toNat ∧ a'.inst a.count = some d ∧ a'.nameLen a.count = some len ∧
      ∀ k, k ≠ a.count → a'.inst k = a.inst k) ∧
    (core.create mem a.count = none → call core (.construct len mem) a = .ok ({ ret := 0xffffffff }, a)) := by
  constructor
  · intro d h
    have := a.count.isLt
    refine ⟨_, _, rfl, ?_, ?_, ?_, fun k hk => ?_⟩ <;> simp [h, emplace, hn, hl, put]
    · omega
    · exact fun e => absurd e hk
  · intro h
    simp [call, construct, h, err]

/-- A simulator that counts and can be told to count from elsewhere, refusing the value 9. -/
def dial : Core Nat where
  create _ _ := some 0
  infoSize _ := 33
  regInfo index len _ := .ok (if index.toNat < 33 then some ([len.truncate 8], ⟨index.toNat, 32, true, false⟩) else none)
  readReg r d := if r = 0 then some (BitVec.ofNat 64 d) else none
  writeReg _ v d := if v = 9 then (none, d) else (some (), v.toNat)
  readMem _ len d := .ok (if len = 1 then some [BitVec.ofNat 8 d] else none)
  writeMem _ b d := .ok (some b.length, d + b.length)
  loadElf f d := if f = [] then (none, d) else (some 64, d)
  writePc e _ := (some (), e.toNat)
  loadImage f _ d := .ok (if f = [] then (none, d) else (some (), d + 1))
  step n d := .ok (some n, d + n.toNat)
  reason _ := some .none
  halt d := (some (), d)

/-- Two interleaved instances; the replies of the second are those of an only instance, here called 7. -/
example : ∃ a a', calls dial [.construct 4 none, .construct 5 none, .writeRegister 1 0 3, .writeRegister 0 0 20,
      .step 1 2 false, .readRegister 1 0 false, .regInfo 1 2 false, .writeRegister 1 0 9, .step 0 1 true,
      .readMemory 1 0 1] empty =
    .ok ([(.construct 4 none, { ret := 0 }), (.construct 5 none, { ret := 1 }), (.writeRegister 1 0 3, { ret := 0 }),
      (.writeRegister 0 0 20, { ret := 0 }), (.step 1 2 false, { ret := 2, status := some 0 }),
      (.readRegister 1 0 false, { ret := 0, value := some 5 }),
      (.regInfo 1 2 false, { ret := 0, info := some ([5], ⟨2, 32, true, false⟩) }),
      (.writeRegister 1 0 9, { ret := 0xffffffff }), (.step 0 1 true, { ret := 1 }),
      (.readMemory 1 0 1, { ret := 1, bytes := some [5] })], a) ∧
    calls dial [.writeRegister 7 0 3, .step 7 2 false, .readRegister 7 0 false, .regInfo 7 2 false,
      .writeRegister 7 0 9, .readMemory 7 0 1] ⟨put (fun _ => none) 7 (some 0), put (fun _ => none) 7 (some 5), 0⟩ =
    .ok ([(.writeRegister 7 0 3, { ret := 0 }), (.step 7 2 false, { ret := 2, status := some 0 }),
      (.readRegister 7 0 false, { ret := 0, value := some 5 }),
      (.regInfo 7 2 false, { ret := 0, info := some ([5], ⟨2, 32, true, false⟩) }),
      (.writeRegister 7 0 9, { ret := 0xffffffff }), (.readMemory 7 0 1, { ret := 1, bytes := some [5] })], a') :=
  ⟨_, _, rfl, rfl⟩

end Verif.Props
