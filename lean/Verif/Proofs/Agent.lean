import Verif.Model.Agent
import Verif.Spec.Agent

/-!
# Lemmas about the Renode agent
-/

namespace Verif.Proofs.Agent

open Verif.Model.Agent Verif.Spec.Agent

variable {δ : Type}

theorem ok_pair {α β : Type} {x y : α} {z w : β} (h : (Outcome.ok (x, z) : Outcome (α × β)) = .ok (y, w)) :
    x = y ∧ z = w := by
  injection h with h; exact ⟨congrArg Prod.fst h, congrArg Prod.snd h⟩

theorem put_same {α : Type} (f : BitVec 32 → Option α) (k : BitVec 32) (v : Option α) : put f k v k = v := by
  simp [put]

theorem put_ne {α : Type} (f : BitVec 32 → Option α) {k k' : BitVec 32} (v : Option α) (h : k' ≠ k) :
    put f k v k' = f k' := by
  simp [put, h]

theorem emplace_keep {α : Type} (f : BitVec 32 → Option α) (k k' : BitVec 32) (v d : α) (h : f k' = some d) :
    emplace f k v k' = some d := by
  unfold emplace
  cases hk : f k with
  | some _ => exact h
  | none =>
    dsimp only
    rw [put_ne _ _ (by rintro rfl; rw [hk] at h; cases h), h]

theorem emplace_isSome {α : Type} (f : BitVec 32 → Option α) (k k' : BitVec 32) (v : α) :
    (emplace f k v k').isSome = (decide (k' = k) || (f k').isSome) := by
  unfold emplace
  cases hd : f k with
  | some d =>
    by_cases h : k' = k
    · subst h; simp [hd]
    · simp [h]
  | none => by_cases h : k' = k <;> simp [put, h]

/-- What a call on an instance may change. -/
def Local (id : BitVec 32) (a a' : Agent δ) : Prop :=
  a'.nameLen = a.nameLen ∧ a'.count = a.count ∧ (∀ k, k ≠ id → a'.inst k = a.inst k)

theorem Local.refl (id : BitVec 32) (a : Agent δ) : Local id a a := ⟨rfl, rfl, fun _ _ => rfl⟩

theorem Local.put (id : BitVec 32) (a : Agent δ) (v : Option δ) :
    Local id a { a with inst := put a.inst id v } := ⟨rfl, rfl, fun _ h => put_ne _ _ h⟩

/-- Every call on an identifier is local; only `destruct` ends the instance. -/
theorem call_local (core : Core δ) (c : Call) (a a' : Agent δ) (r : Reply) (id : BitVec 32) (hid : c.id? = some id)
    (h : call core c a = .ok (r, a')) :
    Local id a a' ∧ ((∀ i, c ≠ .destruct i) → (a'.inst id).isSome = (a.inst id).isSome) := by
  have key : ∀ (d : δ) (v : δ), a.inst id = some d →
      Local id a { a with inst := put a.inst id (some v) } ∧
      ((∀ i, c ≠ .destruct i) → (put a.inst id (some v) id).isSome = (a.inst id).isSome) :=
    fun d v hd => ⟨Local.put _ _ _, fun _ => by rw [put_same, hd]; rfl⟩
  have same : Local id a a ∧ ((∀ i, c ≠ .destruct i) → (a.inst id).isSome = (a.inst id).isSome) :=
    ⟨Local.refl _ _, fun _ => rfl⟩
  cases c with
  | construct _ _ => cases hid
  | destruct i =>
    injection hid with hid; subst hid
    unfold call at h
    dsimp only at h
    unfold destroy at h
    refine ⟨?_, fun h => absurd rfl (h i)⟩
    split at h <;> (obtain ⟨h1, h2⟩ := ok_pair h; subst h2)
    · exact Local.refl _ _
    · exact Local.put _ _ _
  | reset i =>
    injection hid with hid; subst hid
    unfold call at h
    dsimp only at h
    unfold reset at h
    split at h <;> (obtain ⟨h1, h2⟩ := ok_pair h; subst h2; exact same)
  | regInfoSize i =>
    injection hid with hid; subst hid
    unfold call at h
    dsimp only at h
    unfold regInfoSize at h
    split at h <;> (obtain ⟨h1, h2⟩ := ok_pair h; subst h2; exact same)
  | regInfo i index nl =>
    injection hid with hid; subst hid
    unfold call at h
    dsimp only at h
    unfold regInfo at h
    split at h
    · obtain ⟨h1, h2⟩ := ok_pair h; subst h2; exact same
    · split at h
      · obtain ⟨h1, h2⟩ := ok_pair h; subst h2; exact same
      · split at h
        · cases h
        · next len _ =>
          cases hr : core.regInfo index len _ with
          | ub => rw [hr] at h; cases h
          | abort => rw [hr] at h; cases h
          | ok x =>
            rw [hr, Outcome.ok_bind] at h
            split at h <;> (obtain ⟨h1, h2⟩ := ok_pair h; subst h2; exact same)
  | loadExecutable i f nl =>
    injection hid with hid; subst hid
    unfold call at h
    dsimp only at h
    unfold loadExecutable at h
    split at h
    · cases h
    · split at h
      · obtain ⟨h1, h2⟩ := ok_pair h; subst h2; exact same
      · next d hd =>
        split at h
        · obtain ⟨h1, h2⟩ := ok_pair h; subst h2; exact key d _ hd
        · split at h <;> (obtain ⟨h1, h2⟩ := ok_pair h; subst h2; exact key d _ hd)
  | loadImage i f ad =>
    injection hid with hid; subst hid
    unfold call at h
    dsimp only at h
    unfold loadImage at h
    split at h
    · obtain ⟨h1, h2⟩ := ok_pair h; subst h2; exact same
    · next d hd =>
      cases hr : core.loadImage f ad d with
      | ub => rw [hr] at h; cases h
      | abort => rw [hr] at h; cases h
      | ok x => rw [hr, Outcome.ok_bind] at h; obtain ⟨h1, h2⟩ := ok_pair h; subst h2; exact key d _ hd
  | readRegister i rg nl =>
    injection hid with hid; subst hid
    unfold call at h
    dsimp only at h
    unfold readRegister at h
    split at h
    · obtain ⟨h1, h2⟩ := ok_pair h; subst h2; exact same
    · split at h
      · obtain ⟨h1, h2⟩ := ok_pair h; subst h2; exact same
      · split at h <;> (obtain ⟨h1, h2⟩ := ok_pair h; subst h2; exact same)
  | writeRegister i rg v =>
    injection hid with hid; subst hid
    unfold call at h
    dsimp only at h
    unfold writeRegister at h
    split at h
    · obtain ⟨h1, h2⟩ := ok_pair h; subst h2; exact same
    · next d hd => obtain ⟨h1, h2⟩ := ok_pair h; subst h2; exact key d _ hd
  | readMemory i ad l =>
    injection hid with hid; subst hid
    unfold call at h
    dsimp only at h
    unfold readMemory at h
    split at h
    · obtain ⟨h1, h2⟩ := ok_pair h; subst h2; exact same
    · next d hd =>
      cases hr : core.readMem ad l d with
      | ub => rw [hr] at h; cases h
      | abort => rw [hr] at h; cases h
      | ok x => rw [hr, Outcome.ok_bind] at h; split at h <;> (obtain ⟨h1, h2⟩ := ok_pair h; subst h2; exact same)
  | writeMemory i ad b =>
    injection hid with hid; subst hid
    unfold call at h
    dsimp only at h
    unfold writeMemory at h
    split at h
    · obtain ⟨h1, h2⟩ := ok_pair h; subst h2; exact same
    · next d hd =>
      cases hr : core.writeMem ad b d with
      | ub => rw [hr] at h; cases h
      | abort => rw [hr] at h; cases h
      | ok x => rw [hr, Outcome.ok_bind] at h; obtain ⟨h1, h2⟩ := ok_pair h; subst h2; exact key d _ hd
  | step i n nl =>
    injection hid with hid; subst hid
    unfold call at h
    dsimp only at h
    unfold step at h
    dsimp only at h
    split at h
    · obtain ⟨h1, h2⟩ := ok_pair h; subst h2; exact same
    · next d hd =>
      split at h
      · obtain ⟨h1, h2⟩ := ok_pair h; subst h2; exact same
      · split at h
        · obtain ⟨h1, h2⟩ := ok_pair h; subst h2; exact same
        · split at h
          · obtain ⟨h1, h2⟩ := ok_pair h; subst h2; exact same
          · cases hr : stepLoop core n.toNat n 0 d with
            | ub => rw [hr] at h; cases h
            | abort => rw [hr] at h; cases h
            | ok x =>
              rw [hr, Outcome.ok_bind] at h
              obtain ⟨h1, h2⟩ := ok_pair h; subst h2; exact key d _ hd
  | halt i nl =>
    injection hid with hid; subst hid
    unfold call at h
    dsimp only at h
    unfold halt at h
    split at h
    · obtain ⟨h1, h2⟩ := ok_pair h; subst h2; exact same
    · next d hd =>
      dsimp only at h
      split at h
      · obtain ⟨h1, h2⟩ := ok_pair h; subst h2; exact key d _ hd
      · split at h <;> (obtain ⟨h1, h2⟩ := ok_pair h; subst h2; exact key d _ hd)

structure Inv (evs : List Event) (a : Agent δ) : Prop where
  nodup : (madeIds evs).Nodup
  lt : ∀ id ∈ madeIds evs, id.toNat < a.count.toNat
  inst : ∀ id, live evs id = (a.inst id).isSome
  made : ∀ id, (a.inst id).isSome = true → id ∈ madeIds evs
  len : ∀ id, (a.inst id).isSome = true → (a.nameLen id).isSome = true

theorem inv_empty : Inv [] (empty : Agent δ) :=
  { nodup := List.nodup_nil
    lt := fun _ h => nomatch h
    inst := fun _ => rfl
    made := fun _ h => nomatch h
    len := fun _ h => nomatch h }

theorem live_append (evs : List Event) (e : Event) (id : BitVec 32) :
    live (evs ++ [e]) id = (match e with
      | .made i => if i = id then true else live evs id
      | .gone i => if i = id then false else live evs id) := by
  unfold live; rw [List.foldl_append]; rfl

theorem madeIds_append (evs l : List Event) : madeIds (evs ++ l) = madeIds evs ++ madeIds l := by
  unfold madeIds; rw [List.filterMap_append]

theorem call_inv (core : Core δ) (c : Call) (evs : List Event) (a a' : Agent δ) (r : Reply) (hi : Inv evs a)
    (hb : Call.isConstruct c = true → a.count.toNat + 1 < 2 ^ 32) (h : call core c a = .ok (r, a')) :
    Inv (evs ++ (event (c, r)).toList) a' ∧
      a'.count.toNat ≤ a.count.toNat + (if Call.isConstruct c then 1 else 0) := by
  cases hid : c.id? with
  | some id =>
    obtain ⟨⟨l1, l2, l3⟩, hs⟩ := call_local core c a a' r id hid h
    have hnc : Call.isConstruct c = false := by cases c <;> first | rfl | cases hid
    refine ⟨?_, by rw [l2, hnc]; simp⟩
    by_cases hd : ∃ i, c = .destruct i
    · obtain ⟨i, rfl⟩ := hd
      injection hid with hid; subst hid
      unfold call at h
      dsimp only at h
      unfold destroy at h
      split at h
      · obtain ⟨h1, h2⟩ := ok_pair h; subst h1 h2
        simpa [event, err] using hi
      · next d hd =>
        obtain ⟨h1, h2⟩ := ok_pair h; subst h1 h2
        have hm : madeIds (evs ++ [Event.gone i]) = madeIds evs := by rw [madeIds_append]; simp [madeIds]
        show Inv (evs ++ [Event.gone i]) _
        refine ⟨by rw [hm]; exact hi.nodup, by rw [hm]; exact hi.lt, fun id => ?_, fun id hx => ?_, fun id hx => ?_⟩
        · rw [live_append]
          by_cases hh : i = id
          · subst hh; simp [put_same]
          · simp only [if_neg hh]; rw [put_ne _ _ (fun e => hh e.symm)]; exact hi.inst id
        · rw [hm]
          by_cases hh : id = i
          · subst hh; simp [put_same] at hx
          · simp only [put_ne _ _ hh] at hx; exact hi.made id hx
        · by_cases hh : id = i
          · subst hh; simp [put_same] at hx
          · simp only [put_ne _ _ hh] at hx; exact hi.len id hx
    · have he : event (c, r) = none := by
        cases c <;> first | rfl | exact absurd ⟨_, rfl⟩ hd | cases hid
      rw [he]
      simp only [Option.toList_none, List.append_nil]
      have hsome : ∀ k, (a'.inst k).isSome = (a.inst k).isSome := by
        intro k
        by_cases hk : k = id
        · subst hk; exact hs (fun i e => hd ⟨i, e⟩)
        · rw [l3 k hk]
      refine ⟨hi.nodup, by rw [l2]; exact hi.lt, fun k => by rw [hsome]; exact hi.inst k,
        fun k hk => hi.made k (by rw [← hsome]; exact hk), fun k hk => by rw [l1]; exact hi.len k (by rw [← hsome]; exact hk)⟩
  | none =>
    cases c with
    | construct len mem =>
      have hb := hb rfl
      unfold call at h
      dsimp only at h
      unfold construct at h
      split at h
      · obtain ⟨h1, h2⟩ := ok_pair h; subst h1 h2
        exact ⟨by simpa [event, err] using hi, by simp⟩
      · next d hd =>
        obtain ⟨h1, h2⟩ := ok_pair h; subst h1 h2
        have hcnt : (a.count + 1).toNat = a.count.toNat + 1 := by
          rw [BitVec.toNat_add]; simp; omega
        have hne : (a.count.zeroExtend 64 : BitVec 64) ≠ 0xffffffff#64 := by
          intro e
          have := congrArg BitVec.toNat e
          simp at this
          omega
        have hev : event (.construct len mem, { ret := a.count.zeroExtend 64 }) = some (.made a.count) := by
          unfold event
          dsimp only
          rw [if_neg hne]
          simp
        rw [hev]
        simp only [Option.toList_some]
        have hm : madeIds (evs ++ [Event.made a.count]) = madeIds evs ++ [a.count] := by
          rw [madeIds_append]; simp [madeIds]
        refine ⟨⟨?_, ?_, fun id => ?_, fun id hx => ?_, fun id hx => ?_⟩, Nat.le_of_eq hcnt⟩
        · rw [hm, List.nodup_append]
          refine ⟨hi.nodup, by simp, fun x hx y hy => ?_⟩
          simp at hy; subst hy
          rintro rfl
          exact absurd (hi.lt _ hx) (by omega)
        · intro id hid
          rw [hm, List.mem_append] at hid
          show id.toNat < (a.count + 1).toNat
          rw [hcnt]
          rcases hid with hid | hid
          · exact Nat.lt_succ_of_lt (hi.lt _ hid)
          · simp at hid; subst hid; omega
        · rw [live_append]
          show _ = (emplace a.inst a.count d id).isSome
          rw [emplace_isSome]
          by_cases hh : a.count = id
          · subst hh; simp
          · simp only [if_neg hh]
            rw [hi.inst id]
            simpa using fun e : id = a.count => absurd e.symm hh
        · rw [hm, List.mem_append]
          rw [emplace_isSome] at hx
          by_cases hh : id = a.count
          · exact Or.inr (by simp [hh])
          · simp [hh] at hx; exact Or.inl (hi.made id (by simpa using hx))
        · show (emplace a.nameLen a.count len id).isSome = true
          rw [emplace_isSome] at hx ⊢
          by_cases hh : id = a.count
          · simp [hh]
          · simp [hh] at hx ⊢; exact hi.len id (by simpa using hx)
    | _ => cases hid

theorem calls_inv (core : Core δ) (cs : List Call) : ∀ (evs : List Event) (a a' : Agent δ) (tr : List (Call × Reply)),
    Inv evs a → a.count.toNat + constructs cs < 2 ^ 32 → calls core cs a = .ok (tr, a') →
    Inv (evs ++ events tr) a' := by
  induction cs with
  | nil =>
    intro evs a a' tr hi _ h
    unfold calls at h
    obtain ⟨h1, h2⟩ := ok_pair h; subst h1 h2
    simpa [events] using hi
  | cons c cs ih =>
    intro evs a a' tr hi hb h
    unfold calls at h
    cases hc : call core c a with
    | ub => rw [hc] at h; cases h
    | abort => rw [hc] at h; cases h
    | ok x =>
      obtain ⟨r, a1⟩ := x
      rw [hc, Outcome.ok_bind] at h
      have hcons : constructs (c :: cs) = (if Call.isConstruct c then 1 else 0) + constructs cs := by
        unfold constructs
        by_cases hh : Call.isConstruct c = true
        · rw [List.filter_cons_of_pos hh]; simp [hh]; omega
        · rw [List.filter_cons_of_neg hh]; simp [hh]
      have hx := call_inv core c evs a a1 r hi (fun hh => by rw [hcons, if_pos hh] at hb; omega) hc
      cases hr : calls core cs a1 with
      | ub => rw [hr] at h; cases h
      | abort => rw [hr] at h; cases h
      | ok y =>
        obtain ⟨tr1, a2⟩ := y
        simp only [hr, Outcome.ok_bind] at h
        obtain ⟨h1, h2⟩ := ok_pair h; subst h1 h2
        have := ih _ a1 a2 tr1 hx.1 (by have := hx.2; rw [hcons] at hb; omega) hr
        rw [List.append_assoc] at this
        have he : (event (c, r)).toList ++ events tr1 = events ((c, r) :: tr1) := by
          unfold events
          rw [List.filterMap_cons]
          cases event (c, r) <;> simp
        rwa [he] at this

/-! ## Stepping -/

theorem ofInt_add (t : BitVec 32) (m : Nat) (e : Int) (he : 0 ≤ e) (ht : t.toNat = m % 2 ^ 32) :
    (t + BitVec.ofInt 32 e).toNat = (m + e.toNat) % 2 ^ 32 := by
  rw [BitVec.toNat_add, BitVec.toNat_ofInt, ht]
  have : (e % ((2 ^ 32 : Nat) : Int)).toNat = e.toNat % 2 ^ 32 := by omega
  rw [this]
  omega

theorem stepLoop_ok (core : Core δ) (cnt : δ → Nat) (hc : Honest core cnt) : ∀ (fuel : Nat) (left : BitVec 64)
    (total : BitVec 32) (d : δ) (m : Nat), left.toNat ≤ fuel → left ≠ 0 → total.toNat = m % 2 ^ 32 →
    ∃ r st d', stepLoop core fuel left total d = .ok (r, st, d') ∧ cnt d ≤ cnt d' ∧ cnt d' ≤ cnt d + left.toNat ∧
      r.toNat = (m + (cnt d' - cnt d)) % 2 ^ 32 ∧ Ends core cnt left.toNat d d' st := by
  intro fuel
  induction fuel with
  | zero =>
    intro left total d m hf hl _
    exact absurd (BitVec.eq_of_toNat_eq (by simpa using hf)) hl
  | succ fuel ih =>
    intro left total d m hf hl ht
    have hl' : left.toNat ≠ 0 := fun h => hl (BitVec.eq_of_toNat_eq (by simpa using h))
    unfold stepLoop
    rw [if_neg hl]
    dsimp only
    generalize hk : (if left.toNat > intMax then intMax else left.toNat) = k
    have hk1 : 0 < k ∧ k ≤ 2147483647 ∧ k ≤ left.toNat := by
      rw [← hk]; unfold intMax; split <;> omega
    obtain ⟨res, d', e1, e2, e3⟩ := hc.step k d hk1.1 hk1.2.1
    rw [e1, Outcome.ok_bind]
    cases res with
    | none =>
      refine ⟨total, kAborted, d', rfl, Nat.le_of_eq (e2 rfl).symm, by rw [e2 rfl]; omega, by rw [e2 rfl, Nat.sub_self]; exact ht,
        ⟨k, d, none, hk1.1, e1, Or.inl ⟨rfl, rfl⟩⟩⟩
    | some e =>
      obtain ⟨h1, h2, h3⟩ := e3 e rfl
      have hle : cnt d ≤ cnt d' := by omega
      have hle' : cnt d' ≤ cnt d + left.toNat := by omega
      have hsub : cnt d' - cnt d = e.toNat := by omega
      have htot := ofInt_add total m e h1 ht
      dsimp only
      cases hrs : core.reason d' with
      | none =>
        exact ⟨_, _, d', rfl, hle, hle', by rw [htot, hsub], ⟨k, d, some e, hk1.1, e1,
          Or.inr ⟨e, rfl, Or.inl ⟨hrs, rfl⟩⟩⟩⟩
      | some h =>
        dsimp only
        cases hst : stopStatus h with
        | some st =>
          refine ⟨_, st, d', rfl, hle, hle', by rw [htot, hsub], ⟨k, d, some e, hk1.1, e1,
            Or.inr ⟨e, rfl, Or.inr ⟨h, hrs, ?_⟩⟩⟩⟩
          cases h <;> simp [stopStatus] at hst <;> subst hst <;> simp [kAborted, kOk, kStoppedAtBreakpoint]
        | none =>
          dsimp only
          have hh : h = .none ∨ h = .actionPoint ∨ h = .simulatorError := by
            cases h <;> simp [stopStatus] at hst <;> simp
          by_cases hlt : e < k
          · rw [if_pos hlt]
            exact ⟨_, _, d', rfl, hle, hle', by rw [htot, hsub], ⟨k, d, some e, hk1.1, e1,
              Or.inr ⟨e, rfl, Or.inr ⟨h, hrs, Or.inr (Or.inr (Or.inr (Or.inr ⟨hh, rfl, Or.inl hlt⟩)))⟩⟩⟩⟩
          · rw [if_neg hlt]
            have hek : e.toNat = k := by omega
            have hleft : (left - BitVec.ofInt 64 e).toNat = left.toNat - k := by
              have hb := left.isLt
              rw [BitVec.toNat_sub, BitVec.toNat_ofInt]
              have : (e % ((2 ^ 64 : Nat) : Int)).toNat = k := by omega
              rw [this]
              omega
            by_cases hz : left - BitVec.ofInt 64 e = 0
            · have hz' : left.toNat = k := by
                have := congrArg BitVec.toNat hz
                rw [hleft] at this
                simp at this
                omega
              have : stepLoop core fuel (left - BitVec.ofInt 64 e) (total + BitVec.ofInt 32 e) d' =
                  .ok (total + BitVec.ofInt 32 e, kOk, d') := by
                cases fuel <;> (unfold stepLoop; rw [if_pos hz])
              rw [this]
              exact ⟨_, _, d', rfl, hle, hle', by rw [htot, hsub], ⟨k, d, some e, hk1.1, e1,
                Or.inr ⟨e, rfl, Or.inr ⟨h, hrs, Or.inr (Or.inr (Or.inr (Or.inr ⟨hh, rfl, Or.inr (by omega)⟩)))⟩⟩⟩⟩
            · obtain ⟨r, st, d2, g1, g2, g3, g4, g5⟩ :=
                ih (left - BitVec.ofInt 64 e) (total + BitVec.ofInt 32 e) d' (m + e.toNat)
                  (by rw [hleft]; omega) hz htot
              rw [hleft] at g3 g5
              refine ⟨r, st, d2, g1, by omega, by omega, ?_, ?_⟩
              · rw [g4]; congr 1; omega
              · obtain ⟨k2, d3, res, p1, p2, p3⟩ := g5.last
                refine ⟨k2, d3, res, p1, p2, ?_⟩
                rcases p3 with p3 | ⟨e', q1, q2⟩
                · exact Or.inl p3
                · refine Or.inr ⟨e', q1, ?_⟩
                  rcases q2 with q2 | ⟨h', q2, q3⟩
                  · exact Or.inl q2
                  · refine Or.inr ⟨h', q2, ?_⟩
                    rcases q3 with q3 | q3 | q3 | q3 | ⟨q3, q4, q5⟩
                    · exact Or.inl q3
                    · exact Or.inr (Or.inl q3)
                    · exact Or.inr (Or.inr (Or.inl q3))
                    · exact Or.inr (Or.inr (Or.inr (Or.inl q3)))
                    · refine Or.inr (Or.inr (Or.inr (Or.inr ⟨q3, q4, ?_⟩)))
                      rcases q5 with q5 | q5
                      · exact Or.inl q5
                      · exact Or.inr (by omega)

end Verif.Proofs.Agent
