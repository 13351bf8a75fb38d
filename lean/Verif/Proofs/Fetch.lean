import Verif.Spec.Fetch
import Verif.Proofs.Edits

/-!
# Sessions without breakpoints, for programs that may write their code
-/

namespace Verif.Proofs.Top

open Verif.Model.Top
open Verif.Spec.Program (Machine Sem Ev Stop word ebreak next run effect Edit nextWith Req count session executed decodes Unchanging Decoding)

variable {σ : Type}

theorem next_with (sem : Sem σ) (m : Machine σ) : next sem m = nextWith sem (word m.mem m.pc.toNat) m := rfl

/-- One instruction without breakpoints, whatever is in the decode cache. -/
theorem fetch_word (env : Env σ) {s : St σ} (hb : ∀ b, s.bps b = false) :
    (fetchExec env s.m.pc.toNat s).m = (nextWith env.sem (getInst env s.m.pc.toNat s).1 s.m).1 ∧
    (fetchExec env s.m.pc.toNat s).cache = (getInst env s.m.pc.toNat s).2.cache ∧
    Reports s (fetchExec env s.m.pc.toNat s) (nextWith env.sem (getInst env s.m.pc.toNat s).1 s.m).2 := by
  obtain ⟨w, c, e⟩ : ∃ w c, getInst env s.m.pc.toNat s = (w, { s with cache := c }) := by
    unfold getInst
    cases hc : s.cache s.m.pc.toNat with
    | some w => exact ⟨w, s.cache, rfl⟩
    | none => exact ⟨_, _, rfl⟩
  unfold fetchExec
  rw [e]
  dsimp only
  have em : (setPc (s.m.pc.toNat + 4) { s with cache := c }) = { s with cache := c, m := { s.m with pc := s.m.pc + 4 } } := by
    unfold setPc
    simp only [ofNat_add4]
  rw [em]
  unfold nextWith effect execInst
  by_cases hw : w = ebreak
  · rw [if_pos (hw.trans ebreak_eq.symm), if_pos hw]
    have hh : (if isCall s.m.mem s.m.pc.toNat then env.sem.host else none) =
        if Spec.Program.Marked s.m.mem s.m.pc.toNat then env.sem.host else none := by
      by_cases hm : Spec.Program.Marked s.m.mem s.m.pc.toNat
      · rw [if_pos ((isCall_iff _ _).2 hm), if_pos hm]
      · rw [if_neg (fun h => hm ((isCall_iff _ _).1 h)), if_neg hm]
    dsimp only
    rw [hh]
    cases (if Spec.Program.Marked s.m.mem s.m.pc.toNat then env.sem.host else none) with
    | none =>
      dsimp only
      simp only [hb, Bool.false_eq_true, if_false]
      refine ⟨rfl, rfl, rfl, rfl, rfl, rfl, ?_, rfl, ?_⟩
      · simp [requestHalt]
      · simp [requestHalt]
    | some f =>
      dsimp only
      rw [foldl_requestHalt]
      refine ⟨rfl, rfl, rfl, rfl, rfl, rfl, ?_, ?_, rfl⟩
      · simp
      · simp [lastReason_map]
  · rw [if_neg (fun h => hw (h.trans ebreak_eq)), if_neg hw]
    dsimp only
    rw [foldl_requestHalt]
    refine ⟨rfl, rfl, rfl, rfl, rfl, rfl, ?_, ?_, rfl⟩
    · simp
    · simp [lastReason_map]

/-- Something that is executed in step with the core: `ok` is what the next instruction needs. -/
structure Twin (env : Env σ) (X : Type) where
  mach : X → Machine σ
  nx : X → X × List Stop
  ok : X → Prop
  R : (Nat → Option (BitVec 32)) → X → Prop
  sim : ∀ (s : St σ) (x : X), (∀ b, s.bps b = false) → s.m = mach x → R s.cache x → ok x →
    (nextWith env.sem (getInst env s.m.pc.toNat s).1 s.m).1 = mach (nx x).1 ∧
    (nextWith env.sem (getInst env s.m.pc.toNat s).1 s.m).2 = (nx x).2 ∧ R (getInst env s.m.pc.toNat s).2.cache (nx x).1

variable {env : Env σ} {X : Type}

def Twin.run (T : Twin env X) (x : X) : Nat → X
  | 0 => x
  | k + 1 => T.run (T.nx x).1 k

def Twin.count (T : Twin env X) (x : X) : Nat → Nat
  | 0 => 0
  | n + 1 => if (T.nx x).2 = [] then T.count (T.nx x).1 n + 1 else 1

/-- The core stands where `x` does, with no breakpoint in sight. -/
structure Free (T : Twin env X) (s : St σ) (x : X) : Prop where
  bps : ∀ b, s.bps b = false
  m : s.m = T.mach x
  cache : T.R s.cache x
  over : s.stepOver = false
  reason : s.reason ≠ .softwareBreakpoint ∧ s.reason ≠ .actionPoint

theorem Free.congr {T : Twin env X} {s s' : St σ} {x : X} (h : Free T s x) (hm : s'.m = s.m) (hc : s'.cache = s.cache) (hb : s'.bps = s.bps)
    (ho : s'.stepOver = s.stepOver) (hr : s'.reason ≠ .softwareBreakpoint ∧ s'.reason ≠ .actionPoint) : Free T s' x :=
  ⟨by rw [hb]; exact h.bps, hm.trans h.m, by rw [hc]; exact h.cache, ho.trans h.over, hr⟩

theorem Free.fetch {T : Twin env X} {s : St σ} {x : X} (h : Free T s x) (hk : T.ok x) :
    Free T (fetchExec env (T.mach x).pc.toNat s) (T.nx x).1 ∧ Reports s (fetchExec env (T.mach x).pc.toNat s) (T.nx x).2 := by
  rw [← h.m]
  obtain ⟨e1, e2, e3⟩ := fetch_word env h.bps
  obtain ⟨g1, g2, g3⟩ := T.sim s x h.bps h.m h.cache hk
  rw [g2] at e3
  refine ⟨⟨by rw [e3.bps]; exact h.bps, e1.trans g1, by rw [e2]; exact g3, e3.stepOver.trans h.over, ?_⟩, e3⟩
  rw [e3.reason]
  by_cases hl : (T.nx x).2 = []
  · rw [hl]; exact h.reason
  · exact ⟨(lastReason_ne hl).1, (lastReason_ne hl).2.1⟩

/-- What the loop has done: `c` instructions, and it is halted if the last one asked for it. -/
structure Ran (T : Twin env X) (s : St σ) (x : X) (c : Nat) (s' : St σ) : Prop where
  free : Free T s' (T.run x c)
  status : s'.status = s.status
  instret : s'.instret = s.instret + c

theorem loop_free (T : Twin env X) (reset : Bool) (n : Nat) : ∀ (fuel cnt : Nat) (last : Option Nat) (s : St σ) (x : X), Free T s x →
    s.halted = false → cnt ≤ n → n ≤ cnt + fuel → (∀ i < T.count x (n - cnt), T.ok (T.run x i)) →
    ∃ s' last', execLoop env reset n fuel cnt last (T.mach x).pc.toNat s =
      (cnt + T.count x (n - cnt), last', (T.mach (T.run x (T.count x (n - cnt)))).pc.toNat, s') ∧ Ran T s x (T.count x (n - cnt)) s' := by
  intro fuel
  induction fuel with
  | zero =>
    intro cnt last s x hf hh h1 h2 _
    have e : n - cnt = 0 := by omega
    rw [e]
    exact ⟨s, last, rfl, hf, rfl, rfl⟩
  | succ fuel ih =>
    intro cnt last s x hf hh h1 h2 hk
    by_cases hn : n ≤ cnt
    · have e : n - cnt = 0 := by omega
      rw [e]
      refine ⟨s, last, ?_, hf, rfl, rfl⟩
      unfold execLoop
      rw [if_pos (Or.inr hn)]
      rfl
    · obtain ⟨d, hd⟩ : ∃ d, n - cnt = d + 1 := ⟨n - cnt - 1, by omega⟩
      rw [hd] at hk ⊢
      have hpos : 0 < T.count x (d + 1) := by unfold Twin.count; split <;> omega
      obtain ⟨hf1, hr1⟩ := hf.fetch (hk 0 hpos)
      unfold execLoop
      rw [if_neg (by simp [hh, hn])]
      dsimp only
      by_cases hl : (T.nx x).2 = []
      · have hh1 : (fetchExec env (T.mach x).pc.toNat s).halted = false := by rw [hr1.halted, hh, hl]; rfl
        have hc : T.count x (d + 1) = T.count (T.nx x).1 d + 1 := by
          conv => lhs; unfold Twin.count
          rw [if_pos hl]
        rw [if_pos (by simp [hh1]), hf1.m]
        obtain ⟨s', last', e, hran⟩ := ih (cnt + 1) (some (T.mach x).pc.toNat) _ (T.nx x).1 hf1 hh1 (by omega) (by omega) (by
          intro i hi
          rw [show n - (cnt + 1) = d by omega] at hi
          exact hk (i + 1) (by omega))
        rw [show n - (cnt + 1) = d by omega] at e hran
        refine ⟨s', last', ?_, ?_⟩
        · rw [e, hc]
          show (cnt + 1 + T.count (T.nx x).1 d, last', (T.mach (T.run (T.nx x).1 (T.count (T.nx x).1 d))).pc.toNat, s') = _
          rw [show cnt + 1 + T.count (T.nx x).1 d = cnt + (T.count (T.nx x).1 d + 1) by omega]
          rfl
        · rw [hc]
          exact ⟨hran.free, hran.status.trans hr1.status, by rw [hran.instret, hr1.instret]; omega⟩
      · have hh1 : (fetchExec env (T.mach x).pc.toNat s).halted = true := by
          rw [hr1.halted]
          cases hq : (T.nx x).2 with
          | nil => exact absurd hq hl
          | cons a l => simp
        have hc : T.count x (d + 1) = 1 := by
          conv => lhs; unfold Twin.count
          rw [if_neg hl]
        rw [if_neg (by simp [hh1]), if_neg hf1.reason.2, hf1.m, hc]
        exact ⟨_, _, rfl, hf1, hr1.status, hr1.instret⟩

theorem mach_setPc {s : St σ} {m : Machine σ} (h : s.m = m) : (setPc m.pc.toNat s).m = s.m := by
  subst h
  unfold setPc
  simp

/-- `Step` without breakpoints. -/
theorem step_free (T : Twin env X) {s : St σ} {x : X} (hf : Free T s x) (hst : s.status = .halted) (n : Int) (hn : 0 < n)
    (hk : ∀ i < T.count x n.toNat, T.ok (T.run x i)) :
    ∃ s', step env n s = .ok (.ok (T.count x n.toNat), s') ∧ s'.status = .halted ∧ Free T s' (T.run x (T.count x n.toNat)) ∧
      s'.instret = s.instret + T.count x n.toNat := by
  have hf1 : Free T ({ s with status := .singleStep, halted := false } : St σ) x := hf.congr rfl rfl rfl rfl hf.reason
  have e : step env n s = stepEnd (execLoop env true n.toNat n.toNat 0 none (T.mach x).pc.toNat
      ({ s with status := .singleStep, halted := false } : St σ)) := by
    unfold step
    rw [if_neg (by omega), if_neg (by simp [hst])]
    simp only [hf.over, Bool.false_eq_true, if_false, hf.m]
  obtain ⟨s', last', el, hr⟩ := loop_free T true n.toNat n.toNat 0 none _ x hf1 rfl (by omega) (by omega) (by simpa using hk)
  simp only [Nat.sub_zero, Nat.zero_add] at el hr
  rw [e, el, stepEnd_other hr.free.reason.1]
  refine ⟨_, rfl, rfl, hr.free.congr (mach_setPc hr.free.m) rfl rfl rfl ?_, hr.instret⟩
  dsimp only
  split
  · exact hr.free.reason
  · exact ⟨by simp, by simp⟩

/-- `Run` and the `Halt` that ends it, without breakpoints. -/
theorem run_free (T : Twin env X) {s : St σ} {x : X} (hf : Free T s x) (hst : s.status = .halted) (k : Nat)
    (hk : ∀ i < T.count x k, T.ok (T.run x i)) :
    ∃ s', runHalt env k s = .ok (.ok (), s') ∧ s'.status = .halted ∧ Free T s' (T.run x (T.count x k)) ∧
      s'.instret = s.instret + T.count x k := by
  have hf1 : Free T ({ s with status := .running, halted := false } : St σ) x := hf.congr rfl rfl rfl rfl hf.reason
  have e : runHalt env k s = runEnd (execLoop env false k k 0 none (T.mach x).pc.toNat
      ({ s with status := .running, halted := false } : St σ)) := by
    unfold runHalt runStart
    simp only [hst, hf.over, Bool.false_eq_true, if_false, reduceCtorEq, hf.m]
  obtain ⟨s', last', el, hr⟩ := loop_free T false k k 0 none _ x hf1 rfl (by omega) (by omega) (by simpa using hk)
  simp only [Nat.sub_zero, Nat.zero_add] at el hr
  rw [e, el]
  cases hh : s'.halted with
  | true =>
    rw [runEnd_other hh hr.free.reason.1]
    exact ⟨_, rfl, rfl, hr.free.congr (mach_setPc hr.free.m) rfl rfl rfl hr.free.reason, hr.instret⟩
  | false =>
    rw [runEnd_halt hh]
    exact ⟨_, rfl, rfl, hr.free.congr (mach_setPc hr.free.m) rfl rfl rfl ⟨by simp, by simp⟩, hr.instret⟩

/-- Writing memory without breakpoints. -/
theorem poke_eq (env : Env σ) {s : St σ} (hst : s.status = .halted) {a : Nat} {d : List (BitVec 8)} (h1 : d ≠ [])
    (h2 : a + d.length ≤ Model.DebugMem.maxAddr + 1) :
    execCall env (.poke a d) s = .ok { s with m := (Edit.mem a d).apply s.m } := by
  have hlen : 0 < d.length := List.length_pos_iff.2 h1
  unfold Model.DebugMem.maxAddr at h2
  have e : execCall env (.poke a d) s = .ok { s with m := { s.m with mem := DebugMem.put s.m.mem a d } } := by
    show (Model.DebugMem.writeMemory _ _ _ _ >>= _) = _
    rw [show decide (s.status = .halted) = true by simp [hst],
      DebugMem.writeMemory_ok _ _ _ (by unfold Model.DebugMem.maxAddr; omega) h1, List.take_of_length_le (by omega)]
    rfl
  rw [e]
  have : DebugMem.put s.m.mem a d = fun q => if a ≤ q then d.getD (q - a) (s.m.mem q) else s.m.mem q := by
    funext q
    unfold DebugMem.put
    by_cases h : a ≤ q
    · rw [if_pos h]
      by_cases h' : q - a < d.length
      · rw [dif_pos ⟨h, h'⟩, List.getD_eq_getElem?_getD, List.getElem?_eq_getElem h']; rfl
      · rw [dif_neg (fun x => h' x.2), List.getD_eq_getElem?_getD, List.getElem?_eq_none (by omega)]; rfl
    · rw [dif_neg (fun x => h x.1), if_neg h]
  rw [this]
  rfl

/-! ## Sessions -/

/-- What a call asks for; `none` for breakpoint calls and for memory writes that are refused or abort. -/
def asks : Call σ → Option (Req σ)
  | .dbg (.step n) => some (.go n.toNat)
  | .dbg (.run k) => some (.go k)
  | .dbg (.disasm a) => some (.look a)
  | .dbg (.setBp _) => none
  | .dbg (.clearBp _) => none
  | .poke a d => if d ≠ [] ∧ a + d.length ≤ Model.DebugMem.maxAddr + 1 then some (.edit (.mem a d)) else none
  | .regs g => some (.edit (.regs g))
  | .pc v => some (.edit (.pc (BitVec.ofNat 32 v)))
  | .clearAll _ => none

/-- A twin that also follows disassembly and changes of the machine. -/
structure Twin2 (env : Env σ) (X : Type) extends Twin env X where
  look : Nat → X → X
  okLook : Nat → X → Prop
  edit : Edit σ → X → X
  lookSim : ∀ (s : St σ) (x : X) a, s.m = mach x → R s.cache x → okLook a x →
    s.m = mach (look a x) ∧ R (getInst env a s).2.cache (look a x)
  editSim : ∀ (e : Edit σ) c (x : X), R c x → e.apply (mach x) = mach (edit e x) ∧ R c (edit e x)

def Twin2.apply (T : Twin2 env X) : Req σ → X → X
  | .go n, x => T.run x (T.count x n)
  | .look a, x => T.look a x
  | .edit e, x => T.edit e x

def Twin2.okReq (T : Twin2 env X) : Req σ → X → Prop
  | .go n, x => ∀ i < T.count x n, T.ok (T.run x i)
  | .look a, x => T.okLook a x
  | .edit _, _ => True

def Twin2.okAll (T : Twin2 env X) : List (Req σ) → X → Prop
  | [], _ => True
  | r :: l, x => T.okReq r x ∧ T.okAll l (T.apply r x)

def Twin2.session (T : Twin2 env X) (l : List (Req σ)) (x : X) : X := l.foldl (fun x r => T.apply r x) x

def Twin2.ran (T : Twin2 env X) : Req σ → X → Nat
  | .go n, x => T.count x n
  | .look _, _ => 0
  | .edit _, _ => 0

def Twin2.executed (T : Twin2 env X) : List (Req σ) → X → Nat
  | [], _ => 0
  | r :: l, x => T.ran r x + T.executed l (T.apply r x)

theorem getInst_m (env : Env σ) (a : Nat) (s : St σ) : (getInst env a s).2 = { s with cache := (getInst env a s).2.cache } := by
  unfold getInst
  cases s.cache a <;> rfl

theorem call_free (T : Twin2 env X) {s : St σ} {x : X} (hf : Free T.toTwin s x) (hst : s.status = .halted) {c : Call σ} {r : Req σ}
    (hc : asks c = some r) (hk : T.okReq r x) :
    ∃ s', execCall env c s = .ok s' ∧ s'.status = .halted ∧ Free T.toTwin s' (T.apply r x) ∧
      s'.instret = s.instret + T.ran r x := by
  cases c with
  | dbg op =>
    cases op with
    | setBp a => cases hc
    | clearBp a => cases hc
    | step n =>
      injection hc with hc
      subst hc
      by_cases hn : 0 < n
      · obtain ⟨s', e, h1, h2, h3⟩ := step_free T.toTwin hf hst n hn hk
        refine ⟨s', ?_, h1, h2, h3⟩
        show (step env n s >>= fun r => .ok r.2) = _
        rw [e]; rfl
      · refine ⟨s, ?_, hst, ?_, ?_⟩
        · show (step env n s >>= fun r => .ok r.2) = _
          unfold step
          rw [if_pos (by omega)]; rfl
        · show Free T.toTwin s (T.run x (T.count x n.toNat))
          rw [show n.toNat = 0 by omega]
          exact hf
        · show s.instret = s.instret + T.count x n.toNat
          rw [show n.toNat = 0 by omega]; rfl
    | run k =>
      injection hc with hc
      subst hc
      obtain ⟨s', e, h1, h2, h3⟩ := run_free T.toTwin hf hst k hk
      refine ⟨s', ?_, h1, h2, h3⟩
      show (runHalt env k s >>= fun r => .ok r.2) = _
      rw [e]; rfl
    | disasm a =>
      injection hc with hc
      subst hc
      have e : (disasm env a s).2 = (getInst env a s).2 := by
        unfold disasm
        simp [hst, hf.bps]
      obtain ⟨g1, g2⟩ := T.lookSim s x a hf.m hf.cache hk
      refine ⟨(getInst env a s).2, ?_, ?_, ⟨?_, ?_, g2, ?_, ?_⟩, ?_⟩
      · show Outcome.ok (disasm env a s).2 = _
        rw [e]
      all_goals rw [getInst_m]
      · exact hst
      · exact hf.bps
      · exact g1
      · exact hf.over
      · exact hf.reason
      · rfl
  | poke a d =>
    have hc : (if d ≠ [] ∧ a + d.length ≤ Model.DebugMem.maxAddr + 1 then some (Req.edit (Edit.mem a d)) else none) = some r := hc
    split at hc
    · rename_i h
      injection hc with hc
      subst hc
      obtain ⟨g1, g2⟩ := T.editSim (.mem a d) s.cache x hf.cache
      refine ⟨_, poke_eq env hst h.1 h.2, hst, ⟨hf.bps, ?_, g2, hf.over, hf.reason⟩, rfl⟩
      show (Edit.mem a d).apply s.m = _
      rw [hf.m]; exact g1
    · cases hc
  | regs g =>
    injection hc with hc
    subst hc
    obtain ⟨g1, g2⟩ := T.editSim (.regs g) s.cache x hf.cache
    refine ⟨{ s with m := (Edit.regs g).apply s.m }, ?_, hst, ⟨hf.bps, ?_, g2, hf.over, hf.reason⟩, rfl⟩
    · show Outcome.ok (writeRegs g s).2 = _
      unfold writeRegs
      rw [if_neg (by simp [hst])]
      rfl
    · show (Edit.regs g).apply s.m = _
      rw [hf.m]; exact g1
  | pc v =>
    injection hc with hc
    subst hc
    obtain ⟨g1, g2⟩ := T.editSim (.pc (BitVec.ofNat 32 v)) s.cache x hf.cache
    refine ⟨{ s with m := (Edit.pc (BitVec.ofNat 32 v)).apply s.m }, ?_, hst, ⟨hf.bps, ?_, g2, hf.over, hf.reason⟩, rfl⟩
    · show Outcome.ok (writePc v s).2 = _
      unfold writePc
      rw [if_neg (by simp [hst])]
      dsimp only
      rw [if_neg hf.reason.1]
      rfl
    · show (Edit.pc (BitVec.ofNat 32 v)).apply s.m = _
      rw [hf.m]; exact g1
  | clearAll l => cases hc

theorem calls_free (T : Twin2 env X) : ∀ (l : List (Call σ)) (rs : List (Req σ)) (s : St σ) (x : X), l.map asks = rs.map some →
    Free T.toTwin s x → s.status = .halted → T.okAll rs x →
    ∃ s', execCalls env l s = .ok (s', 0) ∧ s'.status = .halted ∧ Free T.toTwin s' (T.session rs x) ∧
      s'.instret = s.instret + T.executed rs x
  | [], [], s, x, _, hf, hst, _ => ⟨s, rfl, hst, hf, rfl⟩
  | [], _ :: _, _, _, h, _, _, _ => by simp at h
  | _ :: _, [], _, _, h, _, _, _ => by simp at h
  | c :: l, r :: rs, s, x, h, hf, hst, hk => by
    simp only [List.map_cons, List.cons.injEq] at h
    obtain ⟨s1, e1, h1, hf1, hi1⟩ := call_free T hf hst h.1 hk.1
    obtain ⟨s2, e2, h2, hf2, hi2⟩ := calls_free T l rs s1 _ h.2 hf1 h1 hk.2
    refine ⟨s2, ?_, h2, hf2, ?_⟩
    · show (execCall env c s >>= fun s1 => execCalls env l s1 >>= _) = _
      rw [e1]
      show (execCalls env l s1 >>= _) = _
      rw [e2]
      show Outcome.ok (s2, 0 + if c.executes ∧ s1.reason = .softwareBreakpoint then 1 else 0) = _
      rw [if_neg (fun h => hf1.reason.1 h.2)]
    · rw [hi2, hi1]
      show _ = s.instret + (T.ran r x + T.executed rs (T.apply r x))
      omega

/-! ## A cache that forgets nothing -/

def onceTwin (env : Env σ) (hkeep : ∀ a b, env.keep a b = true) : Twin2 env (Decoding σ) where
  mach := Decoding.m
  nx := Decoding.next env.sem
  ok := fun _ => True
  R := fun c x => c = x.seen
  sim := by
    intro s x _ hm hc _
    obtain ⟨e1, e2⟩ : (getInst env s.m.pc.toNat s).1 = x.at x.m.pc.toNat ∧
        (getInst env s.m.pc.toNat s).2.cache = (x.look x.m.pc.toNat).seen := by
      unfold getInst Decoding.look Decoding.at
      rw [← hm, ← hc]
      cases hs : s.cache s.m.pc.toNat with
      | some w =>
        refine ⟨rfl, ?_⟩
        funext b
        dsimp only
        split
        · rename_i h; rw [h, hs]; rfl
        · rfl
      | none =>
        refine ⟨rfl, ?_⟩
        funext b
        simp [hkeep]
    rw [e1, e2, hm]
    exact ⟨rfl, rfl, rfl⟩
  look := Decoding.look
  okLook := fun _ _ => True
  edit := fun e x => { x with m := e.apply x.m }
  lookSim := by
    intro s x a hm hc _
    refine ⟨hm, ?_⟩
    unfold getInst Decoding.look Decoding.at
    rw [← hm, ← hc]
    cases hs : s.cache a with
    | some w =>
      funext b
      dsimp only
      split
      · rename_i h; rw [h, hs]; rfl
      · rfl
    | none =>
      funext b
      simp [hkeep]
  editSim := fun e c x h => ⟨rfl, h⟩

theorem once_run (env : Env σ) (hkeep) (x : Decoding σ) (k : Nat) : (onceTwin env hkeep).run x k = x.run env.sem k := by
  induction k generalizing x with
  | zero => rfl
  | succ k ih => exact ih _

theorem once_count (env : Env σ) (hkeep) (x : Decoding σ) (k : Nat) : (onceTwin env hkeep).count x k = x.count env.sem k := by
  induction k generalizing x with
  | zero => rfl
  | succ k ih =>
    show (if (x.next env.sem).2 = [] then (onceTwin env hkeep).count (x.next env.sem).1 k + 1 else 1) = _
    rw [ih]; rfl

theorem once_apply (env : Env σ) (hkeep) (x : Decoding σ) (r : Req σ) : (onceTwin env hkeep).apply r x = x.apply env.sem r := by
  cases r with
  | go n =>
    show (onceTwin env hkeep).run x ((onceTwin env hkeep).count x n) = _
    rw [once_run, once_count]; rfl
  | look a => rfl
  | edit e => rfl

theorem once_ok (env : Env σ) (hkeep) : ∀ (rs : List (Req σ)) (x : Decoding σ), (onceTwin env hkeep).okAll rs x
  | [], _ => trivial
  | r :: rs, x => by
    refine ⟨?_, once_ok env hkeep rs _⟩
    cases r with
    | go n => exact fun _ _ => trivial
    | look a => exact trivial
    | edit e => exact trivial

theorem once_session (env : Env σ) (hkeep) (rs : List (Req σ)) (x : Decoding σ) :
    (onceTwin env hkeep).session rs x = x.session env.sem rs := by
  unfold Twin2.session Decoding.session
  simp only [once_apply]

theorem once_executed (env : Env σ) (hkeep) : ∀ (rs : List (Req σ)) (x : Decoding σ),
    (onceTwin env hkeep).executed rs x = x.executed env.sem rs
  | [], _ => rfl
  | r :: rs, x => by
    unfold Twin2.executed Decoding.executed
    rw [once_apply, once_executed env hkeep rs]
    cases r with
    | go n => unfold Twin2.ran; dsimp only; rw [once_count]
    | look a => rfl
    | edit e => rfl

/-! ## Any cache, as long as the code looked at is steady -/

def steadyTwin (env : Env σ) : Twin2 env (Machine σ × List (Nat × BitVec 32)) where
  mach := Prod.fst
  nx := fun x => (((next env.sem x.1).1, (x.1.pc.toNat, word x.1.mem x.1.pc.toNat) :: x.2), (next env.sem x.1).2)
  ok := fun x => ∀ w, (x.1.pc.toNat, w) ∈ x.2 → w = word x.1.mem x.1.pc.toNat
  R := fun c x => ∀ a w, c a = some w → (a, w) ∈ x.2
  sim := by
    intro s x _ hm hc hk
    have e1 : (getInst env s.m.pc.toNat s).1 = word x.1.mem x.1.pc.toNat := by
      unfold getInst
      cases hs : s.cache s.m.pc.toNat with
      | some w => rw [hm] at hs; exact hk w (hc _ _ hs)
      | none => rw [hm]
    rw [e1, hm]
    refine ⟨rfl, rfl, ?_⟩
    intro a w
    unfold getInst
    rw [← hm]
    cases hs : s.cache s.m.pc.toNat with
    | some v =>
      intro h
      exact List.mem_cons_of_mem _ (hc _ _ h)
    | none =>
      dsimp only
      split
      · rename_i h
        intro h'
        injection h' with h'
        rw [h, ← h', hm]
        exact List.mem_cons_self
      · split
        · intro h
          exact List.mem_cons_of_mem _ (hc _ _ h)
        · intro h; cases h
  look := fun a x => (x.1, (a, word x.1.mem a) :: x.2)
  okLook := fun _ _ => True
  edit := fun e x => (e.apply x.1, x.2)
  lookSim := by
    intro s x a hm hc _
    refine ⟨hm, ?_⟩
    intro b w
    unfold getInst
    cases hs : s.cache a with
    | some v =>
      intro h
      exact List.mem_cons_of_mem _ (hc _ _ h)
    | none =>
      dsimp only
      split
      · rename_i h
        intro h'
        injection h' with h'
        rw [h, ← h', hm]
        exact List.mem_cons_self
      · split
        · intro h
          exact List.mem_cons_of_mem _ (hc _ _ h)
        · intro h; cases h
  editSim := fun e c x h => ⟨rfl, h⟩

theorem steady_run (env : Env σ) (k : Nat) : ∀ (x : Machine σ × List (Nat × BitVec 32)),
    ((steadyTwin env).run x k).1 = run env.sem k x.1 ∧
    ∀ p ∈ ((steadyTwin env).run x k).2, p ∈ x.2 ∨
      ∃ i < k, p = ((run env.sem i x.1).pc.toNat, word (run env.sem i x.1).mem (run env.sem i x.1).pc.toNat) := by
  induction k with
  | zero => exact fun x => ⟨rfl, fun p hp => Or.inl hp⟩
  | succ k ih =>
    intro x
    obtain ⟨e1, e2⟩ := ih ((steadyTwin env).nx x).1
    refine ⟨?_, ?_⟩
    · show ((steadyTwin env).run ((steadyTwin env).nx x).1 k).1 = _
      rw [e1]; rfl
    · intro p hp
      rcases e2 p hp with h | ⟨i, hi, h⟩
      · rcases List.mem_cons.1 h with h | h
        · exact Or.inr ⟨0, by omega, h⟩
        · exact Or.inl h
      · exact Or.inr ⟨i + 1, by omega, h⟩

theorem steady_count (env : Env σ) (n : Nat) : ∀ (x : Machine σ × List (Nat × BitVec 32)),
    (steadyTwin env).count x n = count env.sem n x.1 := by
  induction n with
  | zero => exact fun x => rfl
  | succ n ih =>
    intro x
    show (if (next env.sem x.1).2 = [] then (steadyTwin env).count ((steadyTwin env).nx x).1 n + 1 else 1) = _
    rw [ih]; rfl

theorem steady_session (env : Env σ) : ∀ (rs : List (Req σ)) (x : Machine σ × List (Nat × BitVec 32)),
    ((steadyTwin env).session rs x).1 = session env.sem rs x.1 ∧ (steadyTwin env).executed rs x = executed env.sem rs x.1
  | [], x => ⟨rfl, rfl⟩
  | r :: rs, x => by
    obtain ⟨e1, e2⟩ := steady_session env rs ((steadyTwin env).apply r x)
    have e : ((steadyTwin env).apply r x).1 = r.apply env.sem x.1 := by
      cases r with
      | go n =>
        show ((steadyTwin env).run x ((steadyTwin env).count x n)).1 = _
        rw [(steady_run env _ x).1, steady_count]; rfl
      | look a => rfl
      | edit e => rfl
    rw [e] at e1 e2
    refine ⟨e1, ?_⟩
    unfold Twin2.executed
    rw [e2]
    cases r with
    | go n => unfold Twin2.ran; dsimp only; rw [steady_count]; rfl
    | look a => unfold Twin2.ran; dsimp only; rw [Nat.zero_add]; rfl
    | edit e => unfold Twin2.ran; dsimp only; rw [Nat.zero_add]; rfl

theorem steady_ok (env : Env σ) {L : List (Nat × BitVec 32)} (hL : Unchanging L) : ∀ (rs : List (Req σ)) (x : Machine σ × List (Nat × BitVec 32)),
    (∀ p ∈ x.2, p ∈ L) → (∀ p ∈ decodes env.sem rs x.1, p ∈ L) → (steadyTwin env).okAll rs x
  | [], _, _, _ => trivial
  | .go n :: rs, x, h1, h2 => by
    have hd : ∀ i < count env.sem n x.1, ((run env.sem i x.1).pc.toNat, word (run env.sem i x.1).mem (run env.sem i x.1).pc.toNat) ∈ L := by
      intro i hi
      exact h2 _ (List.mem_append_left _ (List.mem_map.2 ⟨i, List.mem_range.2 hi, rfl⟩))
    have hsub : ∀ k ≤ count env.sem n x.1, ∀ p ∈ ((steadyTwin env).run x k).2, p ∈ L := by
      intro k hk p hp
      rcases (steady_run env k x).2 p hp with h | ⟨i, hi, h⟩
      · exact h1 p h
      · rw [h]; exact hd i (by omega)
    refine ⟨?_, steady_ok env hL rs _ ?_ ?_⟩
    · intro i hi w hw
      have hi' : i < count env.sem n x.1 := by rw [← steady_count]; exact hi
      have hw' := hsub i (by omega) _ hw
      rw [(steady_run env i x).1] at hw' ⊢
      exact hL _ hw' _ (hd i hi') rfl
    · intro p hp
      exact hsub _ (Nat.le_of_eq (steady_count env n x)) p hp
    · intro p hp
      have e : ((steadyTwin env).apply (.go n) x).1 = run env.sem (count env.sem n x.1) x.1 := by
        show ((steadyTwin env).run x ((steadyTwin env).count x n)).1 = _
        rw [(steady_run env _ x).1, steady_count]
      rw [e] at hp
      exact h2 p (List.mem_append_right _ hp)
  | .look a :: rs, x, h1, h2 => by
    refine ⟨trivial, steady_ok env hL rs _ ?_ ?_⟩
    · intro p hp
      rcases List.mem_cons.1 hp with h | h
      · rw [h]; exact h2 _ List.mem_cons_self
      · exact h1 p h
    · exact fun p hp => h2 p (List.mem_cons_of_mem _ hp)
  | .edit e :: rs, x, h1, h2 => ⟨trivial, steady_ok env hL rs _ h1 h2⟩

theorem free_fresh (T : Twin env X) {x : X} (h : T.R (fun _ => none) x) : Free T (fresh (T.mach x)) x :=
  ⟨fun _ => rfl, rfl, h, rfl, by simp [fresh], by simp [fresh]⟩

end Verif.Proofs.Top
