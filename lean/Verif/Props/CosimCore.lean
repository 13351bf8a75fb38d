import Verif.Proofs.CosimCore
import Verif.Props.CosimTotal

/-!
# C112: cosimulation executes the words it is given

The cosimulation interface in front of a core with a decode cache (`Verif/Model/CosimCore.lean`). `fed` (`Verif/Spec/Feed.lean`)
is the execution of a sequence of supplied words.
-/

namespace Verif.Props

open Verif Verif.Model.Cosim Verif.Model.CosimCore Verif.Proofs.CosimCore Verif.Spec.Feed
open Verif.Model.Top (St fresh putWord)
open Verif.Spec.Program (Machine Sem next run word Steady)

variable {σ : Type}

/-- The machine in the instance, and whether it still runs. -/
def Holds (m : Machine σ) (halted : Bool) (g : World (St σ) (Nat → BitVec 8)) : Prop :=
  ∃ h s, g = some h ∧ h.core = some s ∧ h.halted = halted ∧ s.m.pc = m.pc ∧ s.m.regs = m.regs ∧ h.mem = m.mem

/-- The calls that only look. -/
def Looks : Call → Prop
  | .isHalted | .getVector _ _ | .getRegister _ _ => True
  | _ => False

/-- The word a call supplies. -/
def supplied : Call → Option (BitVec 32)
  | .step w => w
  | _ => none

/-- The calls of a cosimulation that is under way. -/
def Feeds (c : Call) : Prop := Looks c ∨ ∃ w, c = .step (some w)

theorem looks_fed {P : Params σ} {h : Handle (St σ) (Nat → BitVec 8)} {s : St σ} (hc : h.core = some s) {c : Call} (hl : Looks c) :
    ∃ r, call (engine P) c (some h) = .ok (r, some h) := by
  have hr : ready (engine P) h = .ok (h, s) := by unfold ready; rw [hc]
  cases c with
  | isHalted => exact ⟨_, by simp only [call, isHalted, hr, Outcome.ok_bind]; rfl⟩
  | getVector n nl =>
    cases nl with
    | true => exact ⟨_, rfl⟩
    | false =>
      cases n with
      | none => exact ⟨_, rfl⟩
      | some n =>
        cases hq : (engine P).regWords n s with
        | none => exact ⟨_, by simp only [call, getVector, hr, Outcome.ok_bind, hq]; rfl⟩
        | some w => exact ⟨_, by simp only [call, getVector, hr, Outcome.ok_bind, hq]; rfl⟩
  | getRegister n nl =>
    cases nl with
    | true => exact ⟨_, rfl⟩
    | false =>
      cases n with
      | none => exact ⟨_, rfl⟩
      | some n =>
        cases hq : (engine P).readReg n s with
        | none => exact ⟨_, by simp only [call, getRegister, hr, Outcome.ok_bind, hq]; rfl⟩
        | some w => exact ⟨_, by simp only [call, getRegister, hr, Outcome.ok_bind, hq]; rfl⟩
  | _ => cases hl

theorem feed_calls {P : Params σ} {ws : Nat → BitVec 32} {m : Machine σ} (n : Nat) (hc : Consistent P.env.sem ws n m)
    (hq : ∀ k < n, stops P.env.sem ws k m = []) : ∀ (cs : List Call) (k : Nat) (h : Handle (St σ) (Nat → BitVec 8)) (s : St σ),
    (∀ c ∈ cs, Feeds c) → k ≤ n → cs.filterMap supplied = (List.range' k (n - k)).map ws → Fed P ws m k h s →
    ∃ tr h' s', calls (engine P) cs (some h) = .ok (tr, some h') ∧ Fed P ws m n h' s' ∧
      ∀ e ∈ tr, ∀ w, e.1 = .step (some w) → e.2 = { ret := 0 }
  | [], k, h, s, _, hk, hw, hf => by
    have hk' : k = n := by
      have := congrArg List.length hw
      simp at this
      omega
    subst hk'
    exact ⟨[], h, s, rfl, hf, fun e he => nomatch he⟩
  | c :: cs, k, h, s, hcs, hk, hw, hf => by
    rcases hcs c (by simp) with hl | ⟨w, rfl⟩
    · have h0 : supplied c = none := by cases c <;> first | rfl | cases hl
      obtain ⟨r, hr⟩ := looks_fed (P := P) hf.core hl
      rw [List.filterMap_cons_none h0] at hw
      obtain ⟨tr, h', s', e1, e2, e3⟩ := feed_calls n hc hq cs k h s (fun d hd => hcs d (by simp [hd])) hk hw hf
      refine ⟨(c, r) :: tr, h', s', by rw [calls, hr, Outcome.ok_bind, e1, Outcome.ok_bind], e2, fun e he w hw => ?_⟩
      rcases List.mem_cons.1 he with rfl | he
      · dsimp only at hw; subst hw; cases hl
      · exact e3 e he w hw
    · rw [List.filterMap_cons_some (show supplied (.step (some w)) = some w from rfl)] at hw
      have hlt : k < n := by
        have := congrArg List.length hw
        simp at this
        omega
      obtain ⟨j, hj⟩ : ∃ j, n - k = j + 1 := ⟨n - k - 1, by omega⟩
      rw [hj, List.range'_succ, List.map_cons] at hw
      obtain ⟨hw1, hw2⟩ := List.cons.inj hw
      subst hw1
      obtain ⟨h1, s1, e1, e2⟩ := fed_step hf (fun a b hab hb => hc a b hab (by omega)) (hq k hlt)
      obtain ⟨tr, h', s', e3, e4, e5⟩ := feed_calls n hc hq cs (k + 1) h1 s1 (fun d hd => hcs d (by simp [hd])) hlt
        (by rw [hw2, show n - (k + 1) = j by omega]) e2
      refine ⟨_, h', s', by rw [calls, e1, Outcome.ok_bind, e3, Outcome.ok_bind], e4, fun e he w hw => ?_⟩
      rcases List.mem_cons.1 he with rfl | he
      · rfl
      · exact e5 e he w hw

theorem Fed.holds {P : Params σ} {ws : Nat → BitVec 32} {m : Machine σ} {k : Nat} {h : Handle (St σ) (Nat → BitVec 8)} {s : St σ}
    (hf : Fed P ws m k h s) : Holds (fed P.env.sem ws k m) false (some h) := by
  refine ⟨h, s, rfl, hf.core, hf.running, ?_, ?_, ?_⟩ <;> rw [← hf.at_] <;> rfl

/-- The machine on which a configured instance starts. -/
def startMachine (P : Params σ) (c : Config) (mem : Nat → BitVec 8) : Machine σ := ⟨c.itcmStart, mem, P.start c⟩

theorem fed_start (P : Params σ) (ws : Nat → BitVec 32) (c : Config) (mem : Nat → BitVec 8) :
    ∃ h s, call (engine P) (.config (some c)) (some ⟨mem, none, false⟩) = .ok ({ ret := 0 }, some h) ∧
      Fed P ws (startMachine P c mem) 0 h s := by
  refine ⟨⟨mem, some (fresh ⟨BitVec.ofNat 32 (c.itcmStart.zeroExtend 64).toNat, mem, P.start c⟩), false⟩, _, rfl, rfl, rfl, rfl, rfl,
    rfl, ?_, fun b w hb => nomatch hb⟩
  show (⟨BitVec.ofNat 32 (c.itcmStart.zeroExtend 64).toNat, mem, P.start c⟩ : Machine σ) = ⟨c.itcmStart, mem, P.start c⟩
  congr 1
  apply BitVec.eq_of_toNat_eq
  have := c.itcmStart.isLt
  simp only [BitVec.truncate_eq_setWidth, BitVec.toNat_setWidth, BitVec.toNat_ofNat]
  omega

/-- The calls before the first step: any number of programs is loaded, one over the other. -/
def opening (fs : List (List (BitVec 8))) (c : Config) : List Call :=
  .init :: (fs.map fun f => .loadProgram (some f)) ++ [.config (some c)]

/-- The memory after loading the files in order; a file that cannot be loaded leaves what the loader left. -/
def loaded (P : Params σ) (fs : List (List (BitVec 8))) : Nat → BitVec 8 := fs.foldl (fun m f => (P.elf f m).2) P.blank

theorem calls_append_dpi {ε μ : Type} {eng : Engine ε μ} {cs ds : List Call} {g g1 g2 : World ε μ} {tr tr' : List (Call × Reply)}
    (h : calls eng cs g = .ok (tr, g1)) (h' : calls eng ds g1 = .ok (tr', g2)) :
    calls eng (cs ++ ds) g = .ok (tr ++ tr', g2) := by
  induction cs generalizing g tr with
  | nil => cases h; exact h'
  | cons c cs ih =>
    obtain ⟨r, h1, h2⟩ := Verif.Proofs.Cosim.bind_ok h
    obtain ⟨r', h3, h4⟩ := Verif.Proofs.Cosim.bind_ok h2
    cases h4
    rw [List.cons_append, calls, h1, Outcome.ok_bind, ih h3, Outcome.ok_bind]
    rfl

theorem calls_loads (P : Params σ) (fs : List (List (BitVec 8))) (m : Nat → BitVec 8) :
    ∃ tr, calls (engine P) (fs.map fun f => .loadProgram (some f)) (some ⟨m, none, false⟩) =
        .ok (tr, some ⟨fs.foldl (fun m f => (P.elf f m).2) m, none, false⟩) ∧ ∀ e ∈ tr, ∀ w, e.1 ≠ .step w := by
  induction fs generalizing m with
  | nil => exact ⟨[], rfl, by simp⟩
  | cons f fs ih =>
    obtain ⟨tr, h1, h2⟩ := ih (P.elf f m).2
    refine ⟨(.loadProgram (some f), { ret := if (P.elf f m).1 = none then -1 else 0 }) :: tr, ?_, ?_⟩
    · rw [List.map_cons, calls, show call (engine P) (.loadProgram (some f)) (some ⟨m, none, false⟩) =
        .ok ({ ret := if (P.elf f m).1 = none then -1 else 0 }, some ⟨(P.elf f m).2, none, false⟩) from rfl, Outcome.ok_bind, h1]
      rfl
    · intro e he w
      rcases List.mem_cons.1 he with rfl | he
      · exact fun h => nomatch h
      · exact h2 e he w

theorem fed_opening (P : Params σ) (ws : Nat → BitVec 32) (fs : List (List (BitVec 8))) (c : Config) :
    ∃ tr h s, calls (engine P) (opening fs c) none = .ok (tr, some h) ∧ (∀ e ∈ tr, ∀ w, e.1 ≠ .step w) ∧
      Fed P ws (startMachine P c (loaded P fs)) 0 h s := by
  obtain ⟨h, s, e1, e2⟩ := fed_start P ws c (loaded P fs)
  obtain ⟨tr, e3, e4⟩ := calls_loads P fs P.blank
  have e5 : calls (engine P) [.config (some c)] (some ⟨loaded P fs, none, false⟩) = .ok ([(.config (some c), { ret := 0 })], some h) := by
    rw [calls, e1, Outcome.ok_bind]; rfl
  refine ⟨(.init, { ret := 0 }) :: (tr ++ [(.config (some c), { ret := 0 })]), h, s, ?_, ?_, e2⟩
  · unfold opening
    rw [List.cons_append, calls, show call (engine P) .init none = .ok ({ ret := 0 }, some ⟨P.blank, none, false⟩) from rfl,
      Outcome.ok_bind, calls_append_dpi e3 e5]
    rfl
  · intro e he w
    simp only [List.mem_cons, List.mem_append, List.not_mem_nil, or_false] at he
    rcases he with rfl | he | rfl
    · exact fun h => nomatch h
    · exact e4 e he w
    · exact fun h => nomatch h

/-- C112: from a new instance into which any number of programs was loaded, one over the other, and a configuration, calls that supply words and calls that only look, in any
order: as long as the words supplied at one place are the same, and none of them halts, every step answers 0 and the instance holds
the machine that results from executing exactly the supplied words, from the start of the instruction memory. -/
theorem C112_feed (P : Params σ) (fs : List (List (BitVec 8))) (c : Config)
    (ws : Nat → BitVec 32) (n : Nat) (hc : Consistent P.env.sem ws n (startMachine P c (loaded P fs)))
    (hq : ∀ k < n, stops P.env.sem ws k (startMachine P c (loaded P fs)) = []) (cs : List Call) (hcs : ∀ d ∈ cs, Feeds d)
    (hw : cs.filterMap supplied = (List.range n).map ws) :
    ∃ tr g, calls (engine P) (opening fs c ++ cs) none = .ok (tr, g) ∧ (∀ e ∈ tr, ∀ w, e.1 = .step (some w) → e.2 = { ret := 0 }) ∧
      Holds (fed P.env.sem ws n (startMachine P c (loaded P fs))) false g := by
  obtain ⟨tr0, h, s, e1, e0, e2⟩ := fed_opening P ws fs c
  obtain ⟨tr, h', s', e3, e4, e5⟩ := feed_calls n hc hq cs 0 h s hcs (Nat.zero_le _)
    (by rw [hw, Nat.sub_zero, List.range_eq_range']) e2
  refine ⟨_, _, calls_append_dpi e1 e3, fun e he w hw => ?_, Fed.holds e4⟩
  rcases List.mem_append.1 he with he | he
  · exact absurd hw (e0 e he (some w))
  · exact e5 e he w hw

/-- C112: and if the next word asks for a halt, as `mpause` does, the step that supplies it answers 0, the instance holds the
machine after it, and every further step answers 2 and changes nothing. -/
theorem C112_pause (P : Params σ) (fs : List (List (BitVec 8))) (c : Config)
    (ws : Nat → BitVec 32) (n : Nat) (hc : Consistent P.env.sem ws (n + 1) (startMachine P c (loaded P fs)))
    (hq : ∀ k < n, stops P.env.sem ws k (startMachine P c (loaded P fs)) = [])
    (hp : stops P.env.sem ws n (startMachine P c (loaded P fs)) = [.ev .userRequest]) (cs : List Call) (hcs : ∀ d ∈ cs, Feeds d)
    (hw : cs.filterMap supplied = (List.range n).map ws) :
    ∃ tr g, calls (engine P) (opening fs c ++ cs ++ [.step (some (ws n))]) none = .ok (tr, g) ∧
      (∀ e ∈ tr, ∀ w, e.1 = .step (some w) → e.2.ret = 0) ∧
      Holds (fed P.env.sem ws (n + 1) (startMachine P c (loaded P fs))) true g ∧
      ∀ w, call (engine P) (.step w) g = .ok ({ ret := 2 }, g) := by
  obtain ⟨tr0, h, s, e1, e0, e2⟩ := fed_opening P ws fs c
  obtain ⟨tr, h', s', e3, e4, e5⟩ := feed_calls n (fun i j hij hj => hc i j hij (by omega)) hq cs 0 h s hcs (Nat.zero_le _)
    (by rw [hw, Nat.sub_zero, List.range_eq_range']) e2
  obtain ⟨h2, s2, e6, e7, e8, e9⟩ := fed_pause e4 hc hp
  have e10 : calls (engine P) [.step (some (ws n))] (some h') = .ok ([(.step (some (ws n)), { ret := 0, paused := true })], some h2) := by
    rw [calls, e6, Outcome.ok_bind, calls]; rfl
  refine ⟨_, _, calls_append_dpi (calls_append_dpi e1 e3) e10, fun e he w hw => ?_, ⟨h2, s2, rfl, e7, e8, ?_, ?_, ?_⟩, fun w => ?_⟩
  · rcases List.mem_append.1 he with he | he
    · rcases List.mem_append.1 he with he | he
      · exact absurd hw (e0 e he (some w))
      · rw [e5 e he w hw]
    · simp only [List.mem_cons, List.not_mem_nil, or_false] at he
      subst he; rfl
  · rw [← e9]; rfl
  · rw [← e9]; rfl
  · rw [← e9]; rfl
  · have hr : ready (engine P) h2 = .ok (h2, s2) := by unfold ready; rw [e7]
    simp only [call, Model.Cosim.step, hr, Outcome.ok_bind, e8, if_true]

/-- What `mpact_get_register` reports of a machine. -/
theorem C112_look (P : Params σ) (m : Machine σ) (b : Bool) (g : World (St σ) (Nat → BitVec 8)) (hg : Holds m b g)
    (n : List (BitVec 8)) (hn : n ≠ [0x70, 0x63]) (v : BitVec 64) (hv : P.getReg n m.regs = some v) :
    call (engine P) (.getRegister (some [0x70, 0x63]) false) g = .ok ({ ret := 0, value := some m.pc }, g) ∧
    call (engine P) (.getRegister (some n) false) g = .ok ({ ret := 0, value := some (v.truncate 32) }, g) := by
  obtain ⟨h, s, rfl, hc, -, h1, h2, -⟩ := hg
  have hr : ready (engine P) h = .ok (h, s) := by unfold ready; rw [hc]
  have hp : (engine P).readReg [0x70, 0x63] s = some (s.m.pc.zeroExtend 64) := by simp [engine, pcName]
  have hq : (engine P).readReg n s = some v := by
    show (if n = pcName then _ else _) = _
    rw [if_neg (show n ≠ pcName from hn), h2]; exact hv
  have hz : (BitVec.truncate 32 (BitVec.zeroExtend 64 s.m.pc) : BitVec 32) = s.m.pc := by
    apply BitVec.eq_of_toNat_eq; simp
  constructor
  · simp only [call, getRegister, hr, Outcome.ok_bind, hp, hz, ← h1]; rfl
  · simp only [call, getRegister, hr, Outcome.ok_bind, hq]; rfl

theorem supply_own (m : Machine σ) : supply (word m.mem m.pc.toNat) m = m := by
  have h : (supply (word m.mem m.pc.toNat) m).mem = m.mem := by
    funext q
    show (if m.pc.toNat ≤ q ∧ q < m.pc.toNat + 4 then _ else m.mem q) = m.mem q
    split
    · next h =>
      have := Proofs.Top.putWord_word m.mem m.mem m.pc.toNat q h
      unfold putWord at this
      rwa [if_pos h] at this
    · rfl
  obtain ⟨pc, mem, regs⟩ := m
  unfold supply at h ⊢
  dsimp only at h ⊢
  rw [h]

/-- C112: supplying a program that is in the memory with its own words, as it executes them, is the same as running it. -/
theorem C112_program (sem : Sem σ) (m : Machine σ) (ws : Nat → BitVec 32) (n : Nat)
    (hws : ∀ k < n, ws k = word (run sem k m).mem (run sem k m).pc.toNat) :
    (∀ k ≤ n, fed sem ws k m = run sem k m) ∧ (∀ k < n, stops sem ws k m = (next sem (run sem k m)).2) ∧
    (Steady sem m n → Consistent sem ws n m) := by
  have key : ∀ k ≤ n, fed sem ws k m = run sem k m := by
    intro k
    induction k with
    | zero => intro _; rfl
    | succ k ih =>
      intro hk
      show (next sem (supply (ws k) (fed sem ws k m))).1 = _
      rw [ih (by omega), hws k (by omega), supply_own, Proofs.Top.run_succ]
  refine ⟨key, fun k hk => ?_, fun hst i j hij hj hpc => ?_⟩
  · unfold stops
    rw [key k (by omega), hws k hk, supply_own]
  · rw [key i (by omega), key j (by omega)] at hpc
    rw [hws i (by omega), hws j hj, ← hpc]
    exact (hst i j (by omega) hj).symm

/-! ## Examples -/

/-- Instructions that remember their word; `0x6f` stays where it is and counts, `mpause` pauses. -/
def echoSem : Sem (BitVec 32 × Nat) where
  inst w a m :=
    if w = 0x08000073 then (m, [.userRequest])
    else if w.extractLsb' 0 7 = 0x6f then ({ m with pc := BitVec.ofNat 32 a, regs := (w, m.regs.2 + 1) }, [])
    else ({ m with regs := (w, m.regs.2 + 1) }, [])

/-- A core whose decode cache keeps everything. -/
def echo : Params (BitVec 32 × Nat) where
  env := ⟨echoSem, fun _ _ => true⟩
  blank _ := 0
  elf f m := (some (), fun q => f.getD q (m q))
  start _ := (0, 0)
  getReg n r := if n = [0x78] then some (r.1.zeroExtend 64) else none
  setReg _ _ _ := none
  words _ _ := none

/-- Two programs loaded one over the other: the second replaces the bytes it has, the others stay. -/
example : (List.range 5).map (loaded echo [[1, 2, 3], [7, 8]]) = [7, 8, 3, 0, 0] := by decide +kernel

/-- Three words, the third twice at the same place, with a look in between. -/
example : (∀ d ∈ [Call.step (some 0x13), .isHalted, .step (some 0x93), .step (some 0x6f), .getRegister (some [0x78]) false,
      .step (some 0x6f)], Feeds d) ∧
    Consistent echoSem (fun k => [0x13, 0x93, 0x6f, 0x6f].getD k 0) 4 (startMachine echo ⟨0x100, 0x2000, 0, 0x10000, 0x8000⟩ fun _ => 0) ∧
    ∀ k < 4, stops echoSem (fun k => [0x13, 0x93, 0x6f, 0x6f].getD k 0) k
      (startMachine echo ⟨0x100, 0x2000, 0, 0x10000, 0x8000⟩ fun _ => 0) = [] := by
  refine ⟨by simp [Feeds, Looks], ?_, ?_⟩
  · suffices h : ∀ j < 4, ∀ i < j, (fed echoSem (fun k => [0x13, 0x93, 0x6f, 0x6f].getD k 0) i
        (startMachine echo ⟨0x100, 0x2000, 0, 0x10000, 0x8000⟩ fun _ => 0)).pc =
        (fed echoSem (fun k => [0x13, 0x93, 0x6f, 0x6f].getD k 0) j
          (startMachine echo ⟨0x100, 0x2000, 0, 0x10000, 0x8000⟩ fun _ => 0)).pc →
        ([0x13, 0x93, 0x6f, 0x6f] : List (BitVec 32)).getD i 0 = ([0x13, 0x93, 0x6f, 0x6f] : List (BitVec 32)).getD j 0 from
      fun i j hij hj => h j hj i hij
    decide +kernel
  · decide +kernel

/-- Different words at one place, for C112: the core with the decode cache executes the first again. -/
theorem C112_stale : ∃ g, calls (engine echo) (opening [[]] ⟨0x100, 0x2000, 0, 0x10000, 0x8000⟩ ++
      [.step (some 0x6f), .step (some 0x100006f), .getRegister (some [0x78]) false]) none =
    .ok ([(.init, { ret := 0 }), (.loadProgram (some []), { ret := 0 }),
      (.config (some ⟨0x100, 0x2000, 0, 0x10000, 0x8000⟩), { ret := 0 }), (.step (some 0x6f), { ret := 0 }),
      (.step (some 0x100006f), { ret := 0 }), (.getRegister (some [0x78]) false, { ret := 0, value := some 0x6f })], g) ∧
    (fed echoSem (fun k => [0x6f, 0x100006f].getD k 0) 2 (startMachine echo ⟨0x100, 0x2000, 0, 0x10000, 0x8000⟩ fun _ => 0)).regs.1 =
      0x100006f :=
  ⟨_, rfl, by decide +kernel⟩

end Verif.Props
