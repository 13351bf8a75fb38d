import Verif.Proofs.Cosim

/-!
# C55: the cosimulation interface

The core is a parameter. `mpact_init` and `mpact_reset` are called from a process that starts without an instance.
-/

namespace Verif.Props

open Verif Verif.Model.Cosim Verif.Spec.Cosim Verif.Proofs.Cosim

variable {ε μ : Type}

/-- C55: after any history the interface holds an instance (there is room for one only) iff the last one made has not
been finalised. -/
theorem C55_present (eng : Engine ε μ) (cs : List Call) (tr : List (Call × Reply)) (g : World ε μ)
    (h : calls eng cs none = .ok (tr, g)) : Present (events tr) ↔ g.isSome = true := by
  have := (calls_agrees eng cs [] none g tr agrees_empty h).present
  simpa using this

/-- C55: after any history `mpact_init` succeeds iff there is no instance, and otherwise changes nothing. -/
theorem C55_init (eng : Engine ε μ) (cs : List Call) (tr : List (Call × Reply)) (g : World ε μ)
    (h : calls eng cs none = .ok (tr, g)) :
    ∃ r g', call eng .init g = .ok (r, g') ∧ (r.ret = 0 ↔ ¬ Present (events tr)) ∧
      (Present (events tr) → r.ret = -1 ∧ g' = g) := by
  have hp := C55_present eng cs tr g h
  cases g with
  | none => exact ⟨_, _, rfl, by simp [hp], fun hq => by simp [hp] at hq⟩
  | some x => exact ⟨_, _, rfl, by simp [hp], fun _ => ⟨rfl, rfl⟩⟩

/-- C55: after any history `mpact_fini` succeeds iff there is an instance; afterwards there is none. -/
theorem C55_fini (eng : Engine ε μ) (cs : List Call) (tr : List (Call × Reply)) (g : World ε μ)
    (h : calls eng cs none = .ok (tr, g)) :
    ∃ r, call eng .fini g = .ok (r, none) ∧ (r.ret = 0 ↔ Present (events tr)) ∧
      (¬ Present (events tr) → r.ret = -1) := by
  have hp := C55_present eng cs tr g h
  cases g with
  | none => exact ⟨_, rfl, by simp [hp], fun _ => rfl⟩
  | some x => exact ⟨_, rfl, by simp [hp], fun hq => absurd (hp.2 rfl) hq⟩

/-- What a call answers without an instance, with the arguments tested first. -/
def absentReply : Call → Reply
  | .init | .reset => { ret := 0 }
  | .config _ | .step _ | .fini => { ret := -1 }
  | .loadProgram _ => { ret := -1 }
  | .isHalted => { ret := 0 }
  | .getVector name valueNull => { ret := if valueNull then -1 else if name = none then -3 else -2 }
  | .getRegister name valueNull =>
    if valueNull then { ret := -1 } else if name = none then { ret := -3 } else { ret := -2, value := some 0 }
  | .setRegister name _ => { ret := if name = none then -3 else -2 }

/-- C55 (missing: `mpact_load_program` with a file name, see `C55_load_absent`; `mpact_is_halted` has no error code and
answers false): after any history that leaves no instance, every call other than `mpact_init` and `mpact_reset` answers
its negative code, and no instance comes into being. -/
theorem C55_absent_partial (eng : Engine ε μ) (cs : List Call) (tr : List (Call × Reply)) (g : World ε μ)
    (h : calls eng cs none = .ok (tr, g)) (ha : ¬ Present (events tr)) (c : Call) (hc : c ≠ .init ∧ c ≠ .reset)
    (hl : ∀ f, c ≠ .loadProgram (some f)) :
    call eng c g = .ok (absentReply c, none) ∧ (c ≠ .isHalted → (absentReply c).ret < 0) := by
  have hp := C55_present eng cs tr g h
  cases g with
  | some x => exact absurd (hp.2 rfl) ha
  | none =>
    cases c with
    | init => exact absurd rfl hc.1
    | reset => exact absurd rfl hc.2
    | config c => exact ⟨rfl, fun _ => by simp [absentReply]⟩
    | step i => exact ⟨rfl, fun _ => by simp [absentReply]⟩
    | isHalted => exact ⟨rfl, fun hx => absurd rfl hx⟩
    | fini => exact ⟨rfl, fun _ => by simp [absentReply]⟩
    | loadProgram f =>
      cases f with
      | none => exact ⟨rfl, fun _ => by simp [absentReply]⟩
      | some f => exact absurd rfl (hl f)
    | getVector n nl => cases n <;> cases nl <;> exact ⟨rfl, fun _ => by simp [absentReply]⟩
    | getRegister n nl => cases n <;> cases nl <;> exact ⟨rfl, fun _ => by simp [absentReply]⟩
    | setRegister n v => cases n <;> exact ⟨rfl, fun _ => by simp [absentReply]⟩

/-- C55: once the program has paused, every step is refused and changes nothing, whatever other calls are made, until
the instance is renewed or finalised. -/
theorem C55_stopped (eng : Engine ε μ) (cs : List Call) (tr : List (Call × Reply)) (g : World ε μ)
    (h : calls eng cs none = .ok (tr, g)) (hs : Stopped (events tr)) (i : Option (BitVec 32)) :
    call eng (.step i) g = .ok ({ ret := 2 }, g) := by
  have ha := calls_agrees eng cs [] none g tr agrees_empty h
  rw [List.nil_append] at ha
  obtain ⟨x, rfl, hx⟩ := ha.stopped.1 hs
  obtain ⟨e, he⟩ := Option.isSome_iff_exists.1 (ha.core x rfl hx)
  unfold call step ready
  dsimp only
  rw [he]
  simp only [Outcome.ok_bind]
  rw [if_pos hx]

/-- C55: conversely, as long as the program has not paused, a step on a configured instance is executed: the word is
written at the pc and the core makes one step. -/
theorem C55_executed (eng : Engine ε μ) (cs : List Call) (tr : List (Call × Reply)) (x : Handle ε μ)
    (h : calls eng cs none = .ok (tr, some x)) (hs : ¬ Stopped (events tr)) (e : ε) (he : x.core = some e) (w : BitVec 32)
    (pc : BitVec 64) (hpc : eng.readReg [0x70, 0x63] e = some pc) (hpc' : pc.toNat < 2 ^ 32) (m : ε × μ)
    (hw : eng.writeMem pc w (e, x.mem) = (some (), m)) :
    ∃ x', call eng (.step (some w)) (some x) =
        .ok ({ ret := if (eng.step1 m).1 = none then 2 else 0, paused := (eng.step1 m).2.1 }, some x') ∧
      x'.core = some (eng.step1 m).2.2.1 ∧ x'.mem = (eng.step1 m).2.2.2 := by
  have ha := calls_agrees eng cs [] none (some x) tr agrees_empty h
  rw [List.nil_append] at ha
  have hx : x.halted = false := by
    cases hh : x.halted with
    | false => rfl
    | true => exact absurd (ha.stopped.2 ⟨x, rfl, hh⟩) hs
  have hq : (pc.truncate 32 : BitVec 32).zeroExtend 64 = pc := by
    apply BitVec.eq_of_toNat_eq
    simp
    omega
  refine ⟨⟨(eng.step1 m).2.2.2, some (eng.step1 m).2.2.1, x.halted || (eng.step1 m).2.1⟩, ?_, rfl, rfl⟩
  unfold call step ready
  dsimp only
  rw [he]
  simp only [Outcome.ok_bind]
  rw [if_neg (by rw [hx]; exact Bool.false_ne_true), show eng.readReg pcName e = some pc from hpc]
  dsimp only
  rw [hq, hw]

/-- C55: when the word cannot be written at the pc, nothing is executed and the answer is 1. -/
theorem C55_unwritable (eng : Engine ε μ) (x : Handle ε μ) (hx : x.halted = false) (e : ε) (he : x.core = some e)
    (w : BitVec 32) (pc : BitVec 64) (hpc : eng.readReg [0x70, 0x63] e = some pc) (hpc' : pc.toNat < 2 ^ 32) (m : ε × μ)
    (hw : eng.writeMem pc w (e, x.mem) = (none, m)) :
    call eng (.step (some w)) (some x) = .ok ({ ret := 1 }, some ⟨m.2, some m.1, false⟩) := by
  have hq : (pc.truncate 32 : BitVec 32).zeroExtend 64 = pc := by
    apply BitVec.eq_of_toNat_eq
    simp
    omega
  unfold call step ready
  dsimp only
  rw [he]
  simp only [Outcome.ok_bind]
  rw [if_neg (by rw [hx]; exact Bool.false_ne_true), show eng.readReg pcName e = some pc from hpc]
  dsimp only
  rw [hq, hw]
  simp [hx]

/-- C55: `mpact_config` on a fresh handle makes the core with exactly the given parameters on the memory of the handle,
so what was loaded before is there, and starts it at the start of the instruction memory; when the pc cannot be written
the process ends. `mpact_load_program` reports whether the loader succeeded and touches nothing but that memory. -/
theorem C55_config (eng : Engine ε μ) (x : Handle ε μ) (hx : x.core = none) (c : Config) :
    (∀ e, eng.writeReg [0x70, 0x63] (c.itcmStart.zeroExtend 64) (eng.create c x.mem) = (some (), e) →
      call eng (.config (some c)) (some x) = .ok ({ ret := 0 }, some { x with core := some e })) ∧
    (∀ e, eng.writeReg [0x70, 0x63] (c.itcmStart.zeroExtend 64) (eng.create c x.mem) = (none, e) →
      call eng (.config (some c)) (some x) = .abort) ∧
    (∀ (y : Handle ε μ) f m, eng.loadElf f y.mem = (some (), m) →
      call eng (.loadProgram (some f)) (some y) = .ok ({ ret := 0 }, some { y with mem := m })) ∧
    (∀ (y : Handle ε μ) f m, eng.loadElf f y.mem = (none, m) →
      call eng (.loadProgram (some f)) (some y) = .ok ({ ret := -1 }, some { y with mem := m })) ∧
    ∀ g : World ε μ, call eng (.loadProgram none) g = .ok ({ ret := -1 }, g) := by
  refine ⟨fun e h => ?_, fun e h => ?_, fun y f m h => ?_, fun y f m h => ?_, fun g => rfl⟩
  · have : initHandle eng (some c) x = .ok { x with core := some e } := by
      unfold initHandle
      rw [hx]
      dsimp only [Option.getD_some]
      rw [show eng.writeReg pcName _ _ = _ from h]
    simp only [call, config, this, Outcome.ok_bind]
  · have : initHandle eng (some c) x = .abort := by
      unfold initHandle
      rw [hx]
      dsimp only [Option.getD_some]
      rw [show eng.writeReg pcName _ _ = _ from h]
    simp only [call, config, this]
    rfl
  · simp [call, loadProgram, h]
  · simp [call, loadProgram, h]

/-- C55: `mpact_reset` succeeds after any history and leaves the interface as it is after the first `mpact_init` of a
process: in particular it is not stopped. -/
theorem C55_reset (eng : Engine ε μ) (cs : List Call) (tr : List (Call × Reply)) (g : World ε μ)
    (_h : calls eng cs none = .ok (tr, g)) :
    call eng .reset g = call eng .init none ∧
    call eng .reset g = .ok ({ ret := 0 }, some ⟨eng.blank, none, false⟩) ∧
    ¬ Stopped (events (tr ++ [(.reset, { ret := 0 })])) := by
  refine ⟨by cases g <;> rfl, by cases g <;> rfl, ?_⟩
  unfold events Stopped
  rw [List.map_append, List.map_singleton, latest_append]
  simp [event]

/-- C55: using an instance that was not configured is the same as configuring it with the default values first. -/
theorem C55_lazy (eng : Engine ε μ) (x : Handle ε μ) (hx : x.core = none) (c : Call)
    (hc : (∃ i, c = .step i) ∨ c = .isHalted ∨ (∃ n, c = .getVector (some n) false) ∨
      (∃ n, c = .getRegister (some n) false) ∨ ∃ n v, c = .setRegister (some n) v) :
    call eng c (some x) = call eng (.config (some ⟨0, 0x2000, 0x40201120, 0x10000, 0x8000⟩)) (some x) >>= fun r =>
      call eng c r.2 := by
  have key : ready eng x = initHandle eng (some defaultConfig) x >>= fun h' => ready eng h' := by
    have e : initHandle eng none x = initHandle eng (some defaultConfig) x := rfl
    unfold ready
    rw [hx]
    dsimp only
    rw [e]
    cases hi : initHandle eng (some defaultConfig) x with
    | ub => rfl
    | abort => rfl
    | ok h' =>
      simp only [Outcome.ok_bind]
      have := (initHandle_halted hi).2.2
      cases hc : h'.core with
      | none => rw [hc] at this; cases this
      | some e => rfl
  have e2 : call eng (.config (some ⟨0, 0x2000, 0x40201120, 0x10000, 0x8000⟩)) (some x) =
      initHandle eng (some defaultConfig) x >>= fun h' => .ok ({ ret := 0 }, some h') := rfl
  rw [e2]
  rcases hc with ⟨i, rfl⟩ | rfl | ⟨n, rfl⟩ | ⟨n, rfl⟩ | ⟨n, v, rfl⟩ <;>
  · simp only [call, step, isHalted, getVector, getRegister, setRegister, key]
    cases initHandle eng (some defaultConfig) x <;> rfl

/-- C55: on a configured instance the register calls and `mpact_config` with a null pointer answer the documented code of
each refusal, and 0 exactly when the core performs the access; a refused read leaves the instance as it is. -/
theorem C55_codes (eng : Engine ε μ) (x : Handle ε μ) (e : ε) (he : x.core = some e) (n : List (BitVec 8)) (v : BitVec 32) :
    call eng (.config none) (some x) = .ok ({ ret := -2 }, some x) ∧
    (∀ name, call eng (.getRegister name true) (some x) = .ok ({ ret := -1 }, some x) ∧
      call eng (.getVector name true) (some x) = .ok ({ ret := -1 }, some x)) ∧
    call eng (.getRegister none false) (some x) = .ok ({ ret := -3 }, some x) ∧
    call eng (.getVector none false) (some x) = .ok ({ ret := -3 }, some x) ∧
    call eng (.setRegister none v) (some x) = .ok ({ ret := -3 }, some x) ∧
    (eng.readReg n e = none →
      call eng (.getRegister (some n) false) (some x) = .ok ({ ret := -4, value := some 0 }, some x)) ∧
    (∀ w : BitVec 64, eng.readReg n e = some w → w.toNat < 2 ^ 32 →
      ∃ a : BitVec 32, a.toNat = w.toNat ∧
        call eng (.getRegister (some n) false) (some x) = .ok ({ ret := 0, value := some a }, some x)) ∧
    (eng.regWords n e = none → call eng (.getVector (some n) false) (some x) = .ok ({ ret := -4 }, some x)) ∧
    (∀ ws, eng.regWords n e = some ws →
      call eng (.getVector (some n) false) (some x) = .ok ({ ret := 0, words := some ws }, some x)) ∧
    ∃ w : BitVec 64, w.toNat = v.toNat ∧
      ∃ r, call eng (.setRegister (some n) v) (some x) =
          .ok ({ ret := r }, some ⟨x.mem, some (eng.writeReg n w e).2, x.halted⟩) ∧
        (r = 0 ∨ r = -4) ∧ (r = 0 ↔ (eng.writeReg n w e).1 = some ()) := by
  have hr : ready eng x = .ok (x, e) := by unfold ready; rw [he]
  refine ⟨rfl, fun _ => ⟨rfl, rfl⟩, rfl, rfl, rfl, fun h => ?_, fun w h hw => ⟨w.truncate 32, ?_, ?_⟩, fun h => ?_, fun ws h => ?_,
    v.zeroExtend 64, ?_, ?_⟩
  · unfold call getRegister
    simp only [hr, Outcome.ok_bind, h]
    rfl
  · rw [BitVec.truncate_eq_setWidth, BitVec.toNat_setWidth, Nat.mod_eq_of_lt hw]
  · unfold call getRegister
    simp only [hr, Outcome.ok_bind, h]
    rfl
  · unfold call getVector
    simp only [hr, Outcome.ok_bind, h]
    rfl
  · unfold call getVector
    simp only [hr, Outcome.ok_bind, h]
    rfl
  · have := v.isLt
    rw [BitVec.zeroExtend_eq_setWidth, BitVec.toNat_setWidth, Nat.mod_eq_of_lt (by omega)]
  · unfold call setRegister
    simp only [hr, Outcome.ok_bind]
    rcases hq : eng.writeReg n (v.zeroExtend 64) e with ⟨_ | u, e'⟩
    · exact ⟨-4, rfl, Or.inr rfl, by simp⟩
    · exact ⟨0, rfl, Or.inl rfl, by simp⟩

/-- The core of the examples: the pc and the last word written; the memory counts the bytes loaded. -/
def toyEngine : Engine (BitVec 64 × BitVec 32) Nat where
  blank := 0
  loadElf f m := (some (), m + f.length)
  create _ _ := (0, 0)
  readReg n e := if n = [0x70, 0x63] then some e.1 else none
  writeReg n v e := if n = [0x70, 0x63] then (some (), v, e.2) else (none, e)
  regWords _ _ := none
  writeMem a w s := if a = s.1.1 then (some (), (a, w), s.2) else (none, s)
  step1 s := (some (), s.1.2 = 0x08000073#32, (s.1.1 + 4, s.1.2), s.2)

/-- Initialised twice, stepped lazily, paused, refused, finalised, refused, initialised again. -/
example : ∃ g, calls toyEngine [.step (some 0x13), .init, .init, .step (some 0x13), .step (some 0x08000073),
      .getRegister (some [0x70, 0x63]) false, .step (some 0x13), .isHalted, .reset, .step (some 0x13), .fini, .fini] none =
    .ok ([(.step (some 0x13), { ret := -1 }), (.init, { ret := 0 }), (.init, { ret := -1 }),
      (.step (some 0x13), { ret := 0 }), (.step (some 0x08000073), { ret := 0, paused := true }),
      (.getRegister (some [0x70, 0x63]) false, { ret := 0, value := some 8 }), (.step (some 0x13), { ret := 2 }),
      (.isHalted, { ret := 0 }), (.reset, { ret := 0 }), (.step (some 0x13), { ret := 0 }), (.fini, { ret := 0 }),
      (.fini, { ret := -1 })], g) :=
  ⟨_, rfl⟩

/-- An unknown register, a null name, a null result pointer, and the pc written and read back. -/
example : ∃ g, calls toyEngine [.init, .config none, .setRegister (some [0x78]) 5, .setRegister none 5,
      .getRegister none false, .getRegister (some [0x70, 0x63]) true, .setRegister (some [0x70, 0x63]) 0x80,
      .getRegister (some [0x70, 0x63]) false, .getVector (some [0x76, 0x30]) false] none =
    .ok ([(.init, { ret := 0 }), (.config none, { ret := -2 }), (.setRegister (some [0x78]) 5, { ret := -4 }),
      (.setRegister none 5, { ret := -3 }), (.getRegister none false, { ret := -3 }),
      (.getRegister (some [0x70, 0x63]) true, { ret := -1 }), (.setRegister (some [0x70, 0x63]) 0x80, { ret := 0 }),
      (.getRegister (some [0x70, 0x63]) false, { ret := 0, value := some 0x80 }),
      (.getVector (some [0x76, 0x30]) false, { ret := -4 })], g) :=
  ⟨_, rfl⟩

/-- The events of such a history: paused and not yet renewed. -/
example : Stopped (events [(.init, { ret := 0 }), (.step (some 0x08000073), { ret := 0, paused := true }),
    (.init, { ret := -1 }), (.isHalted, { ret := 0 })]) ∧
    Present (events [(.init, { ret := 0 }), (.fini, { ret := 0 }), (.reset, { ret := 0 }), (.init, { ret := -1 })]) ∧
    ¬ Present (events [(.init, { ret := 0 }), (.fini, { ret := 0 }), (.fini, { ret := -1 })]) := by
  simp [Stopped, Present, latest, events, event]

/-- C55 is false for `mpact_load_program`: without an instance it dereferences a null pointer. -/
theorem C55_load_absent (eng : Engine ε μ) (f : List (BitVec 8)) : call eng (.loadProgram (some f)) none = .ub := rfl

/-- A second `mpact_config`, or one after the instance was used, ends the process instead of returning a code. -/
theorem C55_config_twice (c c' : Config) (w : BitVec 32) :
    calls toyEngine [.init, .config (some c), .config (some c')] none = .abort ∧
    calls toyEngine [.init, .step (some w), .config (some c)] none = .abort ∧
    calls toyEngine [.init, .isHalted, .config (some c)] none = .abort :=
  ⟨rfl, rfl, rfl⟩

/-- `mpact_is_halted` answers false whenever it answers, also after the program has paused. -/
theorem C55_is_halted (eng : Engine ε μ) (g g' : World ε μ) (r : Reply) (h : call eng .isHalted g = .ok (r, g')) :
    r.ret = 0 := by
  unfold call isHalted at h
  cases g with
  | none => exact (congrArg Reply.ret (Verif.Proofs.Agent.ok_pair h).1).symm
  | some x =>
    obtain ⟨p, -, h2⟩ := bind_ok h
    exact (congrArg Reply.ret (Verif.Proofs.Agent.ok_pair h2).1).symm

/-- `mpact_reset`, which the header declares to reset the architectural state, drops the program that was loaded and the
configuration as well: after it the instance starts at 0 with the default configuration. -/
theorem C55_reset_forgets :
    (∃ tr, calls toyEngine [.init, .loadProgram (some [1, 2, 3]), .config (some ⟨0x1000, 0x2000, 0, 0x10000, 0x8000⟩)] none =
      .ok (tr, some ⟨3, some (0x1000, 0), false⟩)) ∧
    ∃ tr, calls toyEngine [.init, .loadProgram (some [1, 2, 3]), .config (some ⟨0x1000, 0x2000, 0, 0x10000, 0x8000⟩), .reset,
      .isHalted] none = .ok (tr, some ⟨0, some (0, 0), false⟩) :=
  ⟨⟨_, rfl⟩, ⟨_, rfl⟩⟩

end Verif.Props
