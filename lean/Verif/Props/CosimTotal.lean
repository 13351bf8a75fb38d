import Verif.Props.Cosim
import Verif.Spec.CosimLife

/-!
# C111: exactly which calls of the cosimulation interface end the process

The pc of the core can always be read and written (`PcOpen`).
-/

namespace Verif.Props

open Verif Verif.Model.Cosim Verif.Spec.CosimLife Verif.Proofs.Cosim

variable {ε μ : Type}

/-- The pc can be accessed. -/
structure PcOpen (eng : Engine ε μ) : Prop where
  read : ∀ e, ∃ v, eng.readReg [0x70, 0x63] e = some v
  write : ∀ v e, ∃ e', eng.writeReg [0x70, 0x63] v e = (some (), e')

/-- What a call does, from its arguments and whether the program paused in it. -/
def act : Call × Reply → Act
  | (.init, _) => .make
  | (.reset, _) => .renew
  | (.fini, _) => .finish
  | (.config (some _), _) => .use
  | (.step _, r) => if r.paused then .pause else .use
  | (.isHalted, _) => .use
  | (.getVector (some _) false, _) => .use
  | (.getRegister (some _) false, _) => .use
  | (.setRegister (some _) _, _) => .use
  | _ => .none

/-- The condition after a history. -/
def life (tr : List (Call × Reply)) : Life := tr.foldl (fun l e => l.after (act e)) .absent

/-- The calls without defined behaviour. -/
def DpiUndefined (l : Life) : Call → Prop
  | .loadProgram (some _) => l = .absent
  | .step none => l = .fresh ∨ l = .used
  | _ => False

/-- The calls that stop the process. -/
def DpiAborts (l : Life) : Call → Prop
  | .config (some _) => l = .used ∨ l = .stopped
  | _ => False

/-- The world is in the condition `l`. -/
def InLife : Life → World ε μ → Prop
  | .absent, g => g = none
  | .fresh, g => ∃ h, g = some h ∧ h.core = none ∧ h.halted = false
  | .used, g => ∃ h e, g = some h ∧ h.core = some e ∧ h.halted = false
  | .stopped, g => ∃ h e, g = some h ∧ h.core = some e ∧ h.halted = true

theorem ready_open {eng : Engine ε μ} (hp : PcOpen eng) (h : Handle ε μ) :
    ∃ e, ready eng h = .ok ({ h with core := some e }, e) := by
  obtain ⟨m, c, b⟩ := h
  cases c with
  | some e => exact ⟨e, rfl⟩
  | none =>
    obtain ⟨e, he⟩ := hp.write ((none.getD defaultConfig : Config).itcmStart.zeroExtend 64)
      (eng.create (none.getD defaultConfig) m)
    refine ⟨e, ?_⟩
    simp only [ready, initHandle, pcName, he]
    rfl

/-- The next condition when the core is used without pausing. -/
theorem use_life {l : Life} {h : Handle ε μ} (hl : InLife l (some h)) (m : μ) (e : ε) :
    InLife (l.after .use) (some { mem := m, core := some e, halted := h.halted }) := by
  cases l with
  | absent => cases hl
  | fresh => obtain ⟨x, h1, -, h3⟩ := hl; cases h1; exact ⟨_, e, rfl, rfl, h3⟩
  | used => obtain ⟨x, e', h1, -, h3⟩ := hl; cases h1; exact ⟨_, e, rfl, rfl, h3⟩
  | stopped => obtain ⟨x, e', h1, -, h3⟩ := hl; cases h1; exact ⟨_, e, rfl, rfl, h3⟩

theorem none_life {l : Life} (hl : InLife l (none : World ε μ)) : l = .absent := by
  cases l with
  | absent => rfl
  | fresh => obtain ⟨x, h1, -⟩ := hl; cases h1
  | used => obtain ⟨x, e', h1, -⟩ := hl; cases h1
  | stopped => obtain ⟨x, e', h1, -⟩ := hl; cases h1

theorem some_life {l : Life} {h : Handle ε μ} (hl : InLife l (some h)) :
    l = (if h.halted then .stopped else if h.core.isSome then .used else .fresh) ∧ (h.halted = true → h.core.isSome = true) := by
  cases l with
  | absent => cases hl
  | fresh => obtain ⟨x, h1, h2, h3⟩ := hl; cases h1; simp [h2, h3]
  | used => obtain ⟨x, e', h1, h2, h3⟩ := hl; cases h1; simp [h2, h3]
  | stopped => obtain ⟨x, e', h1, h2, h3⟩ := hl; cases h1; simp [h2, h3]

/-- One call. -/
theorem call_life (eng : Engine ε μ) (hp : PcOpen eng) (l : Life) (g : World ε μ) (hl : InLife l g) (c : Call) :
    (call eng c g = .ub ∧ DpiUndefined l c ∧ ¬ DpiAborts l c) ∨ (call eng c g = .abort ∧ ¬ DpiUndefined l c ∧ DpiAborts l c) ∨
    (∃ r g', call eng c g = .ok (r, g') ∧ InLife (l.after (act (c, r))) g' ∧ ¬ DpiUndefined l c ∧ ¬ DpiAborts l c) := by
  have keep : ∀ l : Life, l.after .none = l := by intro l; cases l <;> rfl
  cases g with
  | none =>
    have := none_life hl
    subst this
    cases c with
    | init => exact Or.inr (Or.inr ⟨_, _, rfl, ⟨_, rfl, rfl, rfl⟩, id, id⟩)
    | reset => exact Or.inr (Or.inr ⟨_, _, rfl, ⟨_, rfl, rfl, rfl⟩, id, id⟩)
    | fini => exact Or.inr (Or.inr ⟨_, _, rfl, rfl, id, id⟩)
    | config c =>
      cases c with
      | none => exact Or.inr (Or.inr ⟨_, _, rfl, rfl, id, id⟩)
      | some c => exact Or.inr (Or.inr ⟨_, _, rfl, rfl, id, by simp [DpiAborts]⟩)
    | loadProgram f =>
      cases f with
      | none => exact Or.inr (Or.inr ⟨_, _, rfl, rfl, id, id⟩)
      | some f => exact Or.inl ⟨rfl, rfl, id⟩
    | step i =>
      cases i with
      | none => exact Or.inr (Or.inr ⟨_, _, rfl, rfl, by simp [DpiUndefined], id⟩)
      | some i => exact Or.inr (Or.inr ⟨_, _, rfl, rfl, id, id⟩)
    | isHalted => exact Or.inr (Or.inr ⟨_, _, rfl, rfl, id, id⟩)
    | getVector n nl => cases n <;> cases nl <;> exact Or.inr (Or.inr ⟨_, _, rfl, rfl, id, id⟩)
    | getRegister n nl => cases n <;> cases nl <;> exact Or.inr (Or.inr ⟨_, _, rfl, rfl, id, id⟩)
    | setRegister n v => cases n <;> exact Or.inr (Or.inr ⟨_, _, rfl, rfl, id, id⟩)
  | some h =>
    obtain ⟨hlc, hcore⟩ := some_life hl
    have hne : l ≠ .absent := by rintro rfl; cases hl
    obtain ⟨e, hr⟩ := ready_open hp h
    have hu : InLife (l.after .use) (some { h with core := some e }) := use_life hl h.mem e
    cases c with
    | init => exact Or.inr (Or.inr ⟨_, _, rfl, by
        show InLife (l.after .make) _
        cases l with
        | absent => exact absurd rfl hne
        | fresh => exact hl
        | used => exact hl
        | stopped => exact hl, id, id⟩)
    | reset => exact Or.inr (Or.inr ⟨_, _, rfl, by cases l <;> exact ⟨_, rfl, rfl, rfl⟩, id, id⟩)
    | fini => exact Or.inr (Or.inr ⟨_, _, rfl, by cases l <;> rfl, id, id⟩)
    | config c =>
      cases c with
      | none => exact Or.inr (Or.inr ⟨_, _, rfl, by rw [show act _ = Act.none from rfl, keep]; exact hl, id, id⟩)
      | some c =>
        obtain ⟨m, x, b⟩ := h
        cases x with
        | some x =>
          refine Or.inr (Or.inl ⟨rfl, id, ?_⟩)
          show l = .used ∨ l = .stopped
          cases b
          · exact Or.inl hlc
          · exact Or.inr hlc
        | none =>
          cases b with
          | true => cases hcore rfl
          | false =>
            obtain ⟨e, he⟩ := hp.write (c.itcmStart.zeroExtend 64) (eng.create c m)
            have : call eng (.config (some c)) (some ⟨m, none, false⟩) = .ok ({ ret := 0 }, some ⟨m, some e, false⟩) := by
              simp only [call, config, initHandle, pcName, Option.getD_some, he]
              rfl
            have hl2 : l = .fresh := hlc
            subst hl2
            exact Or.inr (Or.inr ⟨_, _, this, ⟨_, _, rfl, rfl, rfl⟩, id, by simp [DpiAborts]⟩)
    | loadProgram f =>
      cases f with
      | none => exact Or.inr (Or.inr ⟨_, _, rfl, by rw [show act _ = Act.none from rfl, keep]; exact hl, id, id⟩)
      | some f =>
        refine Or.inr (Or.inr ⟨_, _, rfl, ?_, hne, id⟩)
        rw [show act _ = Act.none from rfl, keep]
        cases l with
        | absent => exact absurd rfl hne
        | fresh => obtain ⟨x, h1, h2, h3⟩ := hl; cases h1; exact ⟨_, rfl, h2, h3⟩
        | used => obtain ⟨x, e', h1, h2, h3⟩ := hl; cases h1; exact ⟨_, _, rfl, h2, h3⟩
        | stopped => obtain ⟨x, e', h1, h2, h3⟩ := hl; cases h1; exact ⟨_, _, rfl, h2, h3⟩
    | isHalted => exact Or.inr (Or.inr ⟨_, _, by simp only [call, isHalted, hr, Outcome.ok_bind]; rfl, hu, id, id⟩)
    | getVector n nl =>
      cases nl with
      | true => exact Or.inr (Or.inr ⟨_, _, rfl, by rw [show act _ = Act.none by cases n <;> rfl, keep]; exact hl, id, id⟩)
      | false =>
        cases n with
        | none => exact Or.inr (Or.inr ⟨_, _, rfl, by rw [show act _ = Act.none from rfl, keep]; exact hl, id, id⟩)
        | some n =>
          cases hq : eng.regWords n e with
          | none => exact Or.inr (Or.inr ⟨_, _, by simp only [call, getVector, hr, Outcome.ok_bind, hq]; rfl, hu, id, id⟩)
          | some w => exact Or.inr (Or.inr ⟨_, _, by simp only [call, getVector, hr, Outcome.ok_bind, hq]; rfl, hu, id, id⟩)
    | getRegister n nl =>
      cases nl with
      | true => exact Or.inr (Or.inr ⟨_, _, rfl, by rw [show act _ = Act.none by cases n <;> rfl, keep]; exact hl, id, id⟩)
      | false =>
        cases n with
        | none => exact Or.inr (Or.inr ⟨_, _, rfl, by rw [show act _ = Act.none from rfl, keep]; exact hl, id, id⟩)
        | some n =>
          cases hq : eng.readReg n e with
          | none => exact Or.inr (Or.inr ⟨_, _, by simp only [call, getRegister, hr, Outcome.ok_bind, hq]; rfl, hu, id, id⟩)
          | some w => exact Or.inr (Or.inr ⟨_, _, by simp only [call, getRegister, hr, Outcome.ok_bind, hq]; rfl, hu, id, id⟩)
    | setRegister n v =>
      cases n with
      | none => exact Or.inr (Or.inr ⟨_, _, rfl, by rw [show act _ = Act.none from rfl, keep]; exact hl, id, id⟩)
      | some n =>
        rcases hq : eng.writeReg n (v.zeroExtend 64) e with ⟨_ | u, e'⟩
        · exact Or.inr (Or.inr ⟨_, _, by simp only [call, setRegister, hr, Outcome.ok_bind, hq]; rfl, use_life hl h.mem e', id, id⟩)
        · exact Or.inr (Or.inr ⟨_, _, by simp only [call, setRegister, hr, Outcome.ok_bind, hq]; rfl, use_life hl h.mem e', id, id⟩)
    | step i =>
      cases hh : h.halted with
      | true =>
        have hl2 : l = .stopped := by rw [hlc, hh]; rfl
        have : call eng (.step i) (some h) = .ok ({ ret := 2 }, some { h with core := some e }) := by
          simp only [call, step, hr, Outcome.ok_bind, hh, if_true]
        refine Or.inr (Or.inr ⟨_, _, this, hu, ?_, id⟩)
        cases i with
        | none => subst hl2; simp [DpiUndefined]
        | some i => exact id
      | false =>
        have hl2 : l = .fresh ∨ l = .used := by
          rw [hlc, hh]
          cases h.core <;> simp
        cases i with
        | none =>
          refine Or.inl ⟨?_, hl2, id⟩
          simp only [call, step, hr, Outcome.ok_bind, hh, Bool.false_eq_true, if_false]
        | some w =>
          obtain ⟨pc, hpc⟩ := hp.read e
          rcases hq : eng.writeMem ((pc.truncate 32 : BitVec 32).zeroExtend 64) w (e, h.mem) with ⟨_ | u, e', m'⟩
          · have : call eng (.step (some w)) (some h) = .ok ({ ret := 1 }, some { h with core := some e', mem := m' }) := by
              simp only [call, step, hr, Outcome.ok_bind, hh, Bool.false_eq_true, if_false, pcName, hpc, hq]
            exact Or.inr (Or.inr ⟨_, _, this, use_life hl m' e', id, id⟩)
          · rcases hs : eng.step1 (e', m') with ⟨r, p, e'', m''⟩
            have : call eng (.step (some w)) (some h) = .ok ({ ret := if r = none then 2 else 0, paused := p },
                some { core := some e'', mem := m'', halted := h.halted || p }) := by
              simp only [call, step, hr, Outcome.ok_bind, hh, Bool.false_eq_true, if_false, pcName, hpc, hq, hs]
            refine Or.inr (Or.inr ⟨_, _, this, ?_, id, id⟩)
            cases p with
            | false =>
              have := use_life hl m'' e''
              rw [Bool.or_false]
              exact this
            | true =>
              rw [hh]
              show InLife (l.after .pause) _
              rcases hl2 with rfl | rfl <;> exact ⟨_, _, rfl, rfl, rfl⟩

theorem calls_life (eng : Engine ε μ) (hp : PcOpen eng) : ∀ (cs : List Call) (l : Life) (g : World ε μ) (tr : List (Call × Reply))
    (g' : World ε μ), InLife l g → calls eng cs g = .ok (tr, g') → InLife (tr.foldl (fun l e => l.after (act e)) l) g'
  | [], l, g, tr, g', hl, h => by cases h; exact hl
  | c :: cs, l, g, tr, g', hl, h => by
    obtain ⟨⟨r, g1⟩, h1, h2⟩ := bind_ok h
    obtain ⟨⟨tr1, g2⟩, h3, h4⟩ := bind_ok h2
    cases h4
    rcases call_life eng hp l g hl c with ⟨e, -⟩ | ⟨e, -⟩ | ⟨r', g1', e, hl', -⟩
    · rw [e] at h1; cases h1
    · rw [e] at h1; cases h1
    · rw [e] at h1; cases h1
      exact calls_life eng hp cs _ g1 tr1 g2 hl' h3

/-- C111: after any history, a call has undefined behaviour exactly if it is `mpact_load_program` with a file name and there is no
instance, or `mpact_step` with a null pointer and the instance has not stopped; it stops the process exactly if it is
`mpact_config` with a configuration and the instance was configured or used since it was made; every other call returns. -/
theorem C111_exact (eng : Engine ε μ) (hp : PcOpen eng) (cs : List Call) (tr : List (Call × Reply)) (g : World ε μ)
    (h : calls eng cs none = .ok (tr, g)) (c : Call) :
    (call eng c g = .ub ↔ DpiUndefined (life tr) c) ∧ (call eng c g = .abort ↔ DpiAborts (life tr) c) ∧
    ((∃ r g', call eng c g = .ok (r, g')) ↔ ¬ DpiUndefined (life tr) c ∧ ¬ DpiAborts (life tr) c) := by
  have hl : InLife (life tr) g := calls_life eng hp cs .absent none tr g rfl h
  rcases call_life eng hp _ g hl c with ⟨e, h1, h2⟩ | ⟨e, h1, h2⟩ | ⟨r, g', e, -, h1, h2⟩ <;> rw [e]
  · exact ⟨⟨fun _ => h1, fun _ => rfl⟩, ⟨fun h => (nomatch h), fun h => absurd h h2⟩,
      ⟨fun ⟨_, _, h⟩ => (nomatch h), fun h => absurd h1 h.1⟩⟩
  · exact ⟨⟨fun h => (nomatch h), fun h => absurd h h1⟩, ⟨fun _ => h2, fun _ => rfl⟩,
      ⟨fun ⟨_, _, h⟩ => (nomatch h), fun h => absurd h2 h.2⟩⟩
  · exact ⟨⟨fun h => (nomatch h), fun h => absurd h h1⟩, ⟨fun h => (nomatch h), fun h => absurd h h2⟩,
      ⟨fun _ => ⟨h1, h2⟩, fun _ => ⟨r, g', rfl⟩⟩⟩

/-- C111: what a caller can do without keeping account: once there is an instance, any calls in any order return, as long as
`mpact_fini`, `mpact_config` with a configuration and `mpact_step` with a null pointer are not among them. -/
theorem C111_session (eng : Engine ε μ) (hp : PcOpen eng) (cs : List Call) (tr : List (Call × Reply)) (g : World ε μ)
    (h : calls eng cs none = .ok (tr, g)) (hl : life tr ≠ .absent) :
    ∀ ds : List Call, (∀ d ∈ ds, d ≠ .fini ∧ (∀ c, d ≠ .config (some c)) ∧ d ≠ .step none) → ∃ r, calls eng ds g = .ok r := by
  have hL : InLife (life tr) g := calls_life eng hp cs .absent none tr g rfl h
  generalize life tr = l at hl hL
  clear h
  intro ds
  induction ds generalizing l g with
  | nil => intro _; exact ⟨_, rfl⟩
  | cons d ds ih =>
    intro hd
    obtain ⟨h1, h2, h3⟩ := hd d (by simp)
    rcases call_life eng hp l g hL d with ⟨-, h, -⟩ | ⟨-, -, h⟩ | ⟨r, g', e, hl', -, -⟩
    · cases d with
      | loadProgram f =>
        cases f with
        | none => cases h
        | some f => exact absurd h hl
      | step i =>
        cases i with
        | none => exact absurd rfl h3
        | some i => cases h
      | _ => cases h
    · cases d with
      | config c =>
        cases c with
        | none => cases h
        | some c => exact absurd rfl (h2 c)
      | _ => cases h
    · obtain ⟨x, hx⟩ := ih _ _ (by
        have key : ∀ a : Act, a ≠ .finish → l.after a ≠ .absent := by
          intro a ha
          cases l <;> cases a <;> simp_all [Life.after]
        refine key _ ?_
        cases d with
        | fini => exact absurd rfl h1
        | config c => cases c <;> simp [act]
        | getVector n nl => cases n <;> cases nl <;> simp [act]
        | getRegister n nl => cases n <;> cases nl <;> simp [act]
        | setRegister n v => cases n <;> simp [act]
        | step i => simp only [act]; split <;> simp
        | _ => simp [act]) hl' (fun q hq => hd q (by simp [hq]))
      exact ⟨_, by rw [calls, e, Outcome.ok_bind, hx, Outcome.ok_bind]⟩

example : PcOpen toyEngine := ⟨fun e => ⟨e.1, rfl⟩, fun v e => ⟨_, rfl⟩⟩

/-- All the conditions occur, and each exception too. -/
example (c : Config) (f : List (BitVec 8)) :
    calls toyEngine [.loadProgram (some f)] none = .ub ∧ calls toyEngine [.init, .fini, .loadProgram (some f)] none = .ub ∧
    calls toyEngine [.init, .step none] none = .ub ∧ calls toyEngine [.init, .step (some 0x13), .step none] none = .ub ∧
    (∃ r, calls toyEngine [.step none, .init, .step (some 0x08000073), .step none] none = .ok r ∧ life r.1 = .stopped) ∧
    calls toyEngine [.init, .step (some 0x08000073), .config (some c)] none = .abort ∧
    (∃ r, calls toyEngine [.isHalted, .init, .loadProgram (some f), .config (some c), .reset, .config (some c)] none = .ok r ∧
      life r.1 = .used) ∧
    life [(.init, { ret := 0 }), (.getRegister none false, { ret := -3 })] = .fresh := by
  refine ⟨rfl, rfl, rfl, rfl, ⟨_, rfl, rfl⟩, rfl, ⟨_, rfl, rfl⟩, rfl⟩

end Verif.Props
