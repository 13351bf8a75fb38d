import Verif.Model.Cosim
import Verif.Spec.Cosim
import Verif.Proofs.Agent

/-! # Lemmas for the cosimulation interface -/

namespace Verif.Proofs.Cosim

open Verif Verif.Model.Cosim Verif.Spec.Cosim
open Verif.Proofs.Agent (ok_pair)

variable {ε μ : Type}

/-- What a call and its reply tell. -/
def event : Call × Reply → Ev
  | (.init, r) => if r.ret = 0 then .made else .other
  | (.reset, r) => if r.ret = 0 then .renewed else .other
  | (.fini, r) => if r.ret = 0 then .ended else .other
  | (.step _, r) => if r.paused then .paused else .other
  | _ => .other

def events (tr : List (Call × Reply)) : List Ev := tr.map event

theorem latest_append (p : Ev → Bool) (es : List Ev) (e : Ev) :
    latest p (es ++ [e]) = if p e then some e else latest p es := by
  unfold latest
  rw [List.reverse_append]
  simp only [List.reverse_cons, List.reverse_nil, List.nil_append, List.singleton_append, List.find?_cons]
  cases p e <;> rfl

/-- The instance of the model agrees with the events. -/
structure Agrees (es : List Ev) (g : World ε μ) : Prop where
  present : Present es ↔ g.isSome = true
  stopped : Stopped es ↔ ∃ h, g = some h ∧ h.halted = true
  core : ∀ h, g = some h → h.halted = true → h.core.isSome = true

theorem agrees_empty : Agrees [] (none : World ε μ) := by
  refine ⟨?_, ?_, fun h hg => nomatch hg⟩
  · simp [Present, latest]
  · simp [Stopped, latest]

theorem initHandle_halted {eng : Engine ε μ} {c : Option Config} {h h' : Handle ε μ}
    (e : initHandle eng c h = .ok h') : h'.halted = h.halted ∧ h'.mem = h.mem ∧ h'.core.isSome = true := by
  unfold initHandle at e
  cases hc : h.core with
  | some x => rw [hc] at e; cases e
  | none =>
    rw [hc] at e
    dsimp only at e
    split at e
    · cases e
    · injection e with e; subst e; exact ⟨rfl, rfl, rfl⟩

theorem ready_halted {eng : Engine ε μ} {h : Handle ε μ} {p : Handle ε μ × ε}
    (e : ready eng h = .ok p) : p.1.halted = h.halted ∧ p.1.mem = h.mem ∧ p.1.core = some p.2 := by
  unfold ready at e
  cases hc : h.core with
  | some x => rw [hc] at e; injection e with e; subst e; exact ⟨rfl, rfl, hc⟩
  | none =>
    rw [hc] at e
    dsimp only at e
    cases hi : initHandle eng none h with
    | ub => rw [hi] at e; cases e
    | abort => rw [hi] at e; cases e
    | ok h' =>
      rw [hi] at e
      simp only [Outcome.ok_bind] at e
      obtain ⟨h1, h2, h3⟩ := initHandle_halted hi
      cases hc' : h'.core with
      | none => rw [hc'] at h3; cases h3
      | some x => rw [hc'] at e; injection e with e; subst e; exact ⟨h1, h2, hc'⟩

/-- Steps of the invariant. -/
theorem agrees_other {es : List Ev} {g g' : World ε μ} (hi : Agrees es g) (h1 : g'.isSome = g.isSome)
    (h2 : ∀ h, g = some h → ∃ h', g' = some h' ∧ h'.halted = h.halted ∧ (h.core.isSome = true → h'.core.isSome = true)) :
    Agrees (es ++ [.other]) g' := by
  refine ⟨?_, ?_, ?_⟩
  · have := hi.present
    unfold Present at *
    rw [latest_append, if_neg (by decide), this, h1]
  · have := hi.stopped
    unfold Stopped at *
    rw [latest_append, if_neg (by decide), this]
    constructor
    · rintro ⟨h, hg, hh⟩
      obtain ⟨h', e1, e2, -⟩ := h2 h hg
      exact ⟨h', e1, by rw [e2, hh]⟩
    · rintro ⟨h', hg', hh'⟩
      cases hg : g with
      | none => rw [hg, hg'] at h1; cases h1
      | some h =>
        obtain ⟨h'', e1, e2, -⟩ := h2 h hg
        rw [hg'] at e1; injection e1 with e1; subst e1
        exact ⟨h, rfl, by rw [← e2, hh']⟩
  · intro h' hg' hh'
    cases hg : g with
    | none => rw [hg, hg'] at h1; cases h1
    | some h =>
      obtain ⟨h'', e1, e2, e3⟩ := h2 h hg
      rw [hg'] at e1; injection e1 with e1; subst e1
      exact e3 (hi.core h hg (by rw [← e2, hh']))

theorem agrees_same {es : List Ev} {g : World ε μ} (hi : Agrees es g) : Agrees (es ++ [.other]) g :=
  agrees_other hi rfl fun h hg => ⟨h, hg, rfl, id⟩

theorem agrees_new {es : List Ev} (e : Ev) (he : e = .made ∨ e = .renewed) (h : Handle ε μ) (hh : h.halted = false) :
    Agrees (es ++ [e]) (some h) := by
  refine ⟨?_, ?_, ?_⟩
  · unfold Present
    rw [latest_append]
    rcases he with rfl | rfl <;> simp
  · unfold Stopped
    rw [latest_append]
    rcases he with rfl | rfl <;> simp [hh]
  · intro h' e1 e2
    injection e1 with e1; subst e1
    rw [hh] at e2; cases e2

theorem agrees_ended {es : List Ev} : Agrees (es ++ [.ended]) (none : World ε μ) := by
  refine ⟨?_, ?_, fun h hg => nomatch hg⟩
  · unfold Present; rw [latest_append]; simp
  · unfold Stopped; rw [latest_append]; simp

theorem agrees_paused {es : List Ev} {g : World ε μ} (hi : Agrees es g) (hg : g.isSome = true) (h : Handle ε μ)
    (hh : h.halted = true) (hc : h.core.isSome = true) : Agrees (es ++ [.paused]) (some h) := by
  refine ⟨?_, ?_, ?_⟩
  · have := hi.present
    unfold Present at *
    rw [latest_append, if_neg (by decide), this, hg]
    simp
  · unfold Stopped
    rw [latest_append]
    simp [hh]
  · intro h' e1 _
    injection e1 with e1; subst e1
    exact hc

/-- A bind whose result is known. -/
theorem bind_ok {α β : Type} {x : Outcome α} {f : α → Outcome β} {b : β} (h : (x >>= f) = .ok b) :
    ∃ a, x = .ok a ∧ f a = .ok b := by
  cases x with
  | ok a => exact ⟨a, rfl, h⟩
  | ub => cases h
  | abort => cases h

theorem call_agrees {eng : Engine ε μ} {c : Call} {g g' : World ε μ} {r : Reply} {es : List Ev} (hi : Agrees es g)
    (h : call eng c g = .ok (r, g')) : Agrees (es ++ [event (c, r)]) g' := by
  have keep : ∀ (h h' : Handle ε μ) (e : ε), g = some h → ready eng h = .ok (h', e) → ∀ e' : ε,
      Agrees (es ++ [.other]) (some { h' with core := some e' } : World ε μ) := by
    intro h h' e hg hr e'
    obtain ⟨h1, -, -⟩ := ready_halted hr
    refine agrees_other hi (by rw [hg]; rfl) fun x hx => ?_
    rw [hg] at hx; injection hx with hx; subst hx
    exact ⟨_, rfl, h1, fun _ => rfl⟩
  have keep' : ∀ (h h' : Handle ε μ) (e : ε), g = some h → ready eng h = .ok (h', e) →
      Agrees (es ++ [.other]) (some h' : World ε μ) := by
    intro h h' e hg hr
    have := keep h h' e hg hr e
    obtain ⟨-, -, h3⟩ := ready_halted hr
    rwa [← h3] at this
  cases c with
  | init =>
    unfold call init at h
    cases g with
    | none => obtain ⟨rfl, rfl⟩ := ok_pair h; exact agrees_new .made (Or.inl rfl) _ rfl
    | some x => obtain ⟨rfl, rfl⟩ := ok_pair h; exact agrees_same hi
  | config c =>
    unfold call config at h
    cases g with
    | none => obtain ⟨rfl, rfl⟩ := ok_pair h; exact agrees_same hi
    | some x =>
      cases c with
      | none => obtain ⟨rfl, rfl⟩ := ok_pair h; exact agrees_same hi
      | some c =>
        obtain ⟨x', h1, h2⟩ := bind_ok h
        obtain ⟨rfl, rfl⟩ := ok_pair h2
        obtain ⟨e1, -, e3⟩ := initHandle_halted h1
        refine agrees_other hi rfl fun y hy => ?_
        injection hy with hy; subst hy
        exact ⟨_, rfl, e1, fun _ => e3⟩
  | loadProgram f =>
    unfold call loadProgram at h
    cases f with
    | none => obtain ⟨rfl, rfl⟩ := ok_pair h; exact agrees_same hi
    | some f =>
      cases g with
      | none => cases h
      | some x =>
        obtain ⟨rfl, rfl⟩ := ok_pair h
        refine agrees_other hi rfl fun y hy => ?_
        injection hy with hy; subst hy
        exact ⟨_, rfl, rfl, id⟩
  | reset =>
    unfold call reset init fini at h
    cases g with
    | none => obtain ⟨rfl, rfl⟩ := ok_pair h; exact agrees_new .renewed (Or.inr rfl) _ rfl
    | some x => obtain ⟨rfl, rfl⟩ := ok_pair h; exact agrees_new .renewed (Or.inr rfl) _ rfl
  | fini =>
    unfold call fini at h
    cases g with
    | none => obtain ⟨rfl, rfl⟩ := ok_pair h; exact agrees_same hi
    | some x => obtain ⟨rfl, rfl⟩ := ok_pair h; exact agrees_ended
  | isHalted =>
    unfold call isHalted at h
    cases g with
    | none => obtain ⟨rfl, rfl⟩ := ok_pair h; exact agrees_same hi
    | some x =>
      obtain ⟨p, h1, h2⟩ := bind_ok h
      obtain ⟨rfl, rfl⟩ := ok_pair h2
      exact keep' x p.1 p.2 rfl h1
  | getVector n nl =>
    unfold call getVector at h
    cases nl with
    | true => obtain ⟨rfl, rfl⟩ := ok_pair h; exact agrees_same hi
    | false =>
      cases n with
      | none => obtain ⟨rfl, rfl⟩ := ok_pair h; exact agrees_same hi
      | some n =>
        cases g with
        | none => obtain ⟨rfl, rfl⟩ := ok_pair h; exact agrees_same hi
        | some x =>
          obtain ⟨p, h1, h2⟩ := bind_ok h
          dsimp only at h2
          split at h2 <;> obtain ⟨rfl, rfl⟩ := ok_pair h2 <;> exact keep' x p.1 p.2 rfl h1
  | getRegister n nl =>
    unfold call getRegister at h
    cases nl with
    | true => obtain ⟨rfl, rfl⟩ := ok_pair h; exact agrees_same hi
    | false =>
      cases n with
      | none => obtain ⟨rfl, rfl⟩ := ok_pair h; exact agrees_same hi
      | some n =>
        cases g with
        | none => obtain ⟨rfl, rfl⟩ := ok_pair h; exact agrees_same hi
        | some x =>
          obtain ⟨p, h1, h2⟩ := bind_ok h
          dsimp only at h2
          split at h2 <;> obtain ⟨rfl, rfl⟩ := ok_pair h2 <;> exact keep' x p.1 p.2 rfl h1
  | setRegister n v =>
    unfold call setRegister at h
    cases n with
    | none => obtain ⟨rfl, rfl⟩ := ok_pair h; exact agrees_same hi
    | some n =>
      cases g with
      | none => obtain ⟨rfl, rfl⟩ := ok_pair h; exact agrees_same hi
      | some x =>
        obtain ⟨p, h1, h2⟩ := bind_ok h
        dsimp only at h2
        split at h2 <;> obtain ⟨rfl, rfl⟩ := ok_pair h2 <;> exact keep x p.1 p.2 rfl h1 _
  | step i =>
    unfold call step at h
    cases g with
    | none => obtain ⟨rfl, rfl⟩ := ok_pair h; exact agrees_same hi
    | some x =>
      obtain ⟨p, h1, h2⟩ := bind_ok h
      dsimp only at h2
      obtain ⟨e1, -, e3⟩ := ready_halted h1
      cases hp : p.1.halted with
      | true =>
        rw [if_pos hp] at h2
        obtain ⟨rfl, rfl⟩ := ok_pair h2
        exact keep' x p.1 p.2 rfl h1
      | false =>
        rw [if_neg (by rw [hp]; exact Bool.false_ne_true)] at h2
        cases i with
        | none => cases h2
        | some w =>
          dsimp only at h2
          split at h2
          · cases h2
          · split at h2
            · obtain ⟨rfl, rfl⟩ := ok_pair h2
              refine agrees_other hi rfl fun y hy => ?_
              injection hy with hy; subst hy
              exact ⟨_, rfl, e1, fun _ => rfl⟩
            · rename_i _ e' m' _
              obtain ⟨rfl, rfl⟩ := ok_pair h2
              show Agrees (es ++ [if (eng.step1 (e', m')).2.1 = true then Ev.paused else Ev.other])
                (some ⟨(eng.step1 (e', m')).2.2.2, some (eng.step1 (e', m')).2.2.1,
                  p.1.halted || (eng.step1 (e', m')).2.1⟩)
              cases hq : (eng.step1 (e', m')).2.1 with
              | true => exact agrees_paused hi rfl _ (by simp) rfl
              | false =>
                refine agrees_other hi rfl fun y hy => ?_
                injection hy with hy; subst hy
                exact ⟨_, rfl, by simp [e1], fun _ => rfl⟩

theorem calls_agrees (eng : Engine ε μ) (cs : List Call) : ∀ (es : List Ev) (g g' : World ε μ) (tr : List (Call × Reply)),
    Agrees es g → calls eng cs g = .ok (tr, g') → Agrees (es ++ events tr) g' := by
  induction cs with
  | nil =>
    intro es g g' tr hi h
    obtain ⟨rfl, rfl⟩ := ok_pair h
    simpa [events] using hi
  | cons c cs ih =>
    intro es g g' tr hi h
    obtain ⟨r, h1, h2⟩ := bind_ok h
    obtain ⟨r', h3, h4⟩ := bind_ok h2
    obtain ⟨rfl, rfl⟩ := ok_pair h4
    have := ih _ _ _ _ (call_agrees hi h1) h3
    simpa [events] using this

end Verif.Proofs.Cosim
