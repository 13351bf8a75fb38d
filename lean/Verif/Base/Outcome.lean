import Verif.Base.Attr

/-!
# Outcomes of C++ execution

`ok a`  : the code terminates normally with `a`;
`ub`    : the code executes undefined behaviour (signed overflow, bad shift, out-of-bounds access,
          read of an uninitialised object, null dereference);
`abort` : the process stops (failed `CHECK`, hardening assertion, uncaught exception).

Modelling device; not a definition of `/repo`.
-/

namespace Verif

inductive Outcome (α : Type u) where
  | ok (a : α)
  | ub
  | abort
deriving DecidableEq, Repr

namespace Outcome

protected def bind {α : Type u} {β : Type v} (x : Outcome α) (f : α → Outcome β) : Outcome β :=
  match x with
  | ok a => f a
  | ub => ub
  | abort => abort

instance : Monad Outcome where
  pure := ok
  bind := Outcome.bind

@[simp, cint] theorem ok_bind {α β : Type u} (a : α) (f : α → Outcome β) :
    ((ok a : Outcome α) >>= f) = f a := rfl
@[simp, cint] theorem ub_bind {α β : Type u} (f : α → Outcome β) :
    ((ub : Outcome α) >>= f) = ub := rfl
@[simp, cint] theorem abort_bind {α β : Type u} (f : α → Outcome β) :
    ((abort : Outcome α) >>= f) = abort := rfl
@[simp, cint] theorem pure_def {α : Type u} (a : α) : (pure a : Outcome α) = ok a := rfl

@[simp] theorem ok_map {α β : Type u} (f : α → β) (a : α) : f <$> (ok a : Outcome α) = ok (f a) := rfl

instance : LawfulMonad Outcome := LawfulMonad.mk'
  (id_map := by intro α x; cases x <;> rfl)
  (pure_bind := by intros; rfl)
  (bind_assoc := by intro α β γ x f g; cases x <;> rfl)

theorem bind_ok {α : Type u} (x : Outcome α) : (x >>= fun a => .ok a) = x := by cases x <;> rfl

/-- A `mapM` in which every call succeeds is a `map`. -/
theorem mapM_ok {α β : Type} (f : α → Outcome β) (g : α → β) :
    ∀ (l : List α), (∀ a ∈ l, f a = ok (g a)) → l.mapM f = ok (l.map g)
  | [], _ => by simp
  | a :: l, h => by
    have ih := mapM_ok f g l (fun x hx => h x (by simp [hx]))
    simp [h a (by simp), ih]

/-- If a `mapM` succeeds then every call does, and the results are those of the calls. -/
theorem mapM_eq_ok {α β : Type} (f : α → Outcome β) :
    ∀ (l : List α) (r : List β), l.mapM f = ok r →
      r.length = l.length ∧ ∀ i (h : i < l.length) (h' : i < r.length), f l[i] = ok r[i]
  | [], r, h => by simp at h; subst h; simp
  | a :: l, r, h => by
    rw [List.mapM_cons] at h
    cases ha : f a with
    | ub => rw [ha] at h; simp at h
    | abort => rw [ha] at h; simp at h
    | ok b =>
      rw [ha] at h
      cases hl : l.mapM f with
      | ub => rw [hl] at h; simp at h
      | abort => rw [hl] at h; simp at h
      | ok bs =>
        rw [hl] at h; simp at h; subst h
        obtain ⟨h1, h2⟩ := mapM_eq_ok f l bs hl
        refine ⟨by simp [h1], ?_⟩
        intro i hi hi'
        cases i with
        | zero => simpa using ha
        | succ i => simpa using h2 i (by simpa using hi) (by simpa using hi')

/-- Undefined behaviour, as a decidable test. -/
def isUb : Outcome α → Bool
  | ub => true
  | _ => false

theorem isUb_iff {o : Outcome α} : o.isUb = true ↔ o = ub := by cases o <;> simp [isUb]

end Outcome
end Verif
