import Verif.Model.Teardown
import Verif.Proofs.Threads

/-!
# Lemmas on the destruction of the core
-/

namespace Verif.Proofs.Threads

open Verif.Model.Top Verif.Model.Threads
open Verif.Proofs.Top (foldl_requestHalt setAt_self setAt_ne)

variable {σ : Type}

structure LInv (x : Life σ) : Prop where
  inv : Inv x.w
  disc : Disc x.w
  ending : x.phase = .ending → x.w.user = .waiting
  gone : x.phase = .gone → ∀ i < x.w.n, (x.w.thr i).lbl = .done

theorem act_thr (env : Env σ) (i : Nat) (w : World σ) : act env (.thr i) w = thrAct env i w := by
  unfold act; rfl

theorem act_cont {env : Env σ} {w : World σ} (h : w.user = .waiting) : act env .cont w = waitAct w := by
  unfold act; rw [h]

theorem act_wait {env : Env σ} {w : World σ} (h : w.user = .idle) (hr : w.core.status = .running) :
    act env .wait w = .ok { w with user := .waiting } := by
  unfold act; rw [h]; simp [hr]

theorem all_done {w : World σ} (hd : Disc w) (h : 0 < w.n → (w.thr (w.n - 1)).lbl = .done) :
    ∀ i < w.n, (w.thr i).lbl = .done := by
  intro i hi
  by_cases hx : i + 1 < w.n
  · exact hd.old i hx
  · rw [show i = w.n - 1 by omega]; exact h (by omega)

theorem thrAct_user (env : Env σ) {i : Nat} {w w' : World σ} (e : thrAct env i w = .ok w') :
    w'.user = w.user ∧ w'.n = w.n ∧ w'.ptr = w.ptr := by
  unfold thrAct at e
  split at e
  · injection e with e; subst e; exact ⟨rfl, rfl, rfl⟩
  · split at e
    · split at e
      · cases e
      · split at e
        · cases e
        · split at e
          · cases e
          · injection e with e; subst e; exact ⟨rfl, rfl, rfl⟩
    · cases ht : thrStep env (w.thr i) w.core with
      | ub => rw [ht] at e; cases e
      | abort => rw [ht] at e; cases e
      | ok r => rw [ht, Outcome.ok_bind] at e; injection e with e; subst e; exact ⟨rfl, rfl, rfl⟩

/-- Past its test, `Wait` goes on waiting or returns when the last thread has ended. -/
theorem waitAct_cases {w : World σ} (hd : Disc w) (hu : w.user = .waiting) :
    waitAct w = .ok w ∨ ∃ w', waitAct w = .ok w' ∧ w'.user = .idle ∧ w'.n = w.n ∧ w'.thr = w.thr ∧
      ∀ i < w.n, (w.thr i).lbl = .done := by
  obtain ⟨p, f1, f2, f3, f4, f5⟩ := hd.wait hu
  unfold waitAct
  simp only [f1, f3, Bool.false_eq_true, if_false]
  cases hn : w.notified p with
  | false => exact .inl rfl
  | true => exact .inr ⟨_, rfl, rfl, rfl, rfl, all_done hd fun _ => f5 hn⟩

theorem lact_inv (env : Env σ) {x : Life σ} (h : LInv x) {a : LAct}
    (hd : x.phase = .alive → x.w.user = .idle → LDisciplined x a) : ∃ y, lact env a x = .ok y ∧ LInv y := by
  unfold lact
  obtain ⟨w, ph⟩ := x
  cases ph with
  | alive =>
    cases a with
    | api a =>
      obtain ⟨w', e, hd'⟩ := act_disc env h.inv h.disc (hd rfl)
      dsimp only at e ⊢
      rw [e]
      exact ⟨_, rfl, act_inv env h.inv e, hd', (fun x => nomatch x), (fun x => nomatch x)⟩
    | destroy =>
      dsimp only
      by_cases hu : w.user = .idle
      · rw [if_pos hu]
        by_cases hr : w.core.status = .running
        · rw [if_pos hr]
          obtain ⟨w', e, hd'⟩ := act_disc env h.inv h.disc (a := .wait) (fun _ => trivial)
          have e' := act_wait (env := env) hu hr
          rw [e'] at e
          injection e with e
          subst e
          exact ⟨_, rfl, act_inv env h.inv e', hd', fun _ => rfl, (fun x => nomatch x)⟩
        · rw [if_neg hr]
          exact ⟨_, rfl, h.inv, h.disc, (fun x => nomatch x), fun _ => (hd rfl hu).resolve_left hr⟩
      · rw [if_neg hu]; exact ⟨_, rfl, h⟩
  | ending =>
    have hu : w.user = .waiting := h.ending rfl
    have skip : ∃ y : Life σ, Outcome.ok (⟨w, .ending⟩ : Life σ) = .ok y ∧ LInv y := ⟨_, rfl, h⟩
    cases a with
    | destroy => exact skip
    | api a =>
      cases a with
      | thr i =>
        obtain ⟨w', e, hd'⟩ := act_disc env h.inv h.disc (a := .thr i) (fun _ => trivial)
        have hi := act_inv env h.inv e
        rw [act_thr] at e
        dsimp only at e ⊢
        rw [e]
        exact ⟨_, rfl, hi, hd', fun _ => (thrAct_user env e).1.trans hu, (fun x => nomatch x)⟩
      | cont =>
        obtain ⟨w', e, hd'⟩ := act_disc env h.inv h.disc (a := .cont) (fun _ => trivial)
        have hi := act_inv env h.inv e
        rw [act_cont hu] at e
        dsimp only at e ⊢
        rw [e]
        refine ⟨_, rfl, hi, hd', ?_, ?_⟩
        · intro hp
          rcases waitAct_cases h.disc hu with hw | ⟨w2, hw, h1, -⟩
          · rw [e] at hw; injection hw with hw; rw [hw]; exact hu
          · rw [e] at hw; injection hw with hw; subst hw; simp [h1] at hp
        · intro hp
          rcases waitAct_cases h.disc hu with hw | ⟨w2, hw, h1, h2, h3, h4⟩
          · rw [e] at hw; injection hw with hw; subst hw; simp [hu] at hp
          · rw [e] at hw; injection hw with hw; subst hw
            dsimp only
            rw [h2, h3]; exact h4
      | _ => exact skip
  | gone =>
    have skip : ∃ y : Life σ, Outcome.ok (⟨w, .gone⟩ : Life σ) = .ok y ∧ LInv y := ⟨_, rfl, h⟩
    cases a with
    | destroy => exact skip
    | api a =>
      cases a with
      | thr i =>
        dsimp only
        rw [if_neg (fun hx => hx.2 (h.gone rfl i hx.1))]
        exact skip
      | _ => exact skip

theorem lacts_inv (env : Env σ) : ∀ (l : List LAct) {x : Life σ}, LInv x → LDisciplinedAll env l x →
    ∃ y, lacts env l x = .ok y ∧ LInv y
  | [], x, h, _ => ⟨x, rfl, h⟩
  | a :: l, x, h, hl => by
    obtain ⟨x1, e, h1⟩ := lact_inv env h hl.1
    obtain ⟨x2, e2, r⟩ := lacts_inv env l h1 (hl.2 x1 e)
    refine ⟨x2, ?_, r⟩
    unfold lacts
    rw [e, Outcome.ok_bind, e2]

theorem linv_new (m : Spec.Program.Machine σ) : LInv (newLife (fresh m)) :=
  ⟨inv_initial rfl (by simp [fresh]) (fun h => by cases h), disc_initial _, (fun h => nomatch h), (fun h => nomatch h)⟩

/-! ## The destructor returns once the core has been told to halt -/

/-- In the destructor, with the halt flag up: the last thread has notified, or it has few steps left. -/
structure Closing (k : Nat) (x : Life σ) : Prop where
  inv : LInv x
  hal : x.phase = .ending → x.w.core.status = .running → x.w.core.halted = true
  rank : x.phase = .ending → rank (x.w.thr (x.w.n - 1)).lbl ≤ k
  note : x.phase = .ending → (x.w.thr (x.w.n - 1)).lbl = .done → ∃ p, x.w.ptr = some p ∧ x.w.notified p = true
  ph : x.phase ≠ .alive

theorem lact_phase {env : Env σ} {a : LAct} {x y : Life σ} (e : lact env a x = .ok y) (h : x.phase ≠ .alive) :
    y.phase ≠ .alive ∧ (x.phase = .gone → y = x) := by
  obtain ⟨w, ph⟩ := x
  unfold lact at e
  cases ph with
  | alive => exact absurd rfl h
  | ending =>
    refine ⟨?_, (fun h => nomatch h)⟩
    cases a with
    | destroy => injection e with e; subst e; simp
    | api a =>
      cases a with
      | thr i =>
        dsimp only at e
        cases ht : thrAct env i w with
        | ok w' => rw [ht] at e; injection e with e; subst e; simp
        | ub => rw [ht] at e; cases e
        | abort => rw [ht] at e; cases e
      | cont =>
        dsimp only at e
        cases ht : waitAct w with
        | ok w' => rw [ht] at e; injection e with e; subst e; dsimp only; split <;> simp
        | ub => rw [ht] at e; cases e
        | abort => rw [ht] at e; cases e
      | _ => injection e with e; subst e; simp
  | gone =>
    have hk : y = ⟨w, .gone⟩ := by
      cases a with
      | destroy => injection e with e; exact e.symm
      | api a =>
        cases a with
        | thr i =>
          dsimp only at e
          split at e
          · cases e
          · injection e with e; exact e.symm
        | _ => injection e with e; exact e.symm
    subst hk
    exact ⟨by simp, fun _ => rfl⟩

theorem closing_step (env : Env σ) {k : Nat} {x y : Life σ} (h : Closing k x) {a : LAct} (e : lact env a x = .ok y) :
    Closing (k - if a = .api (.thr (x.w.n - 1)) then 1 else 0) y ∧ y.w.n = x.w.n := by
  have hy : LInv y := by
    obtain ⟨y', e', hi⟩ := lact_inv env h.inv (a := a) (fun hp => absurd hp h.ph)
    rw [e] at e'; injection e' with e'; rw [e']; exact hi
  have hph := lact_phase e h.ph
  by_cases hg : x.phase = .gone
  · rw [hph.2 hg]
    have no : x.phase ≠ .ending := by rw [hg]; simp
    exact ⟨⟨h.inv, fun hx => absurd hx no, fun hx => absurd hx no, fun hx => absurd hx no, h.ph⟩, rfl⟩
  have he : x.phase = .ending := by
    have := h.ph
    cases hp : x.phase <;> simp_all
  have hu := h.inv.ending he
  obtain ⟨w, ph⟩ := x
  dsimp only at he hu ⊢
  subst he
  have same : ∀ (b : LAct), b ≠ .api (.thr (w.n - 1)) → y = ⟨w, .ending⟩ →
      Closing (k - if b = .api (.thr (w.n - 1)) then 1 else 0) y ∧ y.w.n = w.n := by
    intro b hb hyx
    rw [if_neg hb, hyx]
    exact ⟨h, rfl⟩
  unfold lact at e
  cases a with
  | destroy => injection e with e; exact same _ (by simp) e.symm
  | api a =>
    cases a with
    | thr i =>
      dsimp only at e
      cases ht : thrAct env i w with
      | ub => rw [ht] at e; cases e
      | abort => rw [ht] at e; cases e
      | ok w' =>
        rw [ht] at e; injection e with e
        have hn := thrAct_user env ht
        by_cases hi : i = w.n - 1
        · by_cases h0 : w.n ≤ i
          · -- no thread at all: impossible, the destructor waits for one
            obtain ⟨p, -, -, -, f4, -⟩ := h.inv.disc.wait hu
            dsimp only at f4
            omega
          subst hi
          rw [if_pos rfl]
          subst e
          refine ⟨⟨hy, ?_, ?_, ?_, by simp⟩, hn.2.1⟩
          all_goals
            unfold thrAct at ht
            rw [if_neg h0] at ht
            have hr0 := h.rank rfl
            have hn0 := h.note rfl
            have hh0 := h.hal rfl
            dsimp only at hr0 hn0 hh0
            split at ht
            · next hl =>
              split at ht
              · cases ht
              · next p hp =>
                split at ht
                · cases ht
                · split at ht
                  · cases ht
                  · injection ht with ht; subst ht
                    dsimp only
                    first
                      | exact fun _ => hh0
                      | (intro _ _; exact ⟨p, hp, setAt_self _ _ _⟩)
                      | (intro _; rw [setAt_self]; simp [rank])
            · next hl =>
              by_cases hdn : (w.thr (w.n - 1)).lbl = .done
              · have es : thrStep env (w.thr (w.n - 1)) w.core = .ok (w.thr (w.n - 1), w.core) := by unfold thrStep; rw [hdn]
                rw [es, Outcome.ok_bind, Proofs.Top.setAt_eq _ _ _ rfl] at ht
                injection ht with ht; subst ht
                dsimp only
                first
                  | exact fun _ => hh0
                  | exact fun _ => hn0
                  | (intro _; rw [hdn]; simp [rank])
              · have ha : active (w.thr (w.n - 1)) := ⟨hl, hdn⟩
                have hr := (h.inv.inv.thr (w.n - 1) (by dsimp only; omega) ha).2
                dsimp only at hr
                cases ets : thrStep env (w.thr (w.n - 1)) w.core with
                | ub => rw [ets] at ht; cases ht
                | abort => rw [ets] at ht; cases ht
                | ok r =>
                  have hk := thrStep_rank env (hh0 hr) h.inv.inv.ap ha ets
                  rw [ets, Outcome.ok_bind] at ht
                  injection ht with ht; subst ht
                  dsimp only
                  first
                    | exact fun _ _ => hk.1
                    | (intro _; rw [setAt_self]; omega)
                    | (intro _; rw [setAt_self]; intro hx
                       rcases hk.2.2.2 with ⟨h1, -⟩ | ⟨-, h1⟩
                       · rw [hx] at h1; cases h1
                       · exact absurd hx h1.2)
        · have hw : w' = w := by
            unfold thrAct at ht
            split at ht
            · injection ht with ht; exact ht.symm
            · have hdn : (w.thr i).lbl = .done := h.inv.disc.old i (by dsimp only; omega)
              rw [hdn] at ht
              have es : thrStep env (w.thr i) w.core = .ok (w.thr i, w.core) := by unfold thrStep; rw [hdn]
              rw [if_neg (by simp), es, Outcome.ok_bind, Proofs.Top.setAt_eq _ _ _ rfl] at ht
              injection ht with ht; exact ht.symm
          refine same _ (by simpa using hi) ?_
          rw [← e, hw]
    | cont =>
      dsimp only at e
      rcases waitAct_cases h.inv.disc hu with hw | ⟨w2, hw, h1, h2, -⟩
      · dsimp only at hw
        rw [hw] at e; injection e with e
        rw [if_neg (by rw [hu]; simp)] at e
        exact same _ (by simp) e.symm
      · dsimp only at hw
        rw [hw] at e; injection e with e
        rw [if_pos h1] at e
        subst e
        exact ⟨⟨hy, (fun h => nomatch h), (fun h => nomatch h), (fun h => nomatch h), (fun h => nomatch h)⟩, h2⟩
    | _ => injection e with e; exact same _ (by simp) e.symm

theorem closing_acts (env : Env σ) : ∀ (l : List LAct) {k : Nat} {x y : Life σ}, Closing k x → lacts env l x = .ok y →
    Closing (k - l.count (.api (.thr (x.w.n - 1)))) y ∧ y.w.n = x.w.n
  | [], k, x, y, h, e => by injection e with e; subst e; exact ⟨h, rfl⟩
  | a :: l, k, x, y, h, e => by
    unfold lacts at e
    cases ha : lact env a x with
    | ub => rw [ha] at e; cases e
    | abort => rw [ha] at e; cases e
    | ok x1 =>
      rw [ha, Outcome.ok_bind] at e
      obtain ⟨c1, n1⟩ := closing_step env h ha
      obtain ⟨c2, n2⟩ := closing_acts env l c1 e
      rw [n1] at c2 n2
      refine ⟨?_, n2⟩
      rw [List.count_cons]
      have : k - (List.count (.api (.thr (x.w.n - 1))) l + if (a == .api (.thr (x.w.n - 1))) = true then 1 else 0) =
          k - (if a = .api (.thr (x.w.n - 1)) then 1 else 0) - List.count (.api (.thr (x.w.n - 1))) l := by
        simp only [beq_iff_eq]; omega
      rw [this]; exact c2

/-- When the last thread has ended, the wait in the destructor ends. -/
theorem closing_zero (env : Env σ) {x : Life σ} (h : Closing 0 x) : ∃ y, lact env (.api .cont) x = .ok y ∧ y.phase = .gone := by
  by_cases hg : x.phase = .gone
  · refine ⟨x, ?_, hg⟩
    unfold lact; rw [hg]
  · have he : x.phase = .ending := by
      have := h.ph
      cases hp : x.phase <;> simp_all
    have hu := h.inv.ending he
    have hr := h.rank he
    have hdn : (x.w.thr (x.w.n - 1)).lbl = .done := by
      cases hl : (x.w.thr (x.w.n - 1)).lbl <;> rw [hl] at hr <;> simp [rank] at hr ⊢
    obtain ⟨p, hp, hn⟩ := h.note he hdn
    obtain ⟨q, f1, -, f3, -⟩ := h.inv.disc.wait hu
    rw [hp] at f1; injection f1 with f1; subst f1
    unfold lact
    rw [he]
    dsimp only
    unfold waitAct
    simp only [hp, f3, hn, Bool.false_eq_true, if_false, if_true, Outcome.ok_bind]
    exact ⟨_, rfl, rfl⟩


/-! ## A program that does not stop -/

/-- A program without stores, events and `ebreak`. -/
def Calm (env : Env σ) (m0 : Spec.Program.Machine σ) : Prop :=
  (∀ w a m, (env.sem w a m).2 = [] ∧ (env.sem w a m).1.mem = m.mem) ∧ ∀ a, Spec.Program.word m0.mem a ≠ kEBreak32

/-- Its run goes on. -/
structure CoreSpins (m0 : Spec.Program.Machine σ) (s : St σ) : Prop where
  halted : s.halted = false
  status : s.status = .running
  mem : s.m.mem = m0.mem
  cache : ∀ a v, s.cache a = some v → v = Spec.Program.word m0.mem a

structure Spins (m0 : Spec.Program.Machine σ) (x : Life σ) : Prop where
  core : CoreSpins m0 x.w.core
  n : x.w.n = 1
  lbl : (x.w.thr 0).lbl = .start ∨ (x.w.thr 0).lbl = .top ∨ (x.w.thr 0).lbl = .body ∨ (x.w.thr 0).lbl = .after
  ptr : x.w.ptr = some 0 ∧ x.w.notified 0 = false ∧ x.w.deleted 0 = false
  ph : (x.phase = .alive ∧ x.w.user = .idle) ∨ (x.phase = .ending ∧ x.w.user = .waiting)

theorem fetchExec_spins {env : Env σ} {m0 : Spec.Program.Machine σ} (hc : Calm env m0) (pc : Nat) {s : St σ}
    (h : CoreSpins m0 s) : CoreSpins m0 (fetchExec env pc s) := by
  have h1 : (getInst env pc s).1 = Spec.Program.word m0.mem pc ∧ CoreSpins m0 (getInst env pc s).2 := by
    unfold getInst
    cases hk : s.cache pc with
    | some v => exact ⟨h.cache pc v hk, h⟩
    | none =>
      refine ⟨by dsimp only; rw [h.mem], h.halted, h.status, h.mem, ?_⟩
      intro a v hv
      dsimp only at hv
      split at hv
      · next ha => injection hv with hv; rw [← hv, ha, h.mem]
      · split at hv
        · exact h.cache a v hv
        · cases hv
  unfold fetchExec
  dsimp only
  rw [h1.1]
  unfold execInst
  rw [if_neg (hc.2 pc)]
  dsimp only
  rw [(hc.1 _ _ _).1]
  exact ⟨h1.2.halted, h1.2.status, ((hc.1 _ _ _).2).trans h1.2.mem, h1.2.cache⟩

theorem lact_spins {env : Env σ} {m0 : Spec.Program.Machine σ} (hc : Calm env m0) {x y : Life σ} (h : Spins m0 x) {a : LAct}
    (ha : a = .destroy ∨ a = .api .cont ∨ ∃ i, a = .api (.thr i)) (e : lact env a x = .ok y) : Spins m0 y := by
  have key : ∀ i w', thrAct env i x.w = .ok w' → Spins m0 { x with w := w' } := by
    intro i w' ht
    have hu := thrAct_user env ht
    unfold thrAct at ht
    rw [h.n] at ht
    split at ht
    · injection ht with ht; subst ht; exact h
    · next hi =>
      have hi0 : i = 0 := by omega
      subst hi0
      have mk : ∀ (t : Thr) (s : St σ), CoreSpins m0 s →
          (t.lbl = .start ∨ t.lbl = .top ∨ t.lbl = .body ∨ t.lbl = .after) →
          Spins m0 ({ x with w := { x.w with core := s, n := 1, thr := setAt x.w.thr 0 t } } : Life σ) := by
        intro t s h1 h2
        refine ⟨h1, rfl, ?_, h.ptr, h.ph⟩
        dsimp only
        rw [setAt_self]; exact h2
      rcases h.lbl with hl | hl | hl | hl
      all_goals
        rw [hl] at ht
        rw [if_neg (by simp)] at ht
        unfold thrStep at ht
        rw [hl] at ht
      · injection ht with ht; subst ht
        refine mk _ _ h.core ?_
        exact .inr (.inl rfl)
      · simp only [h.core.halted, Bool.false_eq_true, if_false, Outcome.ok_bind] at ht
        injection ht with ht; subst ht
        refine mk _ _ h.core ?_
        exact .inr (.inr (.inl rfl))
      · injection ht with ht; subst ht
        refine mk _ _ (fetchExec_spins hc _ h.core) ?_
        exact .inr (.inr (.inr rfl))
      · simp only [h.core.halted, Bool.false_eq_true, if_false, Outcome.ok_bind] at ht
        injection ht with ht; subst ht
        refine mk _ _ h.core ?_
        exact .inr (.inl rfl)
  unfold lact at e
  rcases h.ph with ⟨hp, hu⟩ | ⟨hp, hu⟩
  · rw [hp] at e
    rcases ha with rfl | rfl | ⟨i, rfl⟩
    · dsimp only at e
      rw [if_pos hu, if_pos h.core.status] at e
      injection e with e; subst e
      exact ⟨h.core, h.n, h.lbl, h.ptr, .inr ⟨rfl, rfl⟩⟩
    · dsimp only [act] at e
      rw [hu] at e
      injection e with e; subst e
      exact ⟨h.core, h.n, h.lbl, h.ptr, .inl ⟨rfl, hu⟩⟩
    · dsimp only [act] at e
      cases ht : thrAct env i x.w with
      | ub => rw [ht] at e; cases e
      | abort => rw [ht] at e; cases e
      | ok w' => rw [ht] at e; injection e with e; subst e; exact hp ▸ key i w' ht
  · rw [hp] at e
    rcases ha with rfl | rfl | ⟨i, rfl⟩
    · injection e with e; subst e; exact h
    · dsimp only at e
      unfold waitAct at e
      simp only [h.ptr.1, h.ptr.2.1, h.ptr.2.2, Bool.false_eq_true, if_false, Outcome.ok_bind, hu, reduceCtorEq] at e
      injection e with e; subst e
      exact ⟨h.core, h.n, h.lbl, h.ptr, .inr ⟨rfl, hu⟩⟩
    · dsimp only at e
      cases ht : thrAct env i x.w with
      | ub => rw [ht] at e; cases e
      | abort => rw [ht] at e; cases e
      | ok w' => rw [ht] at e; injection e with e; subst e; exact hp ▸ key i w' ht

theorem lacts_spins {env : Env σ} {m0 : Spec.Program.Machine σ} (hc : Calm env m0) : ∀ (l : List LAct) {x y : Life σ},
    Spins m0 x → (∀ a ∈ l, a = .destroy ∨ a = .api .cont ∨ ∃ i, a = .api (.thr i)) → lacts env l x = .ok y → Spins m0 y
  | [], x, y, h, _, e => by injection e with e; subst e; exact h
  | a :: l, x, y, h, hl, e => by
    unfold lacts at e
    cases ha : lact env a x with
    | ub => rw [ha] at e; cases e
    | abort => rw [ha] at e; cases e
    | ok x1 =>
      rw [ha, Outcome.ok_bind] at e
      exact lacts_spins hc l (lact_spins hc h (hl a (by simp)) ha) (fun b hb => hl b (by simp [hb])) e

theorem spins_run (env : Env σ) (m0 : Spec.Program.Machine σ) :
    ∃ x, lact env (.api .run) (newLife (fresh m0)) = .ok x ∧ Spins m0 x := by
  refine ⟨_, rfl, ⟨rfl, rfl, rfl, ?_⟩, rfl, .inl rfl, ⟨rfl, rfl, rfl⟩, .inl ⟨rfl, rfl⟩⟩
  intro a v hv
  cases hv

end Verif.Proofs.Threads
