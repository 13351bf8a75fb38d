import Verif.Proofs.Lanes

/-! # The framework theorem: what a vector instruction writes -/

namespace Verif.Proofs
open Verif Verif.Model CVal

/-- Destination register of iteration `op`, index `r`. -/
abbrev dreg (vd numOps op r : Nat) : Nat := vd + (op + r * numOps)

theorem submitAll_get (step : Nat) (hs : 0 < step) : ∀ (bs : List VReg) (rf : VRF) (first : Nat),
    (∀ i (h : i < bs.length), submitAll rf first step bs (first + i * step) = bs[i]) ∧
    (∀ q, (∀ i < bs.length, q ≠ first + i * step) → submitAll rf first step bs q = rf q)
  | [], rf, first => by simp [submitAll]
  | b :: bs, rf, first => by
    obtain ⟨h1, h2⟩ := submitAll_get step hs bs (fun q => if q = first then b else rf q) (first + step)
    constructor
    · intro i hi
      cases i with
      | zero =>
        simp only [submitAll, Nat.zero_mul, Nat.add_zero, List.getElem_cons_zero]
        rw [h2 first]
        · simp
        · intro i _; have : 0 ≤ i * step := Nat.zero_le _; omega
      | succ i =>
        have := h1 i (by simpa using hi)
        simp only [submitAll, List.getElem_cons_succ]
        rw [← this]; congr 1; ring
    · intro q hq
      simp only [submitAll]
      rw [h2 q]
      · have := hq 0 (by simp)
        simp only [Nat.zero_mul, Nat.add_zero] at this
        simp [this]
      · intro i hi
        have := hq (i + 1) (by simpa using hi)
        rw [Nat.add_mul, Nat.one_mul] at this
        omega

theorem mapM_exists {α β : Type} (f : α → Outcome β) (P : α → β → Prop) : ∀ (l : List α),
    (∀ a ∈ l, ∃ b, f a = .ok b ∧ P a b) →
    ∃ r : List β, l.mapM f = .ok r ∧ r.length = l.length ∧
      ∀ i (h : i < l.length) (h' : i < r.length), P l[i] r[i]
  | [], _ => ⟨[], by simp⟩
  | a :: l, h => by
    obtain ⟨b, hb, pb⟩ := h a (by simp)
    obtain ⟨r, hr, hl, hp⟩ := mapM_exists f P l (fun x hx => h x (by simp [hx]))
    refine ⟨b :: r, by simp [hb, hr], by simp [hl], ?_⟩
    intro i hi hi'
    cases i with
    | zero => simpa using pb
    | succ i => simpa using hp i (by simpa using hi) (by simpa using hi')

/-- The lane computation of iteration `op`. -/
def laneF (Td : CTy) (vd numOps : Nat) (g1 g2 : Getter) (f : CVal → CVal → CVal → Outcome CVal)
    (rf : VRF) (op e r : Nat) : Outcome CVal := do
  let a1 ← g1 rf op e r
  let a2 ← g2 rf op e r
  f (regElt Td (rf (vd + (op + r * numOps))) e) a1 a2

/-- Registers not written by iterations before `op`. -/
def Untouched (vd numOps k op q : Nat) : Prop := ∀ o < op, ∀ r < k, q ≠ dreg vd numOps o r

theorem dreg_inj {vd N o o' r r' : Nat} (ho : o < N) (ho' : o' < N) (h : dreg vd N o r = dreg vd N o' r') :
    o = o' ∧ r = r' := by
  have h' : o + r * N = o' + r' * N := by simp only [dreg] at h; omega
  have h1 : (o + r * N) % N = (o' + r' * N) % N := by rw [h']
  rw [Nat.add_mul_mod_self_right, Nat.add_mul_mod_self_right, Nat.mod_eq_of_lt ho, Nat.mod_eq_of_lt ho'] at h1
  refine ⟨h1, ?_⟩
  subst h1
  have : r * N = r' * N := by omega
  exact Nat.eq_of_mul_eq_mul_right (by omega) this

/-- If in every iteration, whatever the earlier iterations have written, each lane computation
succeeds with a representable value satisfying `P`, then the instruction succeeds, the destination
lanes satisfy `P`, and no other register changes. -/
theorem binOp_ok (Td : CTy) (o : Operands) (N k : Nat) (g1 g2 : Getter)
    (f : CVal → CVal → CVal → Outcome CVal) (rf : VRF) (P : Nat → Nat → Nat → Int → Prop)
    (hlen : N + (k - 1) * N ≤ o.vdLen)
    (h : ∀ op < N, ∀ rf' : VRF, (∀ q, Untouched o.vd N k op q → rf' q = rf q) →
      ∀ r < k, ∀ e < lanesOf Td, ∃ c : Int, laneF Td o.vd N g1 g2 f rf' op e r = .ok ⟨Td, c⟩ ∧
        Td.InRange c ∧ P op r e c) :
    ∃ rf', binOp Td o N k g1 g2 f rf = .ok rf' ∧
      (∀ op < N, ∀ r < k, ∀ e < lanesOf Td,
        P op r e (Spec.lane Td.signed Td.bits (rf' (dreg o.vd N op r)) e)) ∧
      (∀ q, Untouched o.vd N k N q → rf' q = rf q) := by
  suffices H : ∀ n ≤ N, ∃ rf', (List.range n).foldlM (opStep Td o N k g1 g2 f) rf = .ok rf' ∧
      (∀ op < n, ∀ r < k, ∀ e < lanesOf Td,
        P op r e (Spec.lane Td.signed Td.bits (rf' (dreg o.vd N op r)) e)) ∧
      (∀ q, Untouched o.vd N k n q → rf' q = rf q) from H N le_rfl
  intro n
  induction n with
  | zero => intro _; exact ⟨rf, by simp, by omega, fun q _ => rfl⟩
  | succ n ih =>
    intro hn
    obtain ⟨rf1, e1, p1, u1⟩ := ih (by omega)
    have hlane := h n (by omega) rf1 u1
    have hreg : ∀ r ∈ List.range k, ∃ b : VReg, opReg Td o.vd N g1 g2 f rf1 n r = .ok b ∧
        ∀ e < lanesOf Td, P n r e (Spec.lane Td.signed Td.bits b e) := by
      intro r hr
      have hr := List.mem_range.1 hr
      obtain ⟨l, hl, hlen', hP⟩ := mapM_exists (fun e => laneF Td o.vd N g1 g2 f rf1 n e r)
        (fun e v => Td.InRange v.v ∧ P n r e v.v) (List.range (lanesOf Td))
        (by
          intro e he
          obtain ⟨c, hc, hin, hp⟩ := hlane r hr e (List.mem_range.1 he)
          exact ⟨_, hc, hin, hp⟩)
      refine ⟨packReg Td l, ?_, ?_⟩
      · have : opReg Td o.vd N g1 g2 f rf1 n r =
            ((List.range (lanesOf Td)).mapM (fun e => laneF Td o.vd N g1 g2 f rf1 n e r) >>=
              fun l => .ok (packReg Td l)) := rfl
        rw [this, hl, Outcome.ok_bind]
      · intro e he
        have hle : e < l.length := by simpa [hlen'] using he
        have := hP e (by simpa using he) hle
        rw [packReg_lane Td l e he hle this.1]
        simpa using this.2
    obtain ⟨bs, hbs, hbl, hbP⟩ := mapM_exists _ _ _ hreg
    have hbl' : bs.length = k := by simpa using hbl
    obtain ⟨s1, s2⟩ := submitAll_get N (by omega) bs rf1 (o.vd + n)
    refine ⟨submitAll rf1 (o.vd + n) N bs, ?_, ?_, ?_⟩
    · rw [List.range_succ, List.foldlM_append, e1, Outcome.ok_bind]
      have : n + (k - 1) * N < o.vdLen := by omega
      simp [opStep, this, hbs]
    · intro op hop r hr e he
      by_cases hon : op = n
      · subst hon
        have hrb : r < bs.length := by omega
        have := s1 r hrb
        have e2 : dreg o.vd N op r = o.vd + op + r * N := by simp only [dreg]; omega
        rw [e2, this]
        have t := hbP r (by simpa using hr) hrb e he
        rw [List.getElem_range] at t
        exact t
      · rw [s2]
        · exact p1 op (by omega) r hr e he
        · intro i hi heq
          have : dreg o.vd N op r = dreg o.vd N n i := by simp only [dreg] at *; omega
          exact hon (dreg_inj (by omega) (by omega) this).1
    · intro q hq
      rw [s2]
      · exact u1 q (fun o' ho' r hr => hq o' (by omega) r hr)
      · intro i hi heq
        apply hq n (by omega) i (by omega)
        simp only [dreg]; omega

/-- Frame, whatever the outcome of the lanes: a vector instruction changes only destination
registers. -/
theorem binOp_frame (Td : CTy) (o : Operands) (N k : Nat) (g1 g2 : Getter)
    (f : CVal → CVal → CVal → Outcome CVal) (rf rf' : VRF) (h : binOp Td o N k g1 g2 f rf = .ok rf') :
    ∀ q, Untouched o.vd N k N q → rf' q = rf q := by
  suffices H : ∀ n ≤ N, ∀ rf', (List.range n).foldlM (opStep Td o N k g1 g2 f) rf = .ok rf' →
      ∀ q, Untouched o.vd N k n q → rf' q = rf q from H N le_rfl rf' h
  intro n
  induction n with
  | zero => intro _ rf' h q _; simp at h; rw [h]
  | succ n ih =>
    intro hn rf' h q hq
    rw [List.range_succ, List.foldlM_append] at h
    cases h1 : (List.range n).foldlM (opStep Td o N k g1 g2 f) rf with
    | ub => rw [h1] at h; simp at h
    | abort => rw [h1] at h; simp at h
    | ok rf1 =>
      rw [h1, Outcome.ok_bind, List.foldlM_cons] at h
      have i1 := ih (by omega) rf1 h1 q (fun o' ho' r hr => hq o' (by omega) r hr)
      unfold opStep at h
      split at h
      · cases h2 : (List.range k).mapM (opReg Td o.vd N g1 g2 f rf1 n) with
        | ub => rw [h2] at h; simp at h
        | abort => rw [h2] at h; simp at h
        | ok bs =>
          rw [h2] at h
          simp at h
          rw [← h, ← i1]
          have hl := (Outcome.mapM_eq_ok _ _ _ h2).1
          apply (submitAll_get N (by omega) bs rf1 (o.vd + n)).2
          intro i hi heq
          apply hq n (by omega) i (by simpa [hl] using hi)
          simp only [dreg]; omega
      · simp at h

end Verif.Proofs
