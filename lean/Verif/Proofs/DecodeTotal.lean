import Verif.Proofs.DecodeExec

/-! # Completion of the decoded instructions -/

namespace Verif.Proofs
open Verif Verif.Model

theorem vconv_len (c : BitVec 32) (vs1 n vs3 : Nat) (h : 8 ≤ n) (rf : VRF) (acc : Acc) :
    vconv c vs1 n vs3 8 rf acc = vconv c vs1 8 vs3 8 rf acc := by
  unfold vconv
  simp only [h, Nat.le_refl]

theorem acset_len (t : Bool) (vs n : Nat) (h : 8 ≤ n) (rf : VRF) (acc : Acc) :
    acset t vs n rf acc = acset t vs 8 rf acc := by
  unfold acset
  simp only [h, Nat.le_refl]

theorem adwinit_len (vs vd n : Nat) (h : 4 ≤ n) (fresh : Nat → VReg) (rf : VRF) (acc : DwAcc) :
    adwinit vs 4 vd n fresh rf acc = adwinit vs 4 vd 4 fresh rf acc := by
  unfold adwinit
  simp only [h, Nat.le_refl]

theorem adwinit_total (vs vd : Nat) (fresh : Nat → VReg) (rf : VRF) (acc : DwAcc) :
    ∃ p, adwinit vs 4 vd 4 fresh rf acc = .ok p := by
  unfold adwinit
  rw [if_pos ⟨by omega, by omega⟩]
  exact ⟨_, rfl⟩

theorem vconv_total (c : BitVec 32) (vs1 vs3 : Nat) (rf : VRF) (acc : Acc) :
    ∃ p, vconv c vs1 8 vs3 8 rf acc = .ok p := by
  by_cases h : Spec.bitsAt c 0 2 = 0 ∧ Spec.bitsAt c 2 5 ≤ Spec.bitsAt c 7 5 ∧ Spec.bitsAt c 7 5 < 8
  · obtain ⟨a, ha, -⟩ := vconv_run c vs1 vs3 rf acc h.1 h.2.1 h.2.2
    exact ⟨_, ha⟩
  · refine ⟨(true, acc), ?_⟩
    unfold vconv
    simp only [show (ConvCmd.of c).mode = Spec.bitsAt c 0 2 from field_eq ..,
      show (ConvCmd.of c).start = Spec.bitsAt c 2 5 from field_eq ..,
      show (ConvCmd.of c).stop = Spec.bitsAt c 7 5 from field_eq ..]
    by_cases h1 : Spec.bitsAt c 0 2 ≠ 0
    · rw [if_pos h1]
    · rw [if_neg h1]
      by_cases h2 : Spec.bitsAt c 2 5 > Spec.bitsAt c 7 5
      · rw [if_pos h2]
      · rw [if_neg h2, if_pos (by omega)]

/-- The instructions whose completion depends on data, or on bits that no line of the table constrains. -/
def conditional (r : Row) : Bool :=
  match r.sem with
  | .vec op _ _ => wordShift op
  | .dwconv _ | .acset _ | .adwinit => true
  | _ => false

/-- The word has the form required by an accumulator instruction. -/
def formOk (r : Row) (w : BitVec 32) : Prop :=
  match r.sem with
  | .vec op _ _ => wordShift op = false
  | .dwconv _ => False
  | .acset _ | .adwinit => AccForm w
  | _ => True

theorem exec_total (maxPhys : Nat) (fresh : Nat → VReg) {r : Row} (hr : r ∈ allRows) {w : BitVec 32}
    (h : r.matches w = true) (hs : r.sem ≠ .scalar) (hf : formOk r w) (s : Arch) :
    ∃ t s', execRow maxPhys fresh r w s = some (.ok (t, s')) := by
  cases e : r.sem with
  | scalar => exact absurd e hs
  | vec op sc st =>
    rw [exec_vec maxPhys fresh hr h e s]
    have hw := List.all_eq_true.1 allRows_vecWf r hr
    simp only [formOk, e] at hf
    simp only [vecWfOk, e, hf, Bool.or_false] at hw
    have hsc : (instOf w s sc st).scalar = sc := by cases sc <;> rfl
    have hst : (instOf w s sc st).strip = st := rfl
    obtain ⟨rf', h'⟩ := run_total op (instOf w s sc st) (by rw [hsc, hst]; exact hw) s.v
    rw [h']; exact ⟨_, _, rfl⟩
  | vld T a b c d p =>
    obtain ⟨⟨hT, k, hk⟩, h'⟩ := exec_vld maxPhys fresh hr h e s
    obtain ⟨m, hm, -⟩ := vld_run _ k hk maxPhys (memState s)
    rw [h', hm]; exact ⟨_, _, rfl⟩
  | vst T a b c d p =>
    obtain ⟨⟨hT, k, hk⟩, h'⟩ := exec_vst maxPhys fresh hr h e s
    obtain ⟨m, hm, -⟩ := vst_run _ false hT k hk maxPhys (memState s)
    rw [h', VMemInst.vst, hm]; exact ⟨_, _, rfl⟩
  | vstq T a p =>
    obtain ⟨⟨hT, hk⟩, h'⟩ := exec_vstq maxPhys fresh hr h e s
    obtain ⟨m, hm, -⟩ := vst_run _ true hT _ hk maxPhys (memState s)
    have : (memInst r w T false true a true p).vstq maxPhys (memState s) = .ok m := hm
    rw [h', this]; exact ⟨_, _, rfl⟩
  | vdup T a =>
    obtain ⟨hT, h'⟩ := exec_vdup maxPhys fresh hr h e s
    obtain ⟨rf', hm, -⟩ := vdup_run T hT a (fVd w) (xs2 w s) s.v
    have : vdup T a (fVd w) (numOpsOf a) (xs2 w s) s.v = .ok rf' := hm
    rw [h', this]; exact ⟨_, _, rfl⟩
  | getvl T a b c =>
    rw [exec_getvl maxPhys fresh hr e s]; exact ⟨_, _, rfl⟩
  | vcget =>
    obtain ⟨rf', hm, -⟩ := vcget_run (fVd w) s.v s.acc
    rw [exec_vcget maxPhys fresh hr e s, hm]; exact ⟨_, _, rfl⟩
  | acset t =>
    simp only [formOk, e] at hf
    obtain ⟨n, hn, h'⟩ := exec_acset maxPhys fresh hr h hf e s
    rw [h', acset_len _ _ _ hn, acset_run]; exact ⟨_, _, rfl⟩
  | adwinit =>
    simp only [formOk, e] at hf
    obtain ⟨n, hn, h'⟩ := exec_adwinit maxPhys fresh hr hf e s
    obtain ⟨p, hp⟩ := adwinit_total (fVs1 w) (fVd w) fresh s.v s.dw
    rw [h', adwinit_len _ _ _ hn, hp]; exact ⟨_, _, rfl⟩
  | aconv =>
    obtain ⟨n, hn, h'⟩ := exec_aconv maxPhys fresh hr h e s
    obtain ⟨p, hp⟩ := vconv_total (xs2 w s) (fVs1 w) (fVs3 w) s.v s.acc
    rw [h', vconv_len _ _ _ _ hn, hp]; exact ⟨_, _, rfl⟩
  | dwconv wr =>
    simp only [formOk, e] at hf

/-! ## Scalar registers -/

theorem bind_ok_inv {α β : Type} {x : Outcome α} {f : α → Outcome β} {b : β} (h : (x >>= f) = .ok b) :
    ∃ a, x = .ok a ∧ f a = .ok b := by
  cases x with
  | ok a => exact ⟨a, rfl, h⟩
  | ub => cases h
  | abort => cases h

/-- Which scalar register an executed row may change. -/
def writesX (r : Row) (w : BitVec 32) : Option Nat :=
  match r.sem with
  | .vld _ _ _ _ _ p | .vst _ _ _ _ _ p | .vstq _ _ p => if p = true ∧ fVs1 w ≠ 0 then some (fVs1 w / 2) else none
  | .getvl .. => if fRd w = 0 then none else some (fRd w)
  | _ => none

theorem memBack_x (r : Row) (w : BitVec 32) (T : CTy) (a b c d p : Bool) (s : Arch) (m : MState) (h0 : fForm w = 3)
    (hx : ∀ q, (p = true → q = (memInst r w T a b c d p).rs1 → q = 0) → m.x q = (memState s).x q) (q : Nat)
    (hq : (if p = true ∧ fVs1 w ≠ 0 then some (fVs1 w / 2) else none) ≠ some q) :
    (memBack s m).x q = s.x q := by
  show m.x (q + 1) = s.x q
  rw [hx (q + 1)]
  · rfl
  · intro hp e
    exfalso
    simp only [memInst, srcVs1, h0, if_true] at e
    by_cases h1 : fVs1 w = 0
    · simp only [h1, if_true, scalarIdx] at e; omega
    · simp only [h1, if_false, scalarIdx] at e
      exact hq (by rw [if_pos ⟨hp, h1⟩]; congr 1; omega)

theorem exec_x (maxPhys : Nat) (fresh : Nat → VReg) {r : Row} (hr : r ∈ allRows) {w : BitVec 32}
    (h : r.matches w = true) (s s' : Arch) (t : Bool) (he : execRow maxPhys fresh r w s = some (.ok (t, s'))) (q : Nat)
    (hq : writesX r w ≠ some q) : s'.x q = s.x q := by
  cases e : r.sem with
  | scalar => simp [execRow, e] at he
  | vec op sc st =>
    simp only [execRow, e, Option.some.injEq] at he
    obtain ⟨v, -, hv⟩ := bind_ok_inv he
    cases hv; rfl
  | vld T a b c d p =>
    obtain ⟨⟨hT, k, hk⟩, h'⟩ := exec_vld maxPhys fresh hr h e s
    obtain ⟨m, hm, -, -, -, hx⟩ := vld_run _ k hk maxPhys (memState s)
    rw [h', hm] at he
    cases he
    have hform : fForm w = 3 := by
      have hok := List.all_eq_true.1 allRows_memOk r hr
      simp only [memRowOk, e, Bool.and_eq_true, beq_iff_eq] at hok
      exact fixedFld_field h hok.1.1.1.1.1
    simp only [writesX, e] at hq
    refine memBack_x r w T a b c d p s m hform (fun q hp => ?_) q hq
    rw [hx q, if_neg (fun hh => hh.2.2 (hp hh.1 hh.2.1))]
  | vst T a b c d p =>
    obtain ⟨⟨hT, k, hk⟩, h'⟩ := exec_vst maxPhys fresh hr h e s
    obtain ⟨m, hm, -, -, hx⟩ := vst_run _ false hT k hk maxPhys (memState s)
    rw [h', VMemInst.vst, hm] at he
    cases he
    have hform : fForm w = 3 := by
      have hok := List.all_eq_true.1 allRows_memOk r hr
      simp only [memRowOk, e, Bool.and_eq_true, beq_iff_eq] at hok
      exact fixedFld_field h hok.1.1.1
    simp only [writesX, e] at hq
    refine memBack_x r w T a b c d p s m hform (fun q hp => ?_) q hq
    rw [hx q, if_neg (fun hh => hh.2.2 (hp hh.1 hh.2.1))]
  | vstq T c p =>
    obtain ⟨⟨hT, hk⟩, h'⟩ := exec_vstq maxPhys fresh hr h e s
    obtain ⟨m, hm, -, -, hx⟩ := vst_run _ true hT _ hk maxPhys (memState s)
    have hm' : (memInst r w T false true c true p).vstq maxPhys (memState s) = .ok m := hm
    rw [h', hm'] at he
    cases he
    have hform : fForm w = 3 := by
      have hok := List.all_eq_true.1 allRows_memOk r hr
      simp only [memRowOk, e, Bool.and_eq_true, beq_iff_eq] at hok
      exact fixedFld_field h hok.1.1
    simp only [writesX, e] at hq
    refine memBack_x r w T false true c true p s m hform (fun q hp => ?_) q hq
    rw [hx q, if_neg (fun hh => hh.2.2 (hp hh.1 hh.2.1))]
  | vdup T a =>
    simp only [execRow, e, Option.some.injEq] at he
    obtain ⟨_, -, he⟩ := bind_ok_inv he
    obtain ⟨_, -, he⟩ := bind_ok_inv he
    cases he; rfl
  | getvl T a b c =>
    rw [exec_getvl maxPhys fresh hr e s] at he
    cases he
    simp only [writesX, e] at hq
    show writeX s.x (fRd w) _ q = s.x q
    unfold writeX
    by_cases h0 : fRd w = 0
    · simp [h0]
    · have : q ≠ fRd w := fun hh => hq (by rw [if_neg h0, hh])
      simp [h0, this]
  | vcget =>
    simp only [execRow, e, Option.some.injEq] at he
    obtain ⟨_, -, he⟩ := bind_ok_inv he
    cases he; rfl
  | acset t =>
    simp only [execRow, e, Option.some.injEq] at he
    obtain ⟨_, -, he⟩ := bind_ok_inv he
    obtain ⟨_, -, he⟩ := bind_ok_inv he
    cases he; rfl
  | adwinit =>
    simp only [execRow, e, Option.some.injEq] at he
    obtain ⟨_, -, he⟩ := bind_ok_inv he
    obtain ⟨_, -, he⟩ := bind_ok_inv he
    cases he; rfl
  | aconv =>
    simp only [execRow, e, Option.some.injEq] at he
    obtain ⟨_, -, he⟩ := bind_ok_inv he
    obtain ⟨_, -, he⟩ := bind_ok_inv he
    obtain ⟨_, -, he⟩ := bind_ok_inv he
    obtain ⟨_, -, he⟩ := bind_ok_inv he
    cases he; rfl
  | dwconv wr =>
    simp only [execRow, e, Option.some.injEq] at he
    obtain ⟨_, -, he⟩ := bind_ok_inv he
    obtain ⟨_, -, he⟩ := bind_ok_inv he
    obtain ⟨_, -, he⟩ := bind_ok_inv he
    obtain ⟨_, -, he⟩ := bind_ok_inv he
    cases he; rfl

end Verif.Proofs
