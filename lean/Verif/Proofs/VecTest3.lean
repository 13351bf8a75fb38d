import Verif.Proofs.VecTest2

/-! # The vector test: slides and shuffles -/

namespace Verif.Proofs
open Verif Verif.Model CVal Spec.VecTest

/-- Everything about a mover except the values. -/
theorem moved_agrees (v : VOp) (T : CTy) (op' : CVal → CVal → Outcome CVal) (g : ArgsGetter) (w : Bool)
    (sc : Option (BitVec 32)) (st : Bool) (rf : VRF) (g1 g2 : Getter)
    (hlen : numOpsOf st + ((if w then 2 else 1) - 1) * numOpsOf st ≤ ((testInst sc st).operands v).vdLen)
    (hrun : v.run (testInst sc st) rf =
      binOp T ((testInst sc st).operands v) (numOpsOf st) (if w then 2 else 1) g1 g2 (noDest vFst) rf)
    (hty : ∀ a b, Typed T (op' a b))
    (h : ∀ op < numOpsOf st, ∀ rf' : VRF, (∀ q < 32, rf' q = rf q) → ∀ r < (if w then 2 else 1), ∀ e < lanesOf T,
      ∃ a y, T.InRange a ∧ g1 rf' op e r = .ok ⟨T, a⟩ ∧ (∃ c, g2 rf' op e r = .ok c) ∧
        g ((Test.moved T (fun _ => op') g w).call sc st rf op r e) = .ok y ∧ op' y.1 y.2 = .ok (cast T ⟨T, a⟩)) :
    Agrees v (Test.moved T (fun _ => op') g w) sc st rf := by
  refine agrees_of _ _ sc st rf ((testInst sc st).operands v) g1 g2 (noDest vFst) rfl hlen hrun (fun _ => hty) ?_
  intro op hop rf' hrf r hr e he
  obtain ⟨a, y, ha, h1, h2, h3, h4⟩ := h op hop rf' (below_untouched hrf) r hr e he
  exact move_lane T _ rfl sc st rf rf' g1 g2 op r e a ha y h1 h2 h3 (fun _ => h4)

/-- The element `j` of operand `k`. -/
def srcElem (T : CTy) (rf : VRF) (k j : Nat) : Int := Spec.groupElem T.signed T.bits rf (if k = 0 then 8 else 24) j

theorem src_read (v : VOp) (hf : v.src1Factor = 1) (T : CTy) (st : Bool) (rf rf' : VRF) (k j : Nat)
    (hlow : ∀ q < 32, rf' q = rf q) (h : j < lanesOf T * numOpsOf st) :
    readElt T rf' (((testInst none st).operands v).src k) j = .ok ⟨T, srcElem T rf k j⟩ := by
  have hN : numOpsOf st ≤ 4 := by cases st <;> decide
  unfold Operands.src srcElem
  split
  · have hs : ((testInst none st).operands v).src0 = .vec 8 (numOpsOf st * 1) := by rw [← hf]; rfl
    rw [hs]
    exact read_low T rf rf' 8 _ j (by omega) hlow (by simpa using h)
  · exact read_low T rf rf' 24 (numOpsOf st) j (by omega) hlow h

theorem pick_ok (T : CTy) (op' : CVal → CVal → CVal → Outcome CVal) (g : ArgsGetter) (w : Bool) (st : Bool) (rf : VRF)
    (op r e k j : Nat) (h : j < lanesOf T * numOpsOf st) :
    pick ((Test.moved T op' g w).call none st rf op r e) k j = .ok ⟨T, srcElem T rf k j⟩ := by
  unfold pick srcElem
  split
  · exact vals1 T op' g w st rf j h
  · exact vals2 T op' g w st rf j h

theorem slide_arg2 (v : VOp) (T : CTy) (st : Bool) (rf rf' : VRF) (op e r : Nat) (hr : r < 1) (hop : op < numOpsOf st)
    (he : e < lanesOf T) (hlow : ∀ q < 32, rf' q = rf q) :
    ∃ c, commonArg2 T T ((testInst none st).operands v) false rf' op e r = .ok c := by
  have hN : numOpsOf st ≤ 4 := by cases st <;> decide
  have hr0 : r = 0 := by omega
  subst hr0
  unfold commonArg2
  rw [Nat.mul_div_cancel _ (size_pos T)]
  exact ⟨_, read_low T rf rf' 24 (numOpsOf st) _ (by omega) hlow (by simpa using flat_lt hop he)⟩

theorem lanes_ge (T : CTy) (hb : T.bits ≤ 32) : 8 ≤ lanesOf T := by
  cases T <;> first | (exfalso; revert hb; decide) | decide

theorem reg_lt {p e N L : Nat} (hp : p < N) (he : e < L) : p * L + e < L * N := flat_lt hp he

theorem slidenArgs_pos (T : CTy) (h : Bool) (index : Nat) (c : Call) (hc : c.elem + index < c.vdSize) :
    slidenArgs T h index c = (pick c ([(0, 0), (1, 0), (2, 0), (3, 0)].getD c.opNum (0, 0)).2
      (([(0, 0), (1, 0), (2, 0), (3, 0)].getD c.opNum (0, 0)).1 * c.vdSize + c.elem + index) >>= fun a => .ok (a, ⟨T, 0⟩)) := by
  simp only [slidenArgs, hc, if_true]

theorem slidenArgs_neg (T : CTy) (h : Bool) (index : Nat) (c : Call) (hc : ¬ c.elem + index < c.vdSize) :
    slidenArgs T h index c =
      (pick c ((if h then [(1, 0), (2, 0), (3, 0), (0, 1)] else [(0, 1), (1, 1), (2, 1), (3, 1)]).getD c.opNum (0, 0)).2
      (((if h then [(1, 0), (2, 0), (3, 0), (0, 1)] else [(0, 1), (1, 1), (2, 1), (3, 1)]).getD c.opNum (0, 0)).1 *
        c.vdSize + c.elem + index - c.vdSize) >>= fun a => .ok (a, ⟨T, 0⟩)) := by
  simp only [slidenArgs, hc, if_false]

theorem slidepArgs_pos (T : CTy) (h : Bool) (index : Nat) (c : Call) (hc : c.elem < index) :
    slidepArgs T h index c =
      (pick c ((if h then [(3, 0), (0, 1), (1, 1), (2, 1)] else [(0, 0), (1, 0), (2, 0), (3, 0)]).getD c.opNum (0, 0)).2
      (((if h then [(3, 0), (0, 1), (1, 1), (2, 1)] else [(0, 0), (1, 0), (2, 0), (3, 0)]).getD c.opNum (0, 0)).1 *
        c.vdSize + c.elem + c.vdSize - index) >>= fun a => .ok (a, ⟨T, 0⟩)) := by
  simp only [slidepArgs, hc, if_true]

theorem slidepArgs_neg (T : CTy) (h : Bool) (index : Nat) (c : Call) (hc : ¬ c.elem < index) :
    slidepArgs T h index c = (pick c ([(0, 1), (1, 1), (2, 1), (3, 1)].getD c.opNum (0, 0)).2
      (([(0, 1), (1, 1), (2, 1), (3, 1)].getD c.opNum (0, 0)).1 * c.vdSize + c.elem - index) >>= fun a => .ok (a, ⟨T, 0⟩)) := by
  simp only [slidepArgs, hc, if_false]

theorem sliden_agrees (h : Bool) (index : Nat) (hi : index ≤ 4) (T : CTy) (hb : T.bits ≤ 32) (st : Bool)
    (hst : h = true → st = true) (rf : VRF) :
    Agrees (.sliden h index T) (Test.moved T (fun _ => Spec.Oracle.first T) (slidenArgs T h index) false) none st rf := by
  have hL := lanes_ge T hb
  have hsh : (st || h) = st := by cases h <;> cases st <;> simp at hst ⊢
  have hk : regsPerOpOf false false T T = 1 := by simp [regsPerOpOf]
  refine moved_agrees (.sliden h index T) T _ _ false none st rf (slidenArg1 T ((testInst none st).operands (.sliden h index T)) h index)
    (commonArg2 T T ((testInst none st).operands (.sliden h index T)) false)
    (by simp [VInst.operands, VOp.dstFactor, VInst.n, testInst])
    (by simp only [VOp.run, VOp.exec]
        have : (testInst none st).strip = st := rfl
        rw [this, hsh, hk]; rfl)
    (fun _ _ => typed_cast T _) ?_
  intro op hop rf' hlow r hr e he
  have hr1 : r < 1 := hr
  have hN4 : h = true → numOpsOf st = 4 := by intro hh; rw [hst hh]; rfl
  have hNle : numOpsOf st ≤ 4 := by cases st <;> decide
  have a2 := slide_arg2 (.sliden h index T) T st rf rf' op e r hr1 hop he hlow
  have step : ∀ k j : Nat, j < lanesOf T * numOpsOf st →
      slidenArg1 T ((testInst none st).operands (.sliden h index T)) h index rf' op e r =
        readElt T rf' (((testInst none st).operands (.sliden h index T)).src k) j →
      slidenArgs T h index ((Test.moved T (fun _ => Spec.Oracle.first T) (slidenArgs T h index) false).call none st rf op r e) =
        (pick ((Test.moved T (fun _ => Spec.Oracle.first T) (slidenArgs T h index) false).call none st rf op r e) k j >>= fun a => .ok (a, ⟨T, 0⟩)) →
      ∃ a y, T.InRange a ∧ slidenArg1 T ((testInst none st).operands (.sliden h index T)) h index rf' op e r = .ok ⟨T, a⟩ ∧
        (∃ c, commonArg2 T T ((testInst none st).operands (.sliden h index T)) false rf' op e r = .ok c) ∧
        slidenArgs T h index ((Test.moved T (fun _ => Spec.Oracle.first T) (slidenArgs T h index) false).call none st rf op r e) = .ok y ∧
        Spec.Oracle.first T y.1 y.2 = .ok (cast T ⟨T, a⟩) := by
    intro k j hj h1 h2
    refine ⟨srcElem T rf k j, (⟨T, srcElem T rf k j⟩, ⟨T, 0⟩), groupElem_inRange T _ _ _, ?_, a2, ?_, rfl⟩
    · rw [h1, src_read _ rfl T st rf rf' k j hlow hj]
    · rw [h2, pick_ok T _ _ _ st rf op r e k j hj]; rfl
  by_cases hc : e + index < lanesOf T
  · refine step ([(0, 0), (1, 0), (2, 0), (3, 0)].getD op (0, 0)).2 (([(0, 0), (1, 0), (2, 0), (3, 0)].getD op (0, 0)).1 * lanesOf T + e + index) ?_ ?_ ?_
    · have h1 : ([(0, 0), (1, 0), (2, 0), (3, 0)].getD op (0, 0)).1 < numOpsOf st := by
        have : op < 4 := by omega
        interval_cases op <;> first | exact hop | omega
      rw [Nat.add_assoc]; exact reg_lt h1 hc
    · unfold slidenArg1; rw [if_pos hc]
    · exact slidenArgs_pos T h index _ hc
  · refine step ((if h then [(1, 0), (2, 0), (3, 0), (0, 1)] else [(0, 1), (1, 1), (2, 1), (3, 1)]).getD op (0, 0)).2
      (((if h then [(1, 0), (2, 0), (3, 0), (0, 1)] else [(0, 1), (1, 1), (2, 1), (3, 1)]).getD op (0, 0)).1 * lanesOf T + e + index - lanesOf T) ?_ ?_ ?_
    · have h1 : ((if h then [(1, 0), (2, 0), (3, 0), (0, 1)] else [(0, 1), (1, 1), (2, 1), (3, 1)]).getD op (0, 0)).1 < numOpsOf st := by
        have : op < 4 := by omega
        cases h with
        | true => rw [hN4 rfl]; interval_cases op <;> decide
        | false => interval_cases op <;> first | exact hop | (simp only [Bool.false_eq_true, if_false]; exact hop)
      have := reg_lt h1 (show e + index - lanesOf T < lanesOf T by omega)
      omega
    · unfold slidenArg1; rw [if_neg hc]
    · exact slidenArgs_neg T h index _ hc

theorem slidep_agrees (h : Bool) (index : Nat) (hi : index ≤ 4) (T : CTy) (hb : T.bits ≤ 32) (st : Bool)
    (hst : h = true → st = true) (rf : VRF) :
    Agrees (.slidep h index T) (Test.moved T (fun _ => Spec.Oracle.first T) (slidepArgs T h index) false) none st rf := by
  have hL := lanes_ge T hb
  have hsh : (st || h) = st := by cases h <;> cases st <;> simp at hst ⊢
  have hk : regsPerOpOf false false T T = 1 := by simp [regsPerOpOf]
  refine moved_agrees (.slidep h index T) T _ _ false none st rf (slidepArg1 T ((testInst none st).operands (.slidep h index T)) h index)
    (commonArg2 T T ((testInst none st).operands (.slidep h index T)) false)
    (by simp [VInst.operands, VOp.dstFactor, VInst.n, testInst])
    (by simp only [VOp.run, VOp.exec]
        have : (testInst none st).strip = st := rfl
        rw [this, hsh, hk]; rfl)
    (fun _ _ => typed_cast T _) ?_
  intro op hop rf' hlow r hr e he
  have hr1 : r < 1 := hr
  have hN4 : h = true → numOpsOf st = 4 := by intro hh; rw [hst hh]; rfl
  have hNle : numOpsOf st ≤ 4 := by cases st <;> decide
  have a2 := slide_arg2 (.slidep h index T) T st rf rf' op e r hr1 hop he hlow
  have step : ∀ k j : Nat, j < lanesOf T * numOpsOf st →
      slidepArg1 T ((testInst none st).operands (.slidep h index T)) h index rf' op e r =
        readElt T rf' (((testInst none st).operands (.slidep h index T)).src k) j →
      slidepArgs T h index ((Test.moved T (fun _ => Spec.Oracle.first T) (slidepArgs T h index) false).call none st rf op r e) =
        (pick ((Test.moved T (fun _ => Spec.Oracle.first T) (slidepArgs T h index) false).call none st rf op r e) k j >>= fun a => .ok (a, ⟨T, 0⟩)) →
      ∃ a y, T.InRange a ∧ slidepArg1 T ((testInst none st).operands (.slidep h index T)) h index rf' op e r = .ok ⟨T, a⟩ ∧
        (∃ c, commonArg2 T T ((testInst none st).operands (.slidep h index T)) false rf' op e r = .ok c) ∧
        slidepArgs T h index ((Test.moved T (fun _ => Spec.Oracle.first T) (slidepArgs T h index) false).call none st rf op r e) = .ok y ∧
        Spec.Oracle.first T y.1 y.2 = .ok (cast T ⟨T, a⟩) := by
    intro k j hj h1 h2
    refine ⟨srcElem T rf k j, (⟨T, srcElem T rf k j⟩, ⟨T, 0⟩), groupElem_inRange T _ _ _, ?_, a2, ?_, rfl⟩
    · rw [h1, src_read _ rfl T st rf rf' k j hlow hj]
    · rw [h2, pick_ok T _ _ _ st rf op r e k j hj]; rfl
  by_cases hc : e < index
  · refine step ((if h then [(3, 0), (0, 1), (1, 1), (2, 1)] else [(0, 0), (1, 0), (2, 0), (3, 0)]).getD op (0, 0)).2
      (((if h then [(3, 0), (0, 1), (1, 1), (2, 1)] else [(0, 0), (1, 0), (2, 0), (3, 0)]).getD op (0, 0)).1 * lanesOf T + e + lanesOf T - index) ?_ ?_ ?_
    · have h1 : ((if h then [(3, 0), (0, 1), (1, 1), (2, 1)] else [(0, 0), (1, 0), (2, 0), (3, 0)]).getD op (0, 0)).1 < numOpsOf st := by
        have : op < 4 := by omega
        cases h with
        | true => rw [hN4 rfl]; interval_cases op <;> decide
        | false => interval_cases op <;> first | exact hop | (simp only [Bool.false_eq_true, if_false]; exact hop)
      have := reg_lt h1 (show e + lanesOf T - index < lanesOf T by omega)
      omega
    · unfold slidepArg1; rw [if_pos hc]
    · exact slidepArgs_pos T h index _ hc
  · refine step ([(0, 1), (1, 1), (2, 1), (3, 1)].getD op (0, 0)).2 (([(0, 1), (1, 1), (2, 1), (3, 1)].getD op (0, 0)).1 * lanesOf T + e - index) ?_ ?_ ?_
    · have h1 : ([(0, 1), (1, 1), (2, 1), (3, 1)].getD op (0, 0)).1 < numOpsOf st := by
        have : op < 4 := by omega
        interval_cases op <;> first | exact hop | omega
      have := reg_lt h1 (show e - index < lanesOf T by omega)
      omega
    · unfold slidepArg1; rw [if_neg hc]
    · exact slidepArgs_neg T h index _ hc

/-! ## Shuffles -/

/-- Element `j` of the concatenation of the two operands of `n` registers. -/
def catVal (T : CTy) (sc : Option (BitVec 32)) (n : Nat) (rf : VRF) (j : Nat) : Int :=
  if j < lanesOf T * n then Spec.groupElem T.signed T.bits rf 8 j else op2Elem T sc rf (j - lanesOf T * n)

theorem catVal_inRange (T : CTy) (sc : Option (BitVec 32)) (n : Nat) (rf : VRF) (j : Nat) :
    T.InRange (catVal T sc n rf j) := by
  unfold catVal
  split
  · exact groupElem_inRange T _ _ _
  · exact op2Elem_inRange T _ _ _

theorem evnOddArg_ok (v : VOp) (hf : v.src1Factor = 1) (T : CTy) (hb : T.bits ≤ 32) (sc : Option (BitVec 32)) (st : Bool)
    (rf rf' : VRF) (odd op e r : Nat) (hodd : odd < 2) (hop : op < numOpsOf st) (he : e < lanesOf T)
    (hlow : ∀ q < 32, rf' q = rf q) :
    evnOddArg T ((testInst sc st).operands v) sc.isSome (numOpsOf st) odd rf' op e r =
      .ok ⟨T, catVal T sc (numOpsOf st) rf ((op * lanesOf T + e) * 2 + odd)⟩ := by
  have hN : numOpsOf st ≤ 4 := by cases st <;> decide
  have hfl := flat_lt hop he
  have hidx : op * lanesOf T * 2 + e * 2 + odd = (op * lanesOf T + e) * 2 + odd := by rw [Nat.add_mul]
  unfold evnOddArg catVal
  rw [hidx]
  split
  · rename_i h
    have hs : ((testInst sc st).operands v).src0 = .vec 8 (numOpsOf st * 1) := by rw [← hf]; rfl
    rw [hs]
    exact read_low T rf rf' 8 _ _ (by omega) hlow (by simpa using h)
  · exact read2_low T hb v sc st rf rf' _ hlow (by omega)

theorem evnOddArgs_ok (T : CTy) (hb : T.bits ≤ 32) (op' : CVal → CVal → CVal → Outcome CVal) (g : ArgsGetter) (w : Bool)
    (sc : Option (BitVec 32)) (st : Bool) (rf : VRF) (op r e : Nat) (hop : op < numOpsOf st) (he : e < lanesOf T) :
    evnOddArgs ((Test.moved T op' g w).call sc st rf op r e) =
      .ok (⟨T, catVal T sc (numOpsOf st) rf ((op * lanesOf T + e) * 2 + if r = 0 then 0 else 1)⟩,
        ⟨T, catVal T sc (numOpsOf st) rf ((op * lanesOf T + e) * 2 + 1)⟩) := by
  have hfl := flat_lt hop he
  have heven : ∃ k, lanesOf T * numOpsOf st = 2 * k := by
    have : ∃ k, lanesOf T = 2 * k := by
      cases T <;> first | (exfalso; revert hb; decide) | exact ⟨16, rfl⟩ | exact ⟨8, rfl⟩ | exact ⟨4, rfl⟩
    obtain ⟨k, hk⟩ := this
    exact ⟨k * numOpsOf st, by rw [hk, Nat.mul_assoc]⟩
  obtain ⟨k, hk⟩ := heven
  have hper : ((Test.moved T op' g w).call sc st rf op r e).numOps * ((Test.moved T op' g w).call sc st rf op r e).vs1Size =
      lanesOf T * numOpsOf st := Nat.mul_comm _ _
  have hcomb : (((Test.moved T op' g w).call sc st rf op r e).opNum * ((Test.moved T op' g w).call sc st rf op r e).vs1Size +
      ((Test.moved T op' g w).call sc st rf op r e).elem) * 2 = (op * lanesOf T + e) * 2 := rfl
  have hsub : ((Test.moved T op' g w).call sc st rf op r e).sub = r := rfl
  unfold evnOddArgs
  simp only [hper, hcomb, hsub]
  generalize hj : (op * lanesOf T + e) * 2 = j
  by_cases h : j < lanesOf T * numOpsOf st
  · have h1 : j + 1 < lanesOf T * numOpsOf st := by omega
    have v1 : ((Test.moved T op' g w).call sc st rf op r e).vs1 j = .ok ⟨T, Spec.groupElem T.signed T.bits rf 8 j⟩ :=
      vals1 T op' g w st rf j h
    have v2 : ((Test.moved T op' g w).call sc st rf op r e).vs1 (j + 1) = .ok ⟨T, Spec.groupElem T.signed T.bits rf 8 (j + 1)⟩ :=
      vals1 T op' g w st rf (j + 1) h1
    rw [if_pos h, v1, Outcome.ok_bind, v2, Outcome.ok_bind]
    unfold catVal
    by_cases hr : r = 0
    · simp only [hr, if_true, Nat.add_zero, h, h1]
    · simp only [hr, if_false, h1, if_true]
  · have h1 : ¬ j + 1 < lanesOf T * numOpsOf st := by omega
    have v1 := second_ok T hb op' g w sc st rf op r e (j - lanesOf T * numOpsOf st) (by omega)
    have v2 := second_ok T hb op' g w sc st rf op r e (j - lanesOf T * numOpsOf st + 1) (by omega)
    have hs1 : j + 1 - lanesOf T * numOpsOf st = j - lanesOf T * numOpsOf st + 1 := by omega
    rw [if_neg h, v1, Outcome.ok_bind, v2, Outcome.ok_bind]
    unfold catVal
    by_cases hr : r = 0
    · simp only [hr, if_true, Nat.add_zero, h, h1, if_false, hs1]
    · simp only [hr, if_false, h1, hs1]

theorem evn_agrees (T : CTy) (hb : T.bits ≤ 32) (sc : Option (BitVec 32)) (st : Bool) (rf : VRF) :
    Agrees (.evn T) (Test.moved T (fun _ => Spec.Oracle.first T) evnOddArgs false) sc st rf := by
  have hk : regsPerOpOf false false T T = 1 := by simp [regsPerOpOf]
  have hsc : (testInst sc st).scalar = sc.isSome := by cases sc <;> rfl
  refine moved_agrees (.evn T) T _ _ false sc st rf (evnOddArg T ((testInst sc st).operands (.evn T)) sc.isSome (numOpsOf st) 0)
    (evnOddArg T ((testInst sc st).operands (.evn T)) sc.isSome (numOpsOf st) 0)
    (by simp [VInst.operands, VOp.dstFactor, VInst.n, testInst])
    (by simp only [VOp.run, VOp.exec, hk, hsc]; rfl) (fun _ _ => typed_cast T _) ?_
  intro op hop rf' hlow r hr e he
  have hr0 : r = 0 := by have : r < 1 := hr; omega
  have g := evnOddArg_ok (.evn T) rfl T hb sc st rf rf' 0 op e r (by omega) hop he hlow
  refine ⟨_, _, catVal_inRange T _ _ _ _, g, ⟨_, g⟩, evnOddArgs_ok T hb _ _ _ sc st rf op r e hop he, ?_⟩
  rw [if_pos hr0]; rfl

theorem odd_agrees (T : CTy) (hb : T.bits ≤ 32) (sc : Option (BitVec 32)) (st : Bool) (rf : VRF) :
    Agrees (.odd T) (Test.moved T (fun _ => Spec.Oracle.second T) evnOddArgs false) sc st rf := by
  have hk : regsPerOpOf false false T T = 1 := by simp [regsPerOpOf]
  have hsc : (testInst sc st).scalar = sc.isSome := by cases sc <;> rfl
  refine moved_agrees (.odd T) T _ _ false sc st rf (evnOddArg T ((testInst sc st).operands (.odd T)) sc.isSome (numOpsOf st) 1)
    (evnOddArg T ((testInst sc st).operands (.odd T)) sc.isSome (numOpsOf st) 1)
    (by simp [VInst.operands, VOp.dstFactor, VInst.n, testInst])
    (by simp only [VOp.run, VOp.exec, hk, hsc]; rfl) (fun _ _ => typed_cast T _) ?_
  intro op hop rf' hlow r hr e he
  have g := evnOddArg_ok (.odd T) rfl T hb sc st rf rf' 1 op e r (by omega) hop he hlow
  exact ⟨_, _, catVal_inRange T _ _ _ _, g, ⟨_, g⟩, evnOddArgs_ok T hb _ _ _ sc st rf op r e hop he, rfl⟩

theorem evnodd_agrees (T : CTy) (hb : T.bits ≤ 32) (sc : Option (BitVec 32)) (st : Bool) (rf : VRF) :
    Agrees (.evnodd T) (Test.moved T (fun _ => Spec.Oracle.first T) evnOddArgs true) sc st rf := by
  have hk : regsPerOpOf false true T T = 2 := by simp [regsPerOpOf]
  have hsc : (testInst sc st).scalar = sc.isSome := by cases sc <;> rfl
  refine moved_agrees (.evnodd T) T _ _ true sc st rf (evnoddArg T ((testInst sc st).operands (.evnodd T)) sc.isSome (numOpsOf st))
    (evnoddArg T ((testInst sc st).operands (.evnodd T)) sc.isSome (numOpsOf st))
    (by simp [VInst.operands, VOp.dstFactor, VInst.n, testInst]; omega)
    (by simp only [VOp.run, VOp.exec, hk, hsc]; rfl) (fun _ _ => typed_cast T _) ?_
  intro op hop rf' hlow r hr e he
  have g : evnoddArg T ((testInst sc st).operands (.evnodd T)) sc.isSome (numOpsOf st) rf' op e r =
      .ok ⟨T, catVal T sc (numOpsOf st) rf ((op * lanesOf T + e) * 2 + if r = 0 then 0 else 1)⟩ := by
    unfold evnoddArg
    split
    · exact evnOddArg_ok (.evnodd T) rfl T hb sc st rf rf' 0 op e r (by omega) hop he hlow
    · exact evnOddArg_ok (.evnodd T) rfl T hb sc st rf rf' 1 op e r (by omega) hop he hlow
  exact ⟨_, _, catVal_inRange T _ _ _ _, g, ⟨_, g⟩, evnOddArgs_ok T hb _ _ _ sc st rf op r e hop he, rfl⟩

theorem zip_agrees (T : CTy) (hb : T.bits ≤ 32) (sc : Option (BitVec 32)) (st : Bool) (rf : VRF) :
    Agrees (.zip T) (Test.moved T (fun _ => Spec.Oracle.first T) (zipArgs T) true) sc st rf := by
  have hN : numOpsOf st ≤ 4 := by cases st <;> decide
  have hk : regsPerOpOf false true T T = 2 := by simp [regsPerOpOf]
  have hsc : (testInst sc st).scalar = sc.isSome := by cases sc <;> rfl
  refine moved_agrees (.zip T) T _ _ true sc st rf (zipArg T ((testInst sc st).operands (.zip T)) sc.isSome (numOpsOf st))
    (zipArg T ((testInst sc st).operands (.zip T)) sc.isSome (numOpsOf st))
    (by simp [VInst.operands, VOp.dstFactor, VInst.n, testInst]; omega)
    (by simp only [VOp.run, VOp.exec, hk, hsc]; rfl) (fun _ _ => typed_cast T _) ?_
  intro op hop rf' hlow r hr e he
  have hr2 : r < 2 := hr
  obtain ⟨k, hk2⟩ : ∃ k, lanesOf T = 2 * k := by
    cases T <;> first | (exfalso; revert hb; decide) | exact ⟨16, rfl⟩ | exact ⟨8, rfl⟩ | exact ⟨4, rfl⟩
  have hhalf : lanesOf T / 2 = k := by omega
  have hidx : (op * lanesOf T + e + r * lanesOf T * numOpsOf st) / 2 =
      op * (lanesOf T / 2) + e / 2 + r * (lanesOf T / 2) * numOpsOf st := by
    rw [hhalf, hk2]
    have : op * (2 * k) + e + r * (2 * k) * numOpsOf st = e + 2 * (op * k + r * k * numOpsOf st) := by ring
    rw [this, Nat.add_mul_div_left _ _ (by omega)]; omega
  have hbd : op * (lanesOf T / 2) + e / 2 + r * (lanesOf T / 2) * numOpsOf st < lanesOf T * numOpsOf st := by
    rw [hhalf]
    have h1 : op * k + e / 2 < k * numOpsOf st := flat_lt hop (by omega)
    have h2 : r * k * numOpsOf st ≤ 1 * k * numOpsOf st := by
      apply Nat.mul_le_mul_right; apply Nat.mul_le_mul_right; omega
    have h3 : lanesOf T * numOpsOf st = k * numOpsOf st + 1 * k * numOpsOf st := by rw [hk2]; ring
    omega
  generalize hj : op * (lanesOf T / 2) + e / 2 + r * (lanesOf T / 2) * numOpsOf st = j at hidx hbd
  have hsrc : (((Test.moved T (fun _ => Spec.Oracle.first T) (zipArgs T) true).call sc st rf op r e).opNum *
      ((Test.moved T (fun _ => Spec.Oracle.first T) (zipArgs T) true).call sc st rf op r e).vs1Size +
      ((Test.moved T (fun _ => Spec.Oracle.first T) (zipArgs T) true).call sc st rf op r e).elem +
      ((Test.moved T (fun _ => Spec.Oracle.first T) (zipArgs T) true).call sc st rf op r e).sub *
      ((Test.moved T (fun _ => Spec.Oracle.first T) (zipArgs T) true).call sc st rf op r e).vs1Size *
      ((Test.moved T (fun _ => Spec.Oracle.first T) (zipArgs T) true).call sc st rf op r e).numOps) / 2 = j := hidx
  have helem : ((Test.moved T (fun _ => Spec.Oracle.first T) (zipArgs T) true).call sc st rf op r e).elem = e := rfl
  have hs2 := second_ok T hb (fun _ => Spec.Oracle.first T) (zipArgs T) true sc st rf op r e j hbd
  have hv1 : ((Test.moved T (fun _ => Spec.Oracle.first T) (zipArgs T) true).call sc st rf op r e).vs1 j =
    .ok ⟨T, Spec.groupElem T.signed T.bits rf 8 j⟩ := vals1 T (fun _ => Spec.Oracle.first T) (zipArgs T) true st rf j hbd
  by_cases hodd : e % 2 = 1
  · have g : zipArg T ((testInst sc st).operands (.zip T)) sc.isSome (numOpsOf st) rf' op e r =
        .ok ⟨T, op2Elem T sc rf j⟩ := by
      simp only [zipArg, hodd, if_true, hj]
      exact read2_low T hb _ sc st rf rf' j hlow hbd
    refine ⟨_, (⟨T, op2Elem T sc rf j⟩, ⟨T, 0⟩), op2Elem_inRange T _ _ _, g, ⟨_, g⟩, ?_, rfl⟩
    generalize hcall : (Test.moved T (fun _ => Spec.Oracle.first T) (zipArgs T) true).call sc st rf op r e = c at *
    rw [helem] at hsrc
    simp only [zipArgs, helem, hodd, if_true, hsrc, hs2, Outcome.ok_bind]
  · have g : zipArg T ((testInst sc st).operands (.zip T)) sc.isSome (numOpsOf st) rf' op e r =
        .ok ⟨T, Spec.groupElem T.signed T.bits rf 8 j⟩ := by
      simp only [zipArg, hodd, if_false, hj]
      exact read_low T rf rf' 8 (numOpsOf st * 1) j (by omega) hlow (by simpa using hbd)
    refine ⟨_, (⟨T, Spec.groupElem T.signed T.bits rf 8 j⟩, ⟨T, 0⟩), groupElem_inRange T _ _ _, g, ⟨_, g⟩, ?_, rfl⟩
    generalize hcall : (Test.moved T (fun _ => Spec.Oracle.first T) (zipArgs T) true).call sc st rf op r e = c at *
    rw [helem] at hsrc
    simp only [zipArgs, helem, hodd, if_false, hsrc, hv1, Outcome.ok_bind]

end Verif.Proofs
