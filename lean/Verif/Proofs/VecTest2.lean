import Verif.Proofs.VecTest

/-! # The vector test: packed, narrowing and moving instructions -/

namespace Verif.Proofs
open Verif Verif.Model CVal Spec.VecTest

theorem packed_agrees (k : WidK) (T : CTy) (hb : T.bits ≤ 16) (O : CVal → CVal → Outcome CVal)
    (hO : ∀ a b, T.InRange a → T.InRange b → k.fn T.wide ⟨T, a⟩ ⟨T, b⟩ = O ⟨T, a⟩ ⟨T, b⟩)
    (hty : ∀ x y, Typed T.wide (O x y)) (st : Bool) (rf : VRF) :
    Agrees (.packed k T.wide T) (Test.common T.wide T T (fun _ => O) true false) none st rf := by
  obtain ⟨hz, hl, -, -⟩ := wide_size T hb
  have hdiv : T.size / T.size = 1 := Nat.div_self (size_pos T)
  have hN : numOpsOf st ≤ 4 := by cases st <;> decide
  have hp := size_pos T
  have hw : (Test.common T.wide T T (fun _ => O) true false).widenDst = false := by simp [Test.common]
  have hreg : (Test.common T.wide T T (fun _ => O) true false).regsPerOp = 1 := by simp [Test.regsPerOp, hw]
  have hk : regsPerOpOf true false T.wide T = 1 := by simp [regsPerOpOf]
  refine agrees_of _ _ none st rf ((testInst none st).operands (.packed k T.wide T))
    (packedArg1 T.wide T ((testInst none st).operands (.packed k T.wide T)))
    (packedArg2 T.wide T ((testInst none st).operands (.packed k T.wide T))) (noDest (k.fn T.wide)) rfl
    (by rw [hreg]; simp [VInst.operands, VOp.dstFactor, VInst.n, testInst])
    (by rw [hreg]; simp only [VOp.run, VOp.exec, hk]; rfl) (fun _ => hty) ?_
  rw [hreg]
  intro op hop rf' hrf r hr e he
  have : r = 0 := by omega
  subst this
  have hlow := below_untouched hrf
  have hs : ((testInst none st).operands (.packed k T.wide T)).src0 = .vec 8 (numOpsOf st * 1) := rfl
  unfold laneF Test.expected
  simp only [packedArg1, packedArg2, hs]
  rw [readElt_values, values_stable T rf rf' 8 _ (by omega) hlow]
  simp only [Test.common, commonArgs, commonIdx1, Test.call, Test.vs1Values, hdiv, sizeIn_eq, numOps_eq, kVs1]
  simp only [Bool.not_true, Bool.and_false, Bool.or_false, Bool.false_eq_true, if_false, if_true, Bool.false_and,
    Option.isSome_none, Nat.reduceEqDiff, Nat.add_zero, Nat.reduceEqDiff, show ¬ ((1 : Nat) = 2) by decide,
    show ¬ ((1 : Nat) = 4) by decide]
  generalize op * lanesOf T + e * T.wide.size / T.size = i
  rcases values_cases T rf 8 (lanesOf T * (numOpsOf st * 1)) i with ⟨a, ha, e1⟩ | e1
  · simp only [e1, Outcome.ok_bind]
    rcases values_cases T rf 8 (lanesOf T * (numOpsOf st * 1)) (i + 1) with ⟨b, hb', e2⟩ | e2
    · simp only [e2, Outcome.ok_bind]
      rw [cast_self T ⟨T, b⟩ rfl hb']
      exact hO a b ha hb'
    · simp only [e2, Outcome.ub_bind]
  · simp only [e1, Outcome.ub_bind]

theorem srans_agrees (round : Bool) (Td Ts : CTy) (hd : Td.bits ≤ 16)
    (hT : Ts.size = 2 * Td.size ∨ Ts.size = 4 * Td.size) (O : CVal → CVal → Outcome CVal)
    (hO : ∀ a b, Ts.InRange a → Td.InRange b → vSrans round Td Ts ⟨Ts, a⟩ ⟨Td, b⟩ = O ⟨Ts, a⟩ ⟨Td, b⟩)
    (hty : ∀ x y, Typed Td (O x y)) (sc : Option (BitVec 32)) (st : Bool) (rf : VRF) :
    Agrees (.srans round Td Ts) (Test.common Td Ts Td (fun _ => O) false false) sc st rf := by
  have hp := size_pos Td
  have hp' := size_pos Ts
  have hN : numOpsOf st ≤ 4 := by cases st <;> decide
  have hw : (Test.common Td Ts Td (fun _ => O) false false).widenDst = false := by simp [Test.common]
  have hreg : (Test.common Td Ts Td (fun _ => O) false false).regsPerOp = 1 := by simp [Test.regsPerOp, hw]
  have hk : regsPerOpOf false false Td Td = 1 := by simp [regsPerOpOf]
  have hsc : (testInst sc st).scalar = sc.isSome := by cases sc <;> rfl
  have hdiv : Ts.size / Td.size = (if Ts.size = 4 * Td.size then 4 else 2) := by
    rcases hT with h | h
    · rw [if_neg (by omega), h, Nat.mul_div_cancel _ hp]
    · rw [if_pos h, h, Nat.mul_div_cancel _ hp]
  have hfac : Ts.size / Td.size = 2 ∨ Ts.size / Td.size = 4 := by
    rw [hdiv]; split <;> simp
  refine agrees_of _ _ sc st rf ((testInst sc st).operands (.srans round Td Ts))
    (sransArg1 Td Ts ((testInst sc st).operands (.srans round Td Ts)) (numOpsOf st))
    (commonArg2 Td Td ((testInst sc st).operands (.srans round Td Ts)) sc.isSome) (noDest (vSrans round Td Ts)) rfl
    (by rw [hreg]; simp [VInst.operands, VOp.dstFactor, VInst.n, testInst])
    (by rw [hreg]; simp only [VOp.run, VOp.exec, hk, hsc]; rfl) (fun _ => hty) ?_
  rw [hreg]
  intro op hop rf' hrf r hr e he
  have : r = 0 := by omega
  subst this
  simp only [Test.common] at he
  have i2 : commonIdx2 ((Test.common Td Ts Td (fun _ => O) false false).call sc st rf op 0 e) =
      op * lanesOf Td + e := by
    simp [commonIdx2, Test.call, Test.common, sizeIn_eq]
  refine common_lane (.srans round Td Ts) Td Ts Td (by omega) _ _ sc st rf rf' _ _ 1 op 0 e hop (by omega) hrf
    (by rcases hfac with h | h <;> rw [h] <;> omega) ?_ ?_ ?_ (fun _ a b _ ha hb' => hO a b ha hb')
  · have hs : ((testInst sc st).operands (.srans round Td Ts)).src0 = .vec 8 (numOpsOf st * (Ts.size / Td.size)) := by
      rw [hdiv]; rfl
    unfold sransArg1
    rw [hs]
    congr 1
    rcases hfac with h | h <;> simp [commonIdx1, Test.call, Test.common, sizeIn_eq, numOps_eq, h]
  · rw [i2]
    unfold commonArg2
    rw [Nat.mul_div_cancel _ hp]; rfl
  · rw [i2]; exact flat_lt hop he

/-! ## Movers -/

/-- One lane of an instruction that moves an element. -/
theorem move_lane (T : CTy) (t : Test) (ht : t.Vd = T) (sc : Option (BitVec 32)) (st : Bool) (rf rf' : VRF)
    (g1 g2 : Getter) (op r e : Nat) (a : Int) (ha : T.InRange a) (y : CVal × CVal)
    (h1 : g1 rf' op e r = .ok ⟨T, a⟩) (h2 : ∃ c, g2 rf' op e r = .ok c)
    (h3 : t.getter (t.call sc st rf op r e) = .ok y)
    (ho : ∀ d, t.operation d y.1 y.2 = .ok (cast T ⟨T, a⟩)) :
    laneF t.Vd 32 (numOpsOf st) g1 g2 (noDest vFst) rf' op e r = t.expected sc st rf op r e := by
  obtain ⟨c, h2⟩ := h2
  unfold laneF Test.expected
  rw [h1, h2, h3]
  simp only [Outcome.ok_bind, ho]
  rw [cast_self T ⟨T, a⟩ rfl ha]
  rfl

theorem vals1 (T : CTy) (op' : CVal → CVal → CVal → Outcome CVal) (g : ArgsGetter) (w : Bool) (st : Bool) (rf : VRF)
    (j : Nat) (h : j < lanesOf T * numOpsOf st) :
    (Test.moved T op' g w).vs1Values st rf j = .ok ⟨T, Spec.groupElem T.signed T.bits rf 8 j⟩ := by
  have hdiv : T.size / T.size = 1 := Nat.div_self (size_pos T)
  simp only [Test.vs1Values, Test.moved, values, hdiv, sizeIn_eq, numOps_eq, Nat.mul_one, h, if_true]
  rfl

theorem vals2 (T : CTy) (op' : CVal → CVal → CVal → Outcome CVal) (g : ArgsGetter) (w : Bool) (st : Bool) (rf : VRF)
    (j : Nat) (h : j < lanesOf T * numOpsOf st) :
    (Test.moved T op' g w).vs2Values none st rf j = .ok ⟨T, Spec.groupElem T.signed T.bits rf 24 j⟩ := by
  simp only [Test.vs2Values, Test.moved, values, sizeIn_eq, numOps_eq, h, if_true]
  rfl

theorem read_low (T : CTy) (rf rf' : VRF) (b n j : Nat) (hb : b + n ≤ 32) (hlow : ∀ q < 32, rf' q = rf q)
    (h : j < lanesOf T * n) : readElt T rf' (.vec b n) j = .ok ⟨T, Spec.groupElem T.signed T.bits rf b j⟩ := by
  rw [readElt_values, values_stable T rf rf' b n hb hlow, values, if_pos h]

/-- The second operand. -/
def op2Elem (T : CTy) (sc : Option (BitVec 32)) (rf : VRF) (j : Nat) : Int :=
  match sc with
  | none => Spec.groupElem T.signed T.bits rf 24 j
  | some x => Spec.scalarElem T.signed T.bits x

theorem op2Elem_inRange (T : CTy) (sc : Option (BitVec 32)) (rf : VRF) (j : Nat) : T.InRange (op2Elem T sc rf j) := by
  cases sc with
  | none => exact groupElem_inRange T _ _ _
  | some x => exact scalarElem_inRange T x

theorem read2_low (T : CTy) (hb : T.bits ≤ 32) (v : VOp) (sc : Option (BitVec 32)) (st : Bool) (rf rf' : VRF) (j : Nat)
    (hlow : ∀ q < 32, rf' q = rf q) (h : j < lanesOf T * numOpsOf st) :
    readElt T rf' ((testInst sc st).operands v).src1 (if sc.isSome then 0 else j) = .ok ⟨T, op2Elem T sc rf j⟩ := by
  have hN : numOpsOf st ≤ 4 := by cases st <;> decide
  cases sc with
  | none => exact read_low T rf rf' 24 (numOpsOf st) j (by omega) hlow h
  | some x => exact readElt_scalar T hb rf' x

theorem second_ok (T : CTy) (hb : T.bits ≤ 32) (op' : CVal → CVal → CVal → Outcome CVal) (g : ArgsGetter) (w : Bool)
    (sc : Option (BitVec 32)) (st : Bool) (rf : VRF) (op r e j : Nat) (h : j < lanesOf T * numOpsOf st) :
    second ((Test.moved T op' g w).call sc st rf op r e) j = .ok ⟨T, op2Elem T sc rf j⟩ := by
  cases sc with
  | none =>
    simp only [second, Test.call, Option.isSome_none, Bool.false_eq_true, if_false]
    exact vals2 T op' g w st rf j h
  | some x =>
    simp only [second, Test.call, Option.isSome_some, if_true]
    exact congrArg Outcome.ok (rs2_ok T hb x)

theorem mvp_agrees (T : CTy) (hb : T.bits ≤ 32) (sc : Option (BitVec 32)) (st : Bool) (rf : VRF) :
    Agrees (.mvp T) (Test.common T T T (fun _ => Spec.Oracle.first T) false true) sc st rf := by
  have hp := size_pos T
  have hdiv : T.size / T.size = 1 := Nat.div_self hp
  have hN : numOpsOf st ≤ 4 := by cases st <;> decide
  have hsc : (testInst sc st).scalar = sc.isSome := by cases sc <;> rfl
  have hreg : (Test.common T T T (fun _ => Spec.Oracle.first T) false true).regsPerOp = 2 := by
    simp [Test.regsPerOp, Test.common]
  have hk : regsPerOpOf false true T T = 2 := by simp [regsPerOpOf]
  refine agrees_of _ _ sc st rf ((testInst sc st).operands (.mvp T))
    (mvpArg T ((testInst sc st).operands (.mvp T)) sc.isSome (numOpsOf st))
    (mvpArg T ((testInst sc st).operands (.mvp T)) sc.isSome (numOpsOf st)) (noDest vFst) rfl
    (by rw [hreg]; simp [VInst.operands, VOp.dstFactor, VInst.n, testInst]; omega)
    (by rw [hreg]; simp only [VOp.run, VOp.exec, hk, hsc]; rfl) (fun _ _ _ => typed_cast T _) ?_
  rw [hreg]
  intro op hop rf' hrf r hr e he
  simp only [Test.common] at he
  have hlow := below_untouched hrf
  have hfl := flat_lt hop he
  have hc : ¬ (T.size = T.size ∧ T.size = 2 * T.size) := by omega
  have r1 : commonArg1 T T T ((testInst sc st).operands (.mvp T)) (numOpsOf st) rf' op e 0 =
      .ok ⟨T, Spec.groupElem T.signed T.bits rf 8 (op * lanesOf T + e)⟩ := by
    unfold commonArg1
    rw [if_neg hc, Nat.mul_div_cancel _ hp]
    exact read_low T rf rf' 8 (numOpsOf st * 1) _ (by omega) hlow (by simpa using hfl)
  have r2 : commonArg2 T T ((testInst sc st).operands (.mvp T)) sc.isSome rf' op e 0 =
      .ok ⟨T, op2Elem T sc rf (op * lanesOf T + e)⟩ := by
    unfold commonArg2
    rw [Nat.mul_div_cancel _ hp, Nat.add_zero]
    exact read2_low T hb _ sc st rf rf' _ hlow hfl
  have hg : mvpArg T ((testInst sc st).operands (.mvp T)) sc.isSome (numOpsOf st) rf' op e r =
      .ok ⟨T, if r = 0 then Spec.groupElem T.signed T.bits rf 8 (op * lanesOf T + e)
        else op2Elem T sc rf (op * lanesOf T + e)⟩ := by
    unfold mvpArg
    split <;> assumption
  have hin := groupElem_inRange T rf 8 (op * lanesOf T + e)
  have hin2 := op2Elem_inRange T sc rf (op * lanesOf T + e)
  refine move_lane T _ rfl sc st rf rf' _ _ op r e _ ?_
    (⟨T, if r = 0 then Spec.groupElem T.signed T.bits rf 8 (op * lanesOf T + e)
        else op2Elem T sc rf (op * lanesOf T + e)⟩, ⟨T, op2Elem T sc rf (op * lanesOf T + e)⟩) hg ⟨_, hg⟩ ?_ (fun _ => rfl)
  · split
    · exact hin
    · exact hin2
  · have v1 : (Test.common T T T (fun _ => Spec.Oracle.first T) false true).vs1Values st rf (op * lanesOf T + e) =
        .ok ⟨T, Spec.groupElem T.signed T.bits rf 8 (op * lanesOf T + e)⟩ :=
      vals1 T (fun _ => Spec.Oracle.first T) (fun _ => .ub) false st rf _ hfl
    have hv2 : ∃ b, (Test.common T T T (fun _ => Spec.Oracle.first T) false true).vs2Values sc st rf (op * lanesOf T + e) = .ok b ∧
        (if sc.isSome then rs2Value T sc else cast T b) = ⟨T, op2Elem T sc rf (op * lanesOf T + e)⟩ := by
      cases sc with
      | none =>
        refine ⟨_, vals2 T (fun _ => Spec.Oracle.first T) (fun _ => .ub) false st rf _ hfl, ?_⟩
        simp only [Option.isSome_none, Bool.false_eq_true, if_false]
        exact cast_self T _ rfl (groupElem_inRange T _ _ _)
      | some x =>
        refine ⟨⟨T, 0⟩, ?_, ?_⟩
        · simp only [Test.vs2Values, values, Test.common, sizeIn_eq, numOps_eq, hfl, if_true]
          rfl
        · simp only [Option.isSome_some, if_true]
          exact rs2_ok T hb x
    obtain ⟨b, v2, hb2⟩ := hv2
    have i1 : commonIdx1 T T ((Test.common T T T (fun _ => Spec.Oracle.first T) false true).call sc st rf op r e) =
        op * lanesOf T + e := by
      simp [commonIdx1, Test.call, Test.common, sizeIn_eq, Nat.mul_div_cancel _ hp]
    have i2 : commonIdx2 ((Test.common T T T (fun _ => Spec.Oracle.first T) false true).call sc st rf op r e) =
        op * lanesOf T + e := by
      simp [commonIdx2, Test.call, Test.common, sizeIn_eq]
    have hge : (Test.common T T T (fun _ => Spec.Oracle.first T) false true).getter = commonArgs T T T := rfl
    rw [hge]
    unfold commonArgs
    rw [i1, i2]
    have e1 : ((Test.common T T T (fun _ => Spec.Oracle.first T) false true).call sc st rf op r e).vs1 (op * lanesOf T + e) =
      .ok ⟨T, Spec.groupElem T.signed T.bits rf 8 (op * lanesOf T + e)⟩ := v1
    have e2 : (if ((Test.common T T T (fun _ => Spec.Oracle.first T) false true).call sc st rf op r e).halftype = true then
        ((Test.common T T T (fun _ => Spec.Oracle.first T) false true).call sc st rf op r e).vs1 (op * lanesOf T + e + 1) else
        ((Test.common T T T (fun _ => Spec.Oracle.first T) false true).call sc st rf op r e).vs2 (op * lanesOf T + e)) = .ok b := v2
    rw [e1, Outcome.ok_bind, e2, Outcome.ok_bind]
    have e3 : (if ((Test.common T T T (fun _ => Spec.Oracle.first T) false true).call sc st rf op r e).scalar = true then
        ((Test.common T T T (fun _ => Spec.Oracle.first T) false true).call sc st rf op r e).rs2 else cast T b) =
        ⟨T, op2Elem T sc rf (op * lanesOf T + e)⟩ := hb2
    rw [e3]
    have hr2 : r = 0 ∨ r = 1 := by omega
    rcases hr2 with rfl | rfl
    · rfl
    · have hc1 := cast_self T ⟨T, op2Elem T sc rf (op * lanesOf T + e)⟩ rfl hin2
      simp [Test.call, Test.common, hc1]

end Verif.Proofs
