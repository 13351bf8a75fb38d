import Verif.Proofs.Oracle
import Verif.Proofs.OracleShift
import Verif.Proofs.OracleMul
import Verif.Proofs.Total
import Verif.Spec.VecTest

/-! # The harness of the vector test and the execution of the instruction -/

namespace Verif.Proofs
open Verif Verif.Model CVal

/-- A prefix of the iterations succeeds only if every lane of these iterations does. -/
theorem opLoop_lanes (Td : CTy) (o : Operands) (N k : Nat) (g1 g2 : Getter)
    (f : CVal → CVal → CVal → Outcome CVal) (rf : VRF) (E : Nat → Nat → Nat → Outcome CVal)
    (h : ∀ op < N, ∀ rf' : VRF, (∀ q, Untouched o.vd N k op q → rf' q = rf q) →
      ∀ r < k, ∀ e < lanesOf Td, laneF Td o.vd N g1 g2 f rf' op e r = E op r e) :
    ∀ n ≤ N, ∀ rf', (List.range n).foldlM (opStep Td o N k g1 g2 f) rf = .ok rf' →
      (∀ op < n, ∀ r < k, ∀ e < lanesOf Td, ∃ c, E op r e = .ok c) ∧
      (∀ q, Untouched o.vd N k n q → rf' q = rf q) := by
  intro n
  induction n with
  | zero =>
    intro _ rf' h
    simp at h
    exact ⟨fun op hop => absurd hop (by omega), fun q _ => by rw [h]⟩
  | succ n ih =>
    intro hn rf' hrun
    rw [List.range_succ, List.foldlM_append] at hrun
    cases h1 : (List.range n).foldlM (opStep Td o N k g1 g2 f) rf with
    | ub => rw [h1] at hrun; simp at hrun
    | abort => rw [h1] at hrun; simp at hrun
    | ok rf1 =>
      rw [h1, Outcome.ok_bind, List.foldlM_cons] at hrun
      obtain ⟨p1, u1⟩ := ih (by omega) rf1 h1
      have hl := h n (by omega) rf1 u1
      unfold opStep at hrun
      split at hrun
      · cases h2 : (List.range k).mapM (opReg Td o.vd N g1 g2 f rf1 n) with
        | ub => rw [h2] at hrun; simp at hrun
        | abort => rw [h2] at hrun; simp at hrun
        | ok bs =>
          rw [h2] at hrun
          simp at hrun
          obtain ⟨hlen, hget⟩ := Outcome.mapM_eq_ok _ _ _ h2
          refine ⟨?_, ?_⟩
          · intro op hop r hr e he
            by_cases hon : op = n
            · subst hon
              have hreg := hget r (by simpa using hr) (by rw [hlen]; simpa using hr)
              rw [List.getElem_range] at hreg
              have hu : opReg Td o.vd N g1 g2 f rf1 op r =
                ((List.range (lanesOf Td)).mapM (fun e => laneF Td o.vd N g1 g2 f rf1 op e r) >>=
                  fun l => .ok (packReg Td l)) := rfl
              rw [hu] at hreg
              cases h3 : (List.range (lanesOf Td)).mapM (fun e => laneF Td o.vd N g1 g2 f rf1 op e r) with
              | ub => rw [h3] at hreg; simp at hreg
              | abort => rw [h3] at hreg; simp at hreg
              | ok l =>
                obtain ⟨hl3, hg3⟩ := Outcome.mapM_eq_ok _ _ _ h3
                have := hg3 e (by simpa using he) (by rw [hl3]; simpa using he)
                rw [List.getElem_range] at this
                rw [hl r hr e he] at this
                exact ⟨_, this⟩
            · exact p1 op (by omega) r hr e he
          · intro q hq
            rw [← hrun]
            rw [(submitAll_get N (by omega) bs rf1 (o.vd + n)).2]
            · exact u1 q (fun o' ho' r hr => hq o' (by omega) r hr)
            · intro i hi heq
              apply hq n (by omega) i (by simpa [hlen] using hi)
              simp only [dreg]; omega
      · simp at hrun

/-- An instruction whose lanes are given by `E`, whatever earlier iterations have written, succeeds
exactly if every `E` does, and then the destination lanes are these values. -/
theorem binOp_exact (Td : CTy) (o : Operands) (N k : Nat) (g1 g2 : Getter)
    (f : CVal → CVal → CVal → Outcome CVal) (rf : VRF) (E : Nat → Nat → Nat → Outcome CVal)
    (hlen : N + (k - 1) * N ≤ o.vdLen)
    (hty : ∀ op r e c, E op r e = .ok c → c.ty = Td ∧ Td.InRange c.v)
    (h : ∀ op < N, ∀ rf' : VRF, (∀ q, Untouched o.vd N k op q → rf' q = rf q) →
      ∀ r < k, ∀ e < lanesOf Td, laneF Td o.vd N g1 g2 f rf' op e r = E op r e) :
    ((∀ op < N, ∀ r < k, ∀ e < lanesOf Td, ∃ c, E op r e = .ok c) →
      ∃ rf', binOp Td o N k g1 g2 f rf = .ok rf') ∧
    (∀ rf', binOp Td o N k g1 g2 f rf = .ok rf' → ∀ op < N, ∀ r < k, ∀ e < lanesOf Td,
      E op r e = .ok ⟨Td, Spec.lane Td.signed Td.bits (rf' (dreg o.vd N op r)) e⟩) := by
  have key : (∀ op < N, ∀ r < k, ∀ e < lanesOf Td, ∃ c, E op r e = .ok c) →
      ∃ rf', binOp Td o N k g1 g2 f rf = .ok rf' ∧ ∀ op < N, ∀ r < k, ∀ e < lanesOf Td,
        E op r e = .ok ⟨Td, Spec.lane Td.signed Td.bits (rf' (dreg o.vd N op r)) e⟩ := by
    intro hd
    obtain ⟨rf', h1, h2, -⟩ := binOp_ok Td o N k g1 g2 f rf (fun op r e c => E op r e = .ok ⟨Td, c⟩) hlen
      (by
        intro op hop rf1 hrf r hr e he
        obtain ⟨c, hc⟩ := hd op hop r hr e he
        obtain ⟨ht, hin⟩ := hty _ _ _ _ hc
        have hc' : E op r e = .ok ⟨Td, c.v⟩ := by rw [hc, ← ht]
        exact ⟨c.v, by rw [h op hop rf1 hrf r hr e he, hc'], hin, hc'⟩)
    exact ⟨rf', h1, h2⟩
  refine ⟨fun hd => ?_, fun rf' hrun => ?_⟩
  · obtain ⟨rf', h1, -⟩ := key hd; exact ⟨rf', h1⟩
  · obtain ⟨rf1, h1, h2⟩ := key (opLoop_lanes Td o N k g1 g2 f rf E h N le_rfl rf' hrun).1
    rw [hrun] at h1
    obtain rfl := Outcome.ok.inj h1
    exact h2

/-! ## Types of the operations -/

/-- The outcome, if there is a value, is a value of type `T` in its range. -/
def Typed (T : CTy) (o : Outcome CVal) : Prop := ∀ c, o = .ok c → c.ty = T ∧ T.InRange c.v

theorem typed_bind {α : Type} (T : CTy) (m : Outcome α) (f : α → Outcome CVal) (h : ∀ x, Typed T (f x)) :
    Typed T (m >>= f) := by
  intro c hc
  cases m with
  | ok x => exact h x c hc
  | ub => simp at hc
  | abort => simp at hc

theorem typed_cast (T : CTy) (x : CVal) : Typed T (.ok (cast T x)) := by
  intro c hc
  obtain rfl := Outcome.ok.inj hc
  exact ⟨rfl, wrap_inRange T _⟩

theorem typed_ofBool (T : CTy) (b : Bool) : Typed T (.ok (ofBool T b)) := by
  intro c hc
  obtain rfl := Outcome.ok.inj hc
  refine ⟨rfl, ?_⟩
  cases b <;> cases T <;> decide

theorem typed_ok (T : CTy) (x : CVal) (h : x.ty = T) (hr : T.InRange x.v) : Typed T (.ok x) := by
  intro c hc
  obtain rfl := Outcome.ok.inj hc
  exact ⟨h, hr⟩

theorem typed_ite (T : CTy) (p : Prop) [Decidable p] (a b : Outcome CVal) (ha : Typed T a) (hb : Typed T b) :
    Typed T (if p then a else b) := by
  split
  · exact ha
  · exact hb

theorem tmin_inRange (T : CTy) : T.InRange (tmin T).v := by cases T <;> decide +kernel
theorem tmax_inRange (T : CTy) : T.InRange (tmax T).v := by cases T <;> decide +kernel

theorem typed_leadLoop (T : CTy) (n : Int) (vs : CVal) : ∀ k count, Typed T (Spec.Oracle.leadLoop T n vs k count)
  | 0, _ => typed_cast T _
  | k + 1, count => by
    unfold Spec.Oracle.leadLoop
    refine typed_bind T _ _ fun a => typed_bind T _ _ fun b => typed_ite T _ _ _ (typed_cast T _) (typed_leadLoop T n vs k _)

macro "typed_tac" : tactic => `(tactic| repeat' (first
  | exact typed_cast _ _ | exact typed_ofBool _ _ | exact typed_leadLoop _ _ _ _ _
  | exact typed_ok _ _ rfl (tmin_inRange _) | exact typed_ok _ _ rfl (tmax_inRange _)
  | refine typed_bind _ _ _ fun _ => ?_
  | refine typed_ite _ _ _ _ ?_ ?_))

/-! ## Operand values -/

open Spec.VecTest

/-- The instruction built by the test: `v32`, `v8`, and `v24` or the value of the scalar register. -/
def testInst (scalar : Option (BitVec 32)) (strip : Bool) : VInst where
  vd := kVd
  vs1 := kVs1
  op2 := match scalar with | none => .vreg kVs2 | some x => .scalar x
  strip := strip

theorem sizeIn_eq (T : CTy) : sizeIn T = lanesOf T := rfl
theorem numOps_eq (b : Bool) : numOps b = numOpsOf b := rfl

theorem readElt_values (T : CTy) (rf : VRF) (b n : Nat) :
    readElt T rf (.vec b n) = values (lanesOf T * n) (fun i => ⟨T, Spec.groupElem T.signed T.bits rf b i⟩) := by
  funext i
  unfold values
  by_cases h : i < lanesOf T * n
  · rw [if_pos h, readElt_group T rf b n i (by rw [Nat.mul_comm]; exact h)]
  · rw [if_neg h]
    simp only [readElt]
    rw [if_neg]
    rw [Nat.div_lt_iff_lt_mul (lanesOf_pos T), Nat.mul_comm]; exact h

theorem values_stable (T : CTy) (rf rf' : VRF) (b n : Nat) (hb : b + n ≤ 32) (h : ∀ q < 32, rf' q = rf q) :
    values (lanesOf T * n) (fun i => (⟨T, Spec.groupElem T.signed T.bits rf' b i⟩ : CVal)) =
      values (lanesOf T * n) (fun i => ⟨T, Spec.groupElem T.signed T.bits rf b i⟩) := by
  funext i
  unfold values
  split
  · rename_i hi
    have : i / lanesOf T < n := (Nat.div_lt_iff_lt_mul (lanesOf_pos T)).2 (by rw [Nat.mul_comm]; exact hi)
    simp only [Spec.groupElem]
    rw [← lanesOf_eq, h _ (by omega)]
  · rfl

theorem values_cases (T : CTy) (rf : VRF) (b n i : Nat) :
    (∃ a, T.InRange a ∧ values n (fun i => (⟨T, Spec.groupElem T.signed T.bits rf b i⟩ : CVal)) i = .ok ⟨T, a⟩) ∨
      values n (fun i => (⟨T, Spec.groupElem T.signed T.bits rf b i⟩ : CVal)) i = .ub := by
  unfold values
  split
  · exact .inl ⟨_, groupElem_inRange T rf b i, rfl⟩
  · exact .inr rfl

theorem rs2_ok (T : CTy) (hb : T.bits ≤ 32) (x : BitVec 32) :
    rs2Value T (some x) = ⟨T, Spec.scalarElem T.signed T.bits x⟩ := by
  have h := readElt_scalar T hb (fun _ => 0) x
  simp only [readElt, if_true] at h
  rw [← Outcome.ok.inj h]
  unfold rs2Value ofBits
  have hx := x.isLt
  cases T <;> first | (exfalso; revert hb; decide) | skip
  all_goals
    simp only [CVal.cast, CTy.wrap, CTy.signed, CTy.bits, Bool.false_eq_true, if_false, if_true]
    refine congrArg (CVal.mk _) ?_
    omega

theorem below_untouched {N k op : Nat} {rf rf' : VRF} (h : ∀ q, Untouched 32 N k op q → rf' q = rf q) :
    ∀ q < 32, rf' q = rf q := by
  intro q hq
  apply h
  intro o _ r _
  simp only [dreg]; omega

theorem dest_untouched {vd N k op r : Nat} (hop : op < N) : Untouched vd N k op (dreg vd N op r) := by
  intro o ho r' _ heq
  have := (dreg_inj hop (by omega) heq).1
  omega

/-- Lanes of an instruction with the common getters, against the expected value of the test. -/
theorem common_lane (v : VOp) (Td T1 T2 : CTy) (hb2 : T2.bits ≤ 32) (f op' : CVal → CVal → CVal → Outcome CVal)
    (sc : Option (BitVec 32)) (st : Bool) (rf rf' : VRF) (g1 g2 : Getter) (k op r e : Nat)
    (hop : op < numOpsOf st) (hr : r < k)
    (hrf : ∀ q, Untouched 32 (numOpsOf st) k op q → rf' q = rf q)
    (hfac : numOpsOf st * (T1.size / T2.size) ≤ 16)
    (h1 : g1 rf' op e r = readElt T1 rf' (.vec 8 (numOpsOf st * (T1.size / T2.size)))
      (commonIdx1 Td T1 ((Test.common Td T1 T2 op' false false).call sc st rf op r e)))
    (h2 : g2 rf' op e r = readElt T2 rf' ((testInst sc st).operands v).src1 (if sc.isSome then 0 else
      commonIdx2 ((Test.common Td T1 T2 op' false false).call sc st rf op r e)))
    (hbound : commonIdx2 ((Test.common Td T1 T2 op' false false).call sc st rf op r e) < lanesOf T2 * numOpsOf st)
    (hf : ∀ d a b, Td.InRange d → T1.InRange a → T2.InRange b →
      f ⟨Td, d⟩ ⟨T1, a⟩ ⟨T2, b⟩ = op' ⟨Td, d⟩ ⟨T1, a⟩ ⟨T2, b⟩) :
    laneF Td 32 (numOpsOf st) g1 g2 f rf' op e r = (Test.common Td T1 T2 op' false false).expected sc st rf op r e := by
  have hN : numOpsOf st ≤ 4 := by cases st <;> decide
  have hlow := below_untouched hrf
  have hd : rf' (32 + (op + r * numOpsOf st)) = rf (destReg st op r) := by
    have := hrf _ (dest_untouched (vd := 32) (r := r) hop)
    simp only [dreg] at this
    rw [this, destReg, numOps_eq, kVd, Nat.add_comm op]
  unfold laneF Test.expected
  rw [h1, h2, regElt_lane, hd]
  simp only [Test.common, commonArgs, Test.call, Test.vs1Values, Test.vs2Values]
  simp only [Test.common, commonArgs, Test.call, Test.vs1Values, Test.vs2Values] at hbound
  simp only [Bool.false_eq_true, if_false, Bool.false_and, sizeIn_eq, numOps_eq]
  simp only [sizeIn_eq, numOps_eq] at hbound
  rw [readElt_values, values_stable T1 rf rf' 8 _ (by omega) hlow]
  generalize commonIdx1 Td T1 _ = i1
  generalize hi2 : commonIdx2 _ = i2
  rw [hi2] at hbound
  rcases values_cases T1 rf 8 (lanesOf T1 * (numOpsOf st * (T1.size / T2.size))) i1 with ⟨a, ha, e1⟩ | e1
  · simp only [kVs1, e1, Outcome.ok_bind]
    cases sc with
    | none =>
      have hs : ((testInst none st).operands v).src1 = .vec 24 (numOpsOf st) := rfl
      simp only [hs, Option.isSome_none, Bool.false_eq_true, if_false]
      rw [readElt_values, values_stable T2 rf rf' 24 _ (by omega) hlow]
      rcases values_cases T2 rf 24 (lanesOf T2 * numOpsOf st) i2 with ⟨b, hb, e2⟩ | e2
      · simp only [kVs2, e2, Outcome.ok_bind]
        rw [cast_self T2 ⟨T2, b⟩ rfl hb]
        exact hf _ _ _ (lane_inRange Td _ _) ha hb
      · simp only [kVs2, e2, Outcome.ub_bind]
    | some x =>
      have hs : ((testInst (some x) st).operands v).src1 = .scalar x := rfl
      simp only [hs, Option.isSome_some, if_true]
      rw [readElt_scalar T2 hb2 rf' x]
      simp only [values, hbound, if_true, Outcome.ok_bind, rs2_ok T2 hb2 x]
      exact hf _ _ _ (lane_inRange Td _ _) ha (scalarElem_inRange T2 x)
  · simp only [kVs1, e1, Outcome.ub_bind]

/-- The instruction has a result exactly if the expected values of the test are all defined, and its
result then passes the test. -/
def Agrees (v : VOp) (t : Test) (sc : Option (BitVec 32)) (st : Bool) (rf : VRF) : Prop :=
  (t.Defined sc st rf → ∃ rf', v.run (testInst sc st) rf = .ok rf') ∧
  (∀ rf', v.run (testInst sc st) rf = .ok rf' → t.Passes sc st rf rf')

theorem agrees_of (v : VOp) (t : Test) (sc : Option (BitVec 32)) (st : Bool) (rf : VRF) (o : Operands)
    (g1 g2 : Getter) (f : CVal → CVal → CVal → Outcome CVal) (hvd : o.vd = 32)
    (hlen : numOpsOf st + (t.regsPerOp - 1) * numOpsOf st ≤ o.vdLen)
    (hrun : v.run (testInst sc st) rf = binOp t.Vd o (numOpsOf st) t.regsPerOp g1 g2 f rf)
    (hty : ∀ d a b, Typed t.Vd (t.operation d a b))
    (h : ∀ op < numOpsOf st, ∀ rf' : VRF, (∀ q, Untouched 32 (numOpsOf st) t.regsPerOp op q → rf' q = rf q) →
      ∀ r < t.regsPerOp, ∀ e < lanesOf t.Vd,
        laneF t.Vd 32 (numOpsOf st) g1 g2 f rf' op e r = t.expected sc st rf op r e) :
    Agrees v t sc st rf := by
  obtain ⟨k1, k2⟩ := binOp_exact t.Vd o (numOpsOf st) t.regsPerOp g1 g2 f rf (t.expected sc st rf) hlen
    (fun op r e c hc => typed_bind t.Vd _ _ (fun x => hty _ _ _) c hc) (by rw [hvd]; exact h)
  refine ⟨fun hd => ?_, fun rf' hr => ?_⟩
  · rw [hrun]; exact k1 hd
  · rw [hrun] at hr
    intro op hop r hr' e he
    have := k2 rf' hr op hop r hr' e he
    rw [hvd] at this
    rw [this, destReg, numOps_eq, kVd, dreg, Nat.add_comm op]

theorem size_pos (T : CTy) : 0 < T.size := by cases T <;> decide

theorem bin_agrees (k : BinK) (T : CTy) (hb : T.bits ≤ 32) (O : CVal → CVal → Outcome CVal)
    (hO : ∀ a b, T.InRange a → T.InRange b → k.fn T ⟨T, a⟩ ⟨T, b⟩ = O ⟨T, a⟩ ⟨T, b⟩)
    (hty : ∀ x y, Typed (k.dstTy T) (O x y)) (sc : Option (BitVec 32)) (st : Bool) (rf : VRF) :
    Agrees (.bin k T) (Test.common (k.dstTy T) T T (fun _ => O) false false) sc st rf := by
  obtain ⟨hz, -⟩ := dstTy_size k T
  have hl : lanesOf (k.dstTy T) = lanesOf T := by rw [lanesOf, lanesOf, hz]
  have hw : (Test.common (k.dstTy T) T T (fun _ => O) false false).widenDst = false := by
    simp [Test.common, hz]
  have hreg : (Test.common (k.dstTy T) T T (fun _ => O) false false).regsPerOp = 1 := by
    simp [Test.regsPerOp, hw]
  have hk : regsPerOpOf false false (k.dstTy T) T = 1 := by simp [regsPerOpOf, hz]
  have hdiv : T.size / T.size = 1 := Nat.div_self (size_pos T)
  have hN : numOpsOf st ≤ 4 := by cases st <;> decide
  have hp := size_pos T
  have hsc : (testInst sc st).scalar = sc.isSome := by cases sc <;> rfl
  refine agrees_of _ _ sc st rf ((testInst sc st).operands (.bin k T))
    (commonArg1 (k.dstTy T) T T ((testInst sc st).operands (.bin k T)) (numOpsOf st))
    (commonArg2 (k.dstTy T) T ((testInst sc st).operands (.bin k T)) sc.isSome) (noDest (k.fn T)) rfl
    (by rw [hreg]; simp [VInst.operands, VOp.dstFactor, VInst.n, testInst])
    (by rw [hreg]; simp only [VOp.run, VOp.exec, hk, hsc]; rfl) (fun _ => hty) ?_
  rw [hreg]
  intro op hop rf' hrf r hr e he
  have : r = 0 := by omega
  subst this
  simp only [Test.common] at he
  rw [hl] at he
  have i1 : commonIdx1 (k.dstTy T) T ((Test.common (k.dstTy T) T T (fun _ => O) false false).call sc st rf op 0 e) =
      op * lanesOf T + e := by
    simp [commonIdx1, Test.call, Test.common, hz, sizeIn_eq, hdiv, Nat.mul_div_cancel _ hp]
  have i2 : commonIdx2 ((Test.common (k.dstTy T) T T (fun _ => O) false false).call sc st rf op 0 e) =
      op * lanesOf T + e := by
    simp [commonIdx2, Test.call, Test.common, hz, sizeIn_eq]
  refine common_lane (.bin k T) (k.dstTy T) T T hb _ _ sc st rf rf' _ _ 1 op 0 e hop (by omega) hrf
    (by rw [hdiv]; omega) ?_ ?_ ?_ ?_
  · rw [i1, hdiv]
    have hc : ¬ ((k.dstTy T).size = T.size ∧ T.size = 2 * T.size) := by omega
    simp only [commonArg1]
    rw [if_neg hc, hz, Nat.mul_div_cancel _ hp]; rfl
  · rw [i2]
    simp only [commonArg2]
    rw [hz, Nat.mul_div_cancel _ hp]; rfl
  · rw [i2]
    calc op * lanesOf T + e < op * lanesOf T + lanesOf T := by omega
      _ = (op + 1) * lanesOf T := by ring
      _ ≤ numOpsOf st * lanesOf T := Nat.mul_le_mul_right _ hop
      _ = _ := Nat.mul_comm _ _
  · intro d a b _ ha hb'
    exact hO a b ha hb'

theorem flat_lt {op e N L : Nat} (hop : op < N) (he : e < L) : op * L + e < L * N := by
  calc op * L + e < op * L + L := by omega
    _ = (op + 1) * L := by ring
    _ ≤ N * L := Nat.mul_le_mul_right _ hop
    _ = _ := Nat.mul_comm _ _

theorem ter_agrees (k : TerK) (T : CTy) (hb : T.bits ≤ 32) (O : CVal → CVal → CVal → Outcome CVal)
    (hO : ∀ d a b, T.InRange d → T.InRange a → T.InRange b → k.fn T ⟨T, d⟩ ⟨T, a⟩ ⟨T, b⟩ = O ⟨T, d⟩ ⟨T, a⟩ ⟨T, b⟩)
    (hty : ∀ d x y, Typed T (O d x y)) (sc : Option (BitVec 32)) (st : Bool) (rf : VRF) :
    Agrees (.ter k T) (Test.common T T T O false false) sc st rf := by
  have hw : (Test.common T T T O false false).widenDst = false := by simp [Test.common]
  have hreg : (Test.common T T T O false false).regsPerOp = 1 := by simp [Test.regsPerOp, hw]
  have hk : regsPerOpOf false false T T = 1 := by simp [regsPerOpOf]
  have hdiv : T.size / T.size = 1 := Nat.div_self (size_pos T)
  have hN : numOpsOf st ≤ 4 := by cases st <;> decide
  have hp := size_pos T
  have hsc : (testInst sc st).scalar = sc.isSome := by cases sc <;> rfl
  refine agrees_of _ _ sc st rf ((testInst sc st).operands (.ter k T))
    (commonArg1 T T T ((testInst sc st).operands (.ter k T)) (numOpsOf st))
    (commonArg2 T T ((testInst sc st).operands (.ter k T)) sc.isSome) (k.fn T) rfl
    (by rw [hreg]; simp [VInst.operands, VOp.dstFactor, VInst.n, testInst])
    (by rw [hreg]; simp only [VOp.run, VOp.exec, hk, hsc]; rfl) hty ?_
  rw [hreg]
  intro op hop rf' hrf r hr e he
  have : r = 0 := by omega
  subst this
  simp only [Test.common] at he
  have i1 : commonIdx1 T T ((Test.common T T T O false false).call sc st rf op 0 e) = op * lanesOf T + e := by
    simp [commonIdx1, Test.call, Test.common, sizeIn_eq, hdiv, Nat.mul_div_cancel _ hp]
  have i2 : commonIdx2 ((Test.common T T T O false false).call sc st rf op 0 e) = op * lanesOf T + e := by
    simp [commonIdx2, Test.call, Test.common, sizeIn_eq]
  refine common_lane (.ter k T) T T T hb _ _ sc st rf rf' _ _ 1 op 0 e hop (by omega) hrf
    (by rw [hdiv]; omega) ?_ ?_ ?_ hO
  · rw [i1, hdiv]
    have hc : ¬ (T.size = T.size ∧ T.size = 2 * T.size) := by omega
    unfold commonArg1
    rw [if_neg hc, Nat.mul_div_cancel _ hp]; rfl
  · rw [i2]
    simp only [commonArg2]
    rw [Nat.mul_div_cancel _ hp]; rfl
  · rw [i2]; exact flat_lt hop he

theorem un_agrees (k : UnK) (T : CTy) (O : CVal → Outcome CVal)
    (hO : ∀ a, T.InRange a → k.fn T ⟨T, a⟩ = O ⟨T, a⟩) (hty : ∀ x, Typed T (O x)) (st : Bool) (rf : VRF) :
    Agrees (.un k T) (Test.unary T O) none st rf := by
  have hdiv : T.size / T.size = 1 := Nat.div_self (size_pos T)
  have hN : numOpsOf st ≤ 4 := by cases st <;> decide
  have hp := size_pos T
  refine agrees_of _ _ none st rf ((testInst none st).operands (.un k T))
    (commonArg1 T T T ((testInst none st).operands (.un k T)) (numOpsOf st))
    (commonArg1 T T T ((testInst none st).operands (.un k T)) (numOpsOf st)) (fun _ a _ => k.fn T a) rfl
    (by simp [VInst.operands, VOp.dstFactor, VInst.n, testInst, Test.regsPerOp, Test.unary]) rfl (fun _ x _ => hty x) ?_
  intro op hop rf' hrf r hr e he
  have : r = 0 := by simp only [Test.regsPerOp, Test.unary, Bool.false_eq_true, if_false] at hr; omega
  subst this
  have hlow := below_untouched hrf
  have hc : ¬ (True ∧ T.size = 2 * T.size) := by omega
  have hs : ((testInst none st).operands (.un k T)).src0 = .vec 8 (numOpsOf st * 1) := rfl
  unfold laneF Test.expected
  simp only [commonArg1, if_neg hc, hs, Test.unary, unaryArgs, Test.call, Test.vs1Values, hdiv, sizeIn_eq, numOps_eq, Nat.add_zero]
  rw [readElt_values, values_stable T rf rf' 8 _ (by omega) hlow]
  rcases values_cases T rf 8 (lanesOf T * (numOpsOf st * 1)) (op * lanesOf T + e * T.size / T.size) with ⟨a, ha, e1⟩ | e1
  · simp only [kVs1, e1, Outcome.ok_bind]; exact hO a ha
  · simp only [kVs1, e1, Outcome.ub_bind]

theorem wide_test (T : CTy) (hb : T.bits ≤ 16) (V : CTy) (O : CVal → CVal → Outcome CVal) :
    (Test.common T.wide V T (fun _ => O) false false).widenDst = true ∧
    (Test.common T.wide V T (fun _ => O) false false).regsPerOp = 2 ∧ regsPerOpOf false false T.wide T = 2 := by
  obtain ⟨h1, -⟩ := wide_size T hb
  have := size_pos T
  have h : T.wide.size > T.size := by omega
  refine ⟨?_, ?_, ?_⟩
  · simp [Test.common, h]
  · simp [Test.regsPerOp, Test.common, h]
  · simp [regsPerOpOf, h]

theorem wid_agrees (k : WidK) (T : CTy) (hb : T.bits ≤ 16) (O : CVal → CVal → Outcome CVal)
    (hO : ∀ a b, T.InRange a → T.InRange b → k.fn T.wide ⟨T, a⟩ ⟨T, b⟩ = O ⟨T, a⟩ ⟨T, b⟩)
    (hty : ∀ x y, Typed T.wide (O x y)) (sc : Option (BitVec 32)) (st : Bool) (rf : VRF) :
    Agrees (.wid k T.wide T) (Test.common T.wide T T (fun _ => O) false false) sc st rf := by
  obtain ⟨hw, hreg, hk⟩ := wide_test T hb T O
  obtain ⟨hz, hl, -, -⟩ := wide_size T hb
  have hdiv : T.size / T.size = 1 := Nat.div_self (size_pos T)
  have hN : numOpsOf st ≤ 4 := by cases st <;> decide
  have hp := size_pos T
  have hsc : (testInst sc st).scalar = sc.isSome := by cases sc <;> rfl
  refine agrees_of _ _ sc st rf ((testInst sc st).operands (.wid k T.wide T))
    (commonArg1 T.wide T T ((testInst sc st).operands (.wid k T.wide T)) (numOpsOf st))
    (commonArg2 T.wide T ((testInst sc st).operands (.wid k T.wide T)) sc.isSome) (noDest (k.fn T.wide)) rfl
    (by rw [hreg]; simp [VInst.operands, VOp.dstFactor, VInst.n, testInst]; omega)
    (by rw [hreg]; simp only [VOp.run, VOp.exec, hk, hsc]; rfl) (fun _ => hty) ?_
  rw [hreg]
  intro op hop rf' hrf r hr e he
  simp only [Test.common] at he
  have hm : e * T.wide.size / T.size = e * 2 := by
    rw [hz, ← Nat.mul_assoc, Nat.mul_div_cancel _ hp]
  have i1 : commonIdx1 T.wide T ((Test.common T.wide T T (fun _ => O) false false).call sc st rf op r e) =
      op * lanesOf T + (e * 2 + r) := by
    simp only [Test.common] at hw
    simp only [commonIdx1, Test.call, Test.common, sizeIn_eq, hdiv, hw, hm]
    simp; omega
  have i2 : commonIdx2 ((Test.common T.wide T T (fun _ => O) false false).call sc st rf op r e) =
      op * lanesOf T + (e * 2 + r) := by
    simp only [Test.common] at hw
    simp only [commonIdx2, Test.call, Test.common, sizeIn_eq, hw]
    simp; omega
  refine common_lane (.wid k T.wide T) T.wide T T (by omega) _ _ sc st rf rf' _ _ 2 op r e hop (by omega) hrf
    (by rw [hdiv]; omega) ?_ ?_ ?_ (fun _ a b _ ha hb' => hO a b ha hb')
  · rw [i1, hdiv]
    have hc : ¬ (T.wide.size = T.size ∧ T.size = 2 * T.size) := by omega
    simp only [commonArg1]
    rw [if_neg hc, hm, Nat.add_assoc]; rfl
  · rw [i2]
    simp only [commonArg2]
    rw [hm, Nat.add_assoc]
  · rw [i2]; exact flat_lt hop (by omega)

theorem acc_agrees (T : CTy) (hb : T.bits ≤ 16) (O : CVal → CVal → Outcome CVal)
    (hO : ∀ a b, T.wide.InRange a → T.InRange b → vAcc T.wide ⟨T.wide, a⟩ ⟨T, b⟩ = O ⟨T.wide, a⟩ ⟨T, b⟩)
    (hty : ∀ x y, Typed T.wide (O x y)) (sc : Option (BitVec 32)) (st : Bool) (rf : VRF) :
    Agrees (.acc T.wide T) (Test.common T.wide T.wide T (fun _ => O) false false) sc st rf := by
  obtain ⟨hw, hreg, hk⟩ := wide_test T hb T.wide O
  obtain ⟨hz, hl, -, -⟩ := wide_size T hb
  have hp := size_pos T
  have hp' := size_pos T.wide
  have hdiv : T.wide.size / T.size = 2 := by rw [hz, Nat.mul_div_cancel _ hp]
  have hN : numOpsOf st ≤ 4 := by cases st <;> decide
  have hsc : (testInst sc st).scalar = sc.isSome := by cases sc <;> rfl
  refine agrees_of _ _ sc st rf ((testInst sc st).operands (.acc T.wide T))
    (commonArg1 T.wide T.wide T ((testInst sc st).operands (.acc T.wide T)) (numOpsOf st))
    (commonArg2 T.wide T ((testInst sc st).operands (.acc T.wide T)) sc.isSome) (noDest (vAcc T.wide)) rfl
    (by rw [hreg]; simp [VInst.operands, VOp.dstFactor, VInst.n, testInst]; omega)
    (by rw [hreg]; simp only [VOp.run, VOp.exec, hk, hsc]; rfl) (fun _ => hty) ?_
  rw [hreg]
  intro op hop rf' hrf r hr e he
  simp only [Test.common] at he
  have hm : e * T.wide.size / T.size = e * 2 := by
    rw [hz, ← Nat.mul_assoc, Nat.mul_div_cancel _ hp]
  have i1 : commonIdx1 T.wide T.wide ((Test.common T.wide T.wide T (fun _ => O) false false).call sc st rf op r e) =
      op * lanesOf T.wide + e + numOpsOf st * lanesOf T.wide * r := by
    simp only [Test.common] at hw
    simp only [commonIdx1, Test.call, Test.common, sizeIn_eq, hdiv, hw, Nat.mul_div_cancel _ hp', numOps_eq]
    simp
  have i2 : commonIdx2 ((Test.common T.wide T.wide T (fun _ => O) false false).call sc st rf op r e) =
      op * lanesOf T + (e * 2 + r) := by
    simp only [Test.common] at hw
    simp only [commonIdx2, Test.call, Test.common, sizeIn_eq, hw]
    simp; omega
  refine common_lane (.acc T.wide T) T.wide T.wide T (by omega) _ _ sc st rf rf' _ _ 2 op r e hop (by omega) hrf
    (by rw [hdiv]; omega) ?_ ?_ ?_ (fun _ a b _ ha hb' => hO a b ha hb')
  · rw [i1, hdiv]
    have hc : T.wide.size = T.wide.size ∧ T.wide.size = 2 * T.size := ⟨rfl, hz⟩
    unfold commonArg1
    rw [if_pos hc, Nat.mul_div_cancel _ hp']; rfl
  · rw [i2]
    simp only [commonArg2]
    rw [hm, Nat.add_assoc]
  · rw [i2]; exact flat_lt hop (by omega)

end Verif.Proofs
