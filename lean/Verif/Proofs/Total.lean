import Verif.Proofs.PropAux
import Mathlib.Tactic.IntervalCases

/-! # Vector instructions that cannot fail, whatever the operands and their overlap -/

namespace Verif.Proofs
open Verif Verif.Model CVal

/-- The operation is defined for all lane values: the types are those for which the element function
has no undefined case. -/
def binWf (k : BinK) (T : CTy) : Bool :=
  decide (T.bits ≤ 32) && match k with
    | .adds | .subs | .dmulh .. => T.signed
    | .addsu | .subsu | .and | .or | .xor | .rev | .ror | .sll => !T.signed
    | .shift _ => decide (T.bits ≤ 16)
    | _ => true

def opWf (op : VOp) (sc st : Bool) : Bool :=
  match op with
  | .bin k T => binWf k T
  | .ter k T => decide (T.bits ≤ 32) && match k with | .macc | .madd => T.signed | _ => true
  | .un k T => decide (T.bits ≤ 32) && match k with
    | .not => decide (T = .i32) | .clb | .clz | .cpop => !T.signed | .mv => true
  | .wid _ Td Ts | .acc Td Ts | .packed _ Td Ts => decide (Ts.bits ≤ 16) && decide (Td = Ts.wide)
  | .srans _ Td Ts => decide (Td.signed = Ts.signed) && decide (Td.bits ≤ 16) && decide (Ts.bits ≤ 32) &&
    (decide (Ts.bits = 2 * Td.bits) || decide (Ts.bits = 4 * Td.bits))
  | .mvp T | .evn T | .odd T | .evnodd T | .zip T => decide (T.bits ≤ 32)
  | .sliden h i T | .slidep h i T => decide (T.bits ≤ 32) && decide (i ≤ 4) && !sc && (!h || st)

theorem binOp_total (Td : CTy) (o : Operands) (N k : Nat) (g1 g2 : Getter)
    (f : CVal → CVal → CVal → Outcome CVal) (rf : VRF) (hlen : N + (k - 1) * N ≤ o.vdLen)
    (h : ∀ rf : VRF, ∀ op < N, ∀ r < k, ∀ e < lanesOf Td, ∃ c, laneF Td o.vd N g1 g2 f rf op e r = .ok c) :
    ∃ rf', binOp Td o N k g1 g2 f rf = .ok rf' := by
  have step : ∀ rf : VRF, ∀ op < N, ∃ rf', opStep Td o N k g1 g2 f rf op = .ok rf' := by
    intro rf op hop
    have hreg : ∀ r ∈ List.range k, ∃ b, opReg Td o.vd N g1 g2 f rf op r = .ok b ∧ True := by
      intro r hr
      obtain ⟨l, hl, -⟩ := mapM_exists (fun e => laneF Td o.vd N g1 g2 f rf op e r) (fun _ _ => True)
        (List.range (lanesOf Td)) (fun e he => by
          obtain ⟨c, hc⟩ := h rf op hop r (by simpa using hr) e (by simpa using he)
          exact ⟨c, hc, trivial⟩)
      refine ⟨packReg Td l, ?_, trivial⟩
      unfold opReg
      unfold laneF at hl
      rw [hl]; rfl
    obtain ⟨bs, hbs, -⟩ := mapM_exists _ _ (List.range k) hreg
    refine ⟨submitAll rf (o.vd + op) N bs, ?_⟩
    unfold opStep
    rw [if_pos (by omega), hbs]; rfl
  unfold binOp
  suffices H : ∀ l : List Nat, (∀ op ∈ l, op < N) → ∀ rf, ∃ rf', l.foldlM (opStep Td o N k g1 g2 f) rf = .ok rf' by
    exact H _ (by simp) rf
  intro l
  induction l with
  | nil => intro _ rf; exact ⟨rf, rfl⟩
  | cons a l ih =>
    intro hl rf
    obtain ⟨rf1, h1⟩ := step rf a (hl a (by simp))
    obtain ⟨rf2, h2⟩ := ih (fun op hop => hl op (by simp [hop])) rf1
    exact ⟨rf2, by rw [List.foldlM_cons, h1]; exact h2⟩

theorem readElt_total (T : CTy) (rf : VRF) (b n i : Nat) (h : i < n * lanesOf T) :
    ∃ c, readElt T rf (.vec b n) i = .ok ⟨T, c⟩ ∧ T.InRange c := by
  refine ⟨Spec.lane T.signed T.bits (rf (b + i / lanesOf T)) (i % lanesOf T), ?_, lane_inRange T _ _⟩
  apply readElt_vec T rf b n _ _ i (by rw [Nat.mul_comm]; exact (Nat.div_add_mod _ _).symm) (Nat.mod_lt _ (lanesOf_pos T))
  rw [Nat.div_lt_iff_lt_mul (lanesOf_pos T)]; exact h

theorem readElt2_total (T : CTy) (hb : T.bits ≤ 32) (i : VInst) (v : VOp) (rf : VRF) (j : Nat)
    (h : j < i.n * lanesOf T) (hs : i.scalar = true → j = 0) :
    ∃ c, readElt T rf (i.operands v).src1 j = .ok ⟨T, c⟩ ∧ T.InRange c := by
  unfold VInst.scalar at hs
  unfold VInst.operands
  cases ho : i.op2 with
  | vreg b => exact readElt_total T rf b i.n j h
  | scalar x =>
    rw [ho] at hs
    have : j = 0 := hs rfl
    subst this
    exact ⟨_, readElt_scalar T hb rf x, scalarElem_inRange T x⟩

theorem bin_elem (k : BinK) (T : CTy) (h : binWf k T = true) (a b : Int) (ha : T.InRange a) (hb' : T.InRange b) :
    ∃ c, k.fn T ⟨T, a⟩ ⟨T, b⟩ = .ok c := by
  simp only [binWf, Bool.and_eq_true, decide_eq_true_eq] at h
  obtain ⟨hb, h⟩ := h
  have bitw : T.signed = false → ∀ g : CVal → CVal → Outcome CVal,
      (∀ x y : BitVec T.bits, ∃ z, g ⟨T, x.toNat⟩ ⟨T, y.toNat⟩ = .ok z) → ∃ z, g ⟨T, a⟩ ⟨T, b⟩ = .ok z := by
    intro hs g hg
    obtain ⟨x, rfl⟩ := exists_bits T hs a ha
    obtain ⟨y, rfl⟩ := exists_bits T hs b hb'
    exact hg x y
  cases k with
  | add => exact ⟨_, vAdd_ok T hb a b ha hb'⟩
  | sub => exact ⟨_, vSub_ok T hb a b ha hb'⟩
  | rsub => exact ⟨_, vRSub_ok T hb a b ha hb'⟩
  | eq => exact ⟨_, vEq_ok T a b ha hb'⟩
  | ne => exact ⟨_, vNe_ok T a b ha hb'⟩
  | lt => exact ⟨_, vLt_ok T a b ha hb'⟩
  | le => exact ⟨_, vLe_ok T a b ha hb'⟩
  | gt => exact ⟨_, vGt_ok T a b ha hb'⟩
  | ge => exact ⟨_, vGe_ok T a b ha hb'⟩
  | absd => exact ⟨_, vAbsd_ok T hb a b ha hb'⟩
  | max => exact ⟨_, vMax_ok T a b ha hb'⟩
  | min => exact ⟨_, vMin_ok T a b ha hb'⟩
  | adds => exact ⟨_, vAdds_ok T h hb a b ha hb'⟩
  | addsu => exact ⟨_, vAddsu_ok T (by simpa using h) hb a b ha hb'⟩
  | subs => exact ⟨_, vSubs_ok T h hb a b ha hb'⟩
  | subsu => exact ⟨_, vSubsu_ok T (by simpa using h) hb a b ha hb'⟩
  | hadd r => exact ⟨_, vHadd_ok r T hb a b ha hb'⟩
  | hsub r => exact ⟨_, vHsub_ok r T hb a b ha hb'⟩
  | and => exact bitw (by simpa using h) _ fun x y => ⟨_, vAnd_ok T (by simpa using h) hb x y⟩
  | or => exact bitw (by simpa using h) _ fun x y => ⟨_, vOr_ok T (by simpa using h) hb x y⟩
  | xor => exact bitw (by simpa using h) _ fun x y => ⟨_, vXor_ok T (by simpa using h) hb x y⟩
  | rev => exact bitw (by simpa using h) _ fun x y => (vRev_ok T (by simpa using h) hb x y).imp' _ fun _ h => h.1
  | ror => exact bitw (by simpa using h) _ fun x y => (vRor_ok T (by simpa using h) hb x y).imp' _ fun _ h => h.1
  | sll => exact ⟨_, vSll_ok T (by simpa using h) hb a b ha⟩
  | sra => exact ⟨_, vSrx_ok T hb a b ha⟩
  | srl => exact ⟨_, vSrx_ok T hb a b ha⟩
  | shift r =>
    refine ⟨_, vShift_ok r T hb a b ha hb' ?_⟩
    rintro ⟨-, h2⟩
    have := specWrap_inRange T.toS b
    rw [show T.toS.signed = true by cases T <;> rfl, show T.toS.bits = T.bits by cases T <;> rfl, h2] at this
    have h16 : T.bits ≤ 16 := by simpa using h
    revert this h16
    cases T <;> decide
  | mul => exact ⟨_, vMul_ok T hb a b ha hb'⟩
  | muls => exact ⟨_, vMuls_ok T hb a b ha hb'⟩
  | mulh r => exact ⟨_, vMulh_ok r T hb a b ha hb'⟩
  | dmulh r rn => exact ⟨_, vDmulh_ok r rn T h hb a b ha hb'⟩

theorem ter_elem (k : TerK) (T : CTy) (hb : T.bits ≤ 32) (h : k = .macc ∨ k = .madd → T.signed = true) (d a b : Int)
    (hd : T.InRange d) (ha : T.InRange a) (hb' : T.InRange b) : ∃ c, k.fn T ⟨T, d⟩ ⟨T, a⟩ ⟨T, b⟩ = .ok c := by
  cases k with
  | add3 => exact ⟨_, vAdd3_ok T hb d a b hd ha hb'⟩
  | macc => exact ⟨_, vMacc_ok T (h (by simp)) hb d a b hd ha hb'⟩
  | madd => exact ⟨_, vMadd_ok T (h (by simp)) hb d a b hd ha hb'⟩
  | sel => exact ⟨_, vSel_ok T hb d a b⟩

theorem un_elem (k : UnK) (T : CTy) (h : opWf (.un k T) false false = true) (a : Int) (ha : T.InRange a) :
    ∃ c, k.fn T ⟨T, a⟩ = .ok c := by
  simp only [opWf, Bool.and_eq_true, decide_eq_true_eq] at h
  obtain ⟨hb, h⟩ := h
  have bitw : T.signed = false → ∃ x, x < 2 ^ T.bits ∧ a = (x : Nat) := by
    intro hs
    obtain ⟨x, rfl⟩ := exists_bits T hs a ha
    exact ⟨x.toNat, x.isLt, rfl⟩
  cases k with
  | not =>
    have : T = .i32 := by simpa using h
    subst this
    refine ⟨_, by
      have := vNot_ok (BitVec.ofInt 32 a)
      rw [show (BitVec.ofInt 32 a).toInt = a from ?_] at this
      · exact this
      · have h1 := ha.1; have h2 := ha.2
        rw [BitVec.toInt_ofInt]
        exact Int.bmod_eq_of_le (show (-2147483648 : Int) ≤ a from h1) (by
          have : a ≤ 2147483647 := h2
          omega)⟩
  | clb => obtain ⟨x, hx, rfl⟩ := bitw (by simpa using h); exact (vClb_ok T (by simpa using h) hb x hx).imp' _ fun _ h => h.1
  | clz => obtain ⟨x, hx, rfl⟩ := bitw (by simpa using h); exact (vClz_ok T hb x).imp' _ fun _ h => h.1
  | cpop => obtain ⟨x, hx, rfl⟩ := bitw (by simpa using h); exact ⟨_, vCpop_ok T hb x⟩
  | mv => exact ⟨_, rfl⟩

theorem wid_elem (k : WidK) (T : CTy) (hb : T.bits ≤ 16) (a b : Int) (ha : T.InRange a) (hb' : T.InRange b) :
    ∃ c, k.fn T.wide ⟨T, a⟩ ⟨T, b⟩ = .ok c := by
  cases k with
  | addw => exact ⟨_, vAddw_ok T hb a b ha hb'⟩
  | subw => exact ⟨_, vSubw_ok T hb a b ha hb'⟩
  | mulw => exact ⟨_, vMulw_ok T hb a b ha hb'⟩

/-- Two reads followed by a function defined on their results. -/
theorem laneF_total {Td T1 T2 : CTy} {vd N : Nat} {g1 g2 : Getter} {f : CVal → CVal → CVal → Outcome CVal} {rf : VRF}
    {op e r : Nat} (h1 : ∃ c, g1 rf op e r = .ok ⟨T1, c⟩ ∧ T1.InRange c) (h2 : ∃ c, g2 rf op e r = .ok ⟨T2, c⟩ ∧ T2.InRange c)
    (hf : ∀ d a b, Td.InRange d → T1.InRange a → T2.InRange b → ∃ c, f ⟨Td, d⟩ ⟨T1, a⟩ ⟨T2, b⟩ = .ok c) :
    ∃ c, laneF Td vd N g1 g2 f rf op e r = .ok c := by
  obtain ⟨a, ha, ra⟩ := h1
  obtain ⟨b, hb, rb⟩ := h2
  unfold laneF
  rw [ha, Outcome.ok_bind, hb, Outcome.ok_bind]
  exact hf _ a b (by rw [← wrap_spec]; exact specWrap_inRange Td _) ra rb

theorem n_cases (i : VInst) : i.n = 1 ∧ i.strip = false ∨ i.n = 4 ∧ i.strip = true := by
  unfold VInst.n numOpsOf; cases i.strip <;> simp

theorem evnOdd_total (T : CTy) (hb : T.bits ≤ 32) (i : VInst) (v : VOp) (hv : v.src1Factor = 1) (rf : VRF) (op e r odd : Nat)
    (hop : op < i.n) (he : e < lanesOf T) (ho : odd < 2) :
    ∃ c, evnOddArg T (i.operands v) i.scalar i.n odd rf op e r = .ok ⟨T, c⟩ ∧ T.InRange c := by
  have h1 : (op + 1) * lanesOf T ≤ i.n * lanesOf T := Nat.mul_le_mul_right _ hop
  rw [Nat.add_mul] at h1
  have hm := Nat.mul_comm (lanesOf T) i.n
  unfold evnOddArg
  split
  · exact readElt_total T rf i.vs1 _ _ (by rw [hv, Nat.mul_one]; omega)
  · apply readElt2_total T hb i v rf
    · split <;> omega
    · intro hs; simp [hs]

/-- Every well-formed operation completes, for all operand fields and register contents. -/
theorem run_total (v : VOp) (i : VInst) (h : opWf v i.scalar i.strip = true) (rf : VRF) :
    ∃ rf', v.run i rf = .ok rf' := by
  have hn := n_cases i
  have R1 : ∀ (T : CTy) (rf : VRF) (j : Nat), j < i.n * v.src1Factor * lanesOf T →
      ∃ c, readElt T rf (i.operands v).src0 j = .ok ⟨T, c⟩ ∧ T.InRange c :=
    fun T rf j hj => readElt_total T rf i.vs1 _ j hj
  have R2 : ∀ (T : CTy) (hb : T.bits ≤ 32) (rf : VRF) (j : Nat), j < i.n * lanesOf T →
      ∃ c, readElt T rf (i.operands v).src1 (if i.scalar = true then 0 else j) = .ok ⟨T, c⟩ ∧ T.InRange c := by
    intro T hb rf j hj
    apply readElt2_total T hb i v rf
    · split <;> omega
    · intro hs; simp [hs]
  have hN : numOpsOf i.strip = i.n := rfl
  have hvd : (i.operands v).vdLen = i.n * v.dstFactor := rfl
  unfold VOp.run
  cases v with
  | bin k T =>
    simp only [VOp.exec, hN]
    have hb : T.bits ≤ 32 := by
      simp only [opWf, binWf, Bool.and_eq_true, decide_eq_true_eq] at h; exact h.1
    have hsz : (k.dstTy T).size = T.size := (dstTy_size k T).1
    have hk : regsPerOpOf false false (k.dstTy T) T = 1 := by simp [regsPerOpOf, hsz]
    rw [hk]
    apply binOp_total
    · rw [hvd]; simp [VOp.dstFactor]
    · intro rf op hop r hr e he
      have hr : r = 0 := by omega
      subst hr
      have he' : e < lanesOf T := by rw [lanesOf, hsz] at he; exact he
      apply laneF_total ⟨_, commonArg1_eq _ T hsz _ i.vs1 _ _ rfl rf op e he' (by simpa [VOp.src1Factor] using hop), lane_inRange T _ _⟩
        ⟨_, commonArg2_eq _ T hsz hb i _ rf op e he' hop, elem_inRange T _ _ _ _⟩
      exact fun d a b _ ha hb => bin_elem k T h a b ha hb
  | ter k T =>
    simp only [VOp.exec, hN]
    simp only [opWf, Bool.and_eq_true, decide_eq_true_eq] at h
    have hk : regsPerOpOf false false T T = 1 := by simp [regsPerOpOf]
    rw [hk]
    apply binOp_total
    · rw [hvd]; simp [VOp.dstFactor]
    · intro rf op hop r hr e he
      have hr : r = 0 := by omega
      subst hr
      apply laneF_total ⟨_, commonArg1_eq _ T rfl _ i.vs1 _ _ rfl rf op e he (by simpa [VOp.src1Factor] using hop), lane_inRange T _ _⟩
        ⟨_, commonArg2_eq _ T rfl h.1 i _ rf op e he hop, elem_inRange T _ _ _ _⟩
      refine fun d a b hd ha hb => ter_elem k T h.1 ?_ d a b hd ha hb
      rintro (rfl | rfl) <;> exact h.2
  | un k T =>
    simp only [VOp.exec, hN]
    apply binOp_total
    · rw [hvd]; simp [VOp.dstFactor]
    · intro rf op hop r hr e he
      have hr : r = 0 := by omega
      subst hr
      have h1 := commonArg1_eq T T rfl (i.operands (.un k T)) i.vs1 _ i.n rfl rf op e he (by simpa [VOp.src1Factor] using hop)
      apply laneF_total ⟨_, h1, lane_inRange T _ _⟩ ⟨_, h1, lane_inRange T _ _⟩
      exact fun d a b _ ha _ => un_elem k T h a ha
  | wid k Td T =>
    simp only [opWf, Bool.and_eq_true, decide_eq_true_eq] at h
    obtain ⟨hb, rfl⟩ := h
    simp only [VOp.exec, hN]
    have hk : regsPerOpOf false false T.wide T = 2 := by revert hb; cases T <;> decide
    rw [hk]
    apply binOp_total
    · rw [hvd]; simp [VOp.dstFactor]; omega
    · intro rf op hop r hr e he
      refine laneF_total (T1 := T) (T2 := T) ?_ ?_ (fun d a b _ ha hb' => wid_elem k T hb a b ha hb')
      · unfold commonArg1
        apply R1
        revert he hb
        rcases hn with ⟨hn, -⟩ | ⟨hn, -⟩ <;> rw [hn] at hop ⊢ <;> cases T <;>
          simp [VOp.src1Factor, lanesOf, CTy.size, CTy.wide, CTy.bits] <;> omega
      · unfold commonArg2
        apply R2 T (by omega)
        revert he hb
        rcases hn with ⟨hn, -⟩ | ⟨hn, -⟩ <;> rw [hn] at hop ⊢ <;> cases T <;>
          simp [VOp.src1Factor, lanesOf, CTy.size, CTy.wide, CTy.bits] <;> omega
  | acc Td T =>
    simp only [opWf, Bool.and_eq_true, decide_eq_true_eq] at h
    obtain ⟨hb, rfl⟩ := h
    simp only [VOp.exec, hN]
    have hk : regsPerOpOf false false T.wide T = 2 := by revert hb; cases T <;> decide
    rw [hk]
    apply binOp_total
    · rw [hvd]; simp [VOp.dstFactor]; omega
    · intro rf op hop r hr e he
      refine laneF_total (T1 := T.wide) (T2 := T) ?_ ?_ (fun d a b _ ha hb' => ⟨_, vAcc_ok T hb a b ha hb'⟩)
      · unfold commonArg1
        apply R1
        revert he hb
        rcases hn with ⟨hn, -⟩ | ⟨hn, -⟩ <;> rw [hn] at hop ⊢ <;> cases T <;>
          simp [VOp.src1Factor, lanesOf, CTy.size, CTy.wide, CTy.bits] <;> omega
      · unfold commonArg2
        apply R2 T (by omega)
        revert he hb
        rcases hn with ⟨hn, -⟩ | ⟨hn, -⟩ <;> rw [hn] at hop ⊢ <;> cases T <;>
          simp [VOp.src1Factor, lanesOf, CTy.size, CTy.wide, CTy.bits] <;> omega
  | packed k Td T =>
    simp only [opWf, Bool.and_eq_true, decide_eq_true_eq] at h
    obtain ⟨hb, rfl⟩ := h
    simp only [VOp.exec, hN]
    have hk : regsPerOpOf true false T.wide T = 1 := by simp [regsPerOpOf]
    rw [hk]
    apply binOp_total
    · rw [hvd]; simp [VOp.dstFactor]
    · intro rf op hop r hr e he
      refine laneF_total (T1 := T) (T2 := T) ?_ ?_ (fun d a b _ ha hb' => wid_elem k T hb a b ha hb')
      · unfold packedArg1
        apply R1
        revert he hb
        rcases hn with ⟨hn, -⟩ | ⟨hn, -⟩ <;> rw [hn] at hop ⊢ <;> cases T <;>
          simp [VOp.src1Factor, lanesOf, CTy.size, CTy.wide, CTy.bits] <;> omega
      · unfold packedArg2
        apply R1
        revert he hb
        rcases hn with ⟨hn, -⟩ | ⟨hn, -⟩ <;> rw [hn] at hop ⊢ <;> cases T <;>
          simp [VOp.src1Factor, lanesOf, CTy.size, CTy.wide, CTy.bits] <;> omega
  | srans rd Td Ts =>
    simp only [opWf, Bool.and_eq_true, decide_eq_true_eq, Bool.or_eq_true] at h
    obtain ⟨⟨⟨hsg, hd⟩, hs⟩, hr⟩ := h
    simp only [VOp.exec, hN]
    have hk : regsPerOpOf false false Td Td = 1 := by simp [regsPerOpOf]
    rw [hk]
    apply binOp_total
    · rw [hvd]; simp [VOp.dstFactor]
    · intro rf op hop r hr' e he
      have hr0 : r = 0 := by omega
      subst hr0
      refine laneF_total (T1 := Ts) (T2 := Td) ?_
        ⟨_, commonArg2_eq _ Td rfl (by omega) i _ rf op e he hop, elem_inRange Td _ _ _ _⟩
        (fun d a b _ ha hb' => ⟨_, vSrans_ok rd Td Ts hsg hd hr hs a b ha⟩)
      unfold sransArg1
      apply R1
      have hg : [0, 2, 1, 3].getD (e % 4) 0 ≤ 3 := by
        have : e % 4 < 4 := Nat.mod_lt _ (by decide)
        generalize e % 4 = q at this
        interval_cases q <;> simp
      generalize [0, 2, 1, 3].getD (e % 4) 0 = q at hg ⊢
      revert he hsg hd hs hr
      rcases hn with ⟨hn, -⟩ | ⟨hn, -⟩ <;> rw [hn] at hop ⊢ <;> cases Td <;> cases Ts <;>
        simp [VOp.src1Factor, lanesOf, CTy.size, CTy.bits, CTy.signed] <;> (try split) <;> omega
  | mvp T =>
    have hb : T.bits ≤ 32 := by simpa [opWf] using h
    simp only [VOp.exec, hN]
    rw [show regsPerOpOf false true T T = 2 by simp [regsPerOpOf]]
    apply binOp_total
    · rw [hvd]; simp [VOp.dstFactor]; omega
    · intro rf op hop r hr e he
      have G : ∃ c, mvpArg T (i.operands (.mvp T)) i.scalar i.n rf op e r = .ok ⟨T, c⟩ ∧ T.InRange c := by
        unfold mvpArg
        split
        · exact ⟨_, commonArg1_eq _ T rfl _ i.vs1 _ _ rfl rf op e he (by simpa [VOp.src1Factor] using hop), lane_inRange T _ _⟩
        · exact ⟨_, commonArg2_eq _ T rfl hb i _ rf op e he hop, elem_inRange T _ _ _ _⟩
      exact laneF_total G G fun d a b _ _ _ => ⟨_, rfl⟩
  | sliden hz ix T =>
    simp only [opWf, Bool.and_eq_true, decide_eq_true_eq, Bool.not_eq_true', Bool.or_eq_true] at h
    obtain ⟨⟨⟨hb, hi⟩, hsc⟩, hst⟩ := h
    have hN' : numOpsOf (i.strip || hz) = i.n := by
      unfold VInst.n; rcases hst with rfl | hst <;> simp [*]
    have hh : hz = true → i.n = 4 := by
      intro h'; subst h'
      have : i.strip = true := by simpa using hst
      unfold VInst.n; rw [this]; rfl
    simp only [VOp.exec, hN']
    rw [show regsPerOpOf false false T T = 1 by simp [regsPerOpOf]]
    apply binOp_total
    · rw [hvd]; simp [VOp.dstFactor]
    · intro rf op hop r hr e he
      have hr : r = 0 := by omega
      subst hr
      have R2' : ∀ (rf : VRF) (j : Nat), j < i.n * lanesOf T →
          ∃ c, readElt T rf (i.operands (.sliden hz ix T)).src1 j = .ok ⟨T, c⟩ ∧ T.InRange c := by
        intro rf j hj
        have := R2 T hb rf j hj
        rw [hsc] at this
        simpa using this
      have G : ∃ c, slidenArg1 T (i.operands (.sliden hz ix T)) hz ix rf op e 0 = .ok ⟨T, c⟩ ∧ T.InRange c := by
        have hL := lanesOf_le T ix hi
        have hR1 := R1 T rf
        simp only [VOp.src1Factor, Nat.mul_one] at hR1
        have hp := lanesOf_pos T
        unfold slidenArg1
        rcases hn with ⟨hn, -⟩ | ⟨hn, -⟩
        · have hz0 : hz = false := by
            cases hz
            · rfl
            · have := hh rfl; omega
          subst hz0
          have : op = 0 := by omega
          subst this
          split
          · exact hR1 _ (by rw [hn]; simp; omega)
          · exact R2' rf _ (by rw [hn]; simp; omega)
        · have : op < 4 := by omega
          interval_cases op <;> cases hz <;> split <;> first
            | exact hR1 _ (by rw [hn]; simp; omega)
            | exact R2' rf _ (by rw [hn]; simp; omega)
      exact laneF_total G ⟨_, by rw [← hsc]; exact commonArg2_eq _ T rfl hb i _ rf op e he hop, elem_inRange T _ _ _ _⟩
        fun d a b _ _ _ => ⟨_, rfl⟩
  | slidep hz ix T =>
    simp only [opWf, Bool.and_eq_true, decide_eq_true_eq, Bool.not_eq_true', Bool.or_eq_true] at h
    obtain ⟨⟨⟨hb, hi⟩, hsc⟩, hst⟩ := h
    have hN' : numOpsOf (i.strip || hz) = i.n := by
      unfold VInst.n; rcases hst with rfl | hst <;> simp [*]
    have hh : hz = true → i.n = 4 := by
      intro h'; subst h'
      have : i.strip = true := by simpa using hst
      unfold VInst.n; rw [this]; rfl
    simp only [VOp.exec, hN']
    rw [show regsPerOpOf false false T T = 1 by simp [regsPerOpOf]]
    apply binOp_total
    · rw [hvd]; simp [VOp.dstFactor]
    · intro rf op hop r hr e he
      have hr : r = 0 := by omega
      subst hr
      have R2' : ∀ (rf : VRF) (j : Nat), j < i.n * lanesOf T →
          ∃ c, readElt T rf (i.operands (.slidep hz ix T)).src1 j = .ok ⟨T, c⟩ ∧ T.InRange c := by
        intro rf j hj
        have := R2 T hb rf j hj
        rw [hsc] at this
        simpa using this
      have G : ∃ c, slidepArg1 T (i.operands (.slidep hz ix T)) hz ix rf op e 0 = .ok ⟨T, c⟩ ∧ T.InRange c := by
        have hL := lanesOf_le T ix hi
        have hR1 := R1 T rf
        simp only [VOp.src1Factor, Nat.mul_one] at hR1
        have hp := lanesOf_pos T
        unfold slidepArg1
        rcases hn with ⟨hn, -⟩ | ⟨hn, -⟩
        · have hz0 : hz = false := by
            cases hz
            · rfl
            · have := hh rfl; omega
          subst hz0
          have : op = 0 := by omega
          subst this
          split
          · exact hR1 _ (by rw [hn]; simp; omega)
          · exact R2' rf _ (by rw [hn]; simp; omega)
        · have : op < 4 := by omega
          interval_cases op <;> cases hz <;> split <;> first
            | exact hR1 _ (by rw [hn]; simp; omega)
            | exact R2' rf _ (by rw [hn]; simp; omega)
      exact laneF_total G ⟨_, by rw [← hsc]; exact commonArg2_eq _ T rfl hb i _ rf op e he hop, elem_inRange T _ _ _ _⟩
        fun d a b _ _ _ => ⟨_, rfl⟩
  | evn T =>
    have hb : T.bits ≤ 32 := by simpa [opWf] using h
    simp only [VOp.exec, hN]
    rw [show regsPerOpOf false false T T = 1 by simp [regsPerOpOf]]
    apply binOp_total
    · rw [hvd]; simp [VOp.dstFactor]
    · intro rf op hop r hr e he
      have G := evnOdd_total T hb i (.evn T) rfl rf op e 0 0 hop he (by omega)
      exact laneF_total G G fun d a b _ _ _ => ⟨_, rfl⟩
  | odd T =>
    have hb : T.bits ≤ 32 := by simpa [opWf] using h
    simp only [VOp.exec, hN]
    rw [show regsPerOpOf false false T T = 1 by simp [regsPerOpOf]]
    apply binOp_total
    · rw [hvd]; simp [VOp.dstFactor]
    · intro rf op hop r hr e he
      have G := evnOdd_total T hb i (.odd T) rfl rf op e r 1 hop he (by omega)
      exact laneF_total G G fun d a b _ _ _ => ⟨_, rfl⟩
  | evnodd T =>
    have hb : T.bits ≤ 32 := by simpa [opWf] using h
    simp only [VOp.exec, hN]
    rw [show regsPerOpOf false true T T = 2 by simp [regsPerOpOf]]
    apply binOp_total
    · rw [hvd]; simp [VOp.dstFactor]; omega
    · intro rf op hop r hr e he
      have G : ∃ c, evnoddArg T (i.operands (.evnodd T)) i.scalar i.n rf op e r = .ok ⟨T, c⟩ ∧ T.InRange c := by
        unfold evnoddArg
        split
        · exact evnOdd_total T hb i (.evnodd T) rfl rf op e _ 0 hop he (by omega)
        · exact evnOdd_total T hb i (.evnodd T) rfl rf op e _ 1 hop he (by omega)
      exact laneF_total G G fun d a b _ _ _ => ⟨_, rfl⟩
  | zip T =>
    have hb : T.bits ≤ 32 := by simpa [opWf] using h
    simp only [VOp.exec, hN]
    rw [show regsPerOpOf false true T T = 2 by simp [regsPerOpOf]]
    apply binOp_total
    · rw [hvd]; simp [VOp.dstFactor]; omega
    · intro rf op hop r hr e he
      have G : ∃ c, zipArg T (i.operands (.zip T)) i.scalar i.n rf op e r = .ok ⟨T, c⟩ ∧ T.InRange c := by
        have hj : op * (lanesOf T / 2) + e / 2 + r * (lanesOf T / 2) * i.n < i.n * lanesOf T := by
          revert he
          have : r = 0 ∨ r = 1 := by omega
          rcases this with rfl | rfl <;>
          rcases hn with ⟨hn, -⟩ | ⟨hn, -⟩ <;> rw [hn] at hop ⊢ <;> cases T <;> simp [lanesOf, CTy.size] <;> omega
        unfold zipArg
        simp only
        split
        · exact R2 T hb rf _ hj
        · exact R1 T rf _ (by simpa [VOp.src1Factor] using hj)
      exact laneF_total G G fun d a b _ _ _ => ⟨_, rfl⟩

end Verif.Proofs
