import Verif.Proofs.SpecRange

/-! # Frame theorem for every vector register instruction -/

namespace Verif.Proofs
open Verif Verif.Model CVal

/-- A successful instruction has only indexed destination registers inside its operand. -/
theorem binOp_len (Td : CTy) (o : Operands) (N k : Nat) (g1 g2 : Getter)
    (f : CVal → CVal → CVal → Outcome CVal) (rf rf' : VRF) (h : binOp Td o N k g1 g2 f rf = .ok rf') :
    ∀ op < N, op + (k - 1) * N < o.vdLen := by
  suffices H : ∀ n ≤ N, ∀ rf', (List.range n).foldlM (opStep Td o N k g1 g2 f) rf = .ok rf' →
      ∀ op < n, op + (k - 1) * N < o.vdLen from H N le_rfl rf' h
  intro n
  induction n with
  | zero => intro _ rf' _ op hop; omega
  | succ n ih =>
    intro hn rf' h op hop
    rw [List.range_succ, List.foldlM_append] at h
    cases h1 : (List.range n).foldlM (opStep Td o N k g1 g2 f) rf with
    | ub => rw [h1] at h; simp at h
    | abort => rw [h1] at h; simp at h
    | ok rf1 =>
      rw [h1, Outcome.ok_bind, List.foldlM_cons] at h
      by_cases hlt : op < n
      · exact ih (by omega) rf1 h1 op hlt
      · have : op = n := by omega
        subst this
        unfold opStep at h
        split at h
        · assumption
        · simp at h

theorem regsPerOp_le (a b : Bool) (Td T : CTy) : regsPerOpOf a b Td T = 1 ∨ regsPerOpOf a b Td T = 2 := by
  unfold regsPerOpOf; split <;> simp

theorem frame_of_run (Td : CTy) (o : Operands) (N k F : Nat) (hN : 0 < N) (hk : k = 1 ∨ k = 2) (hF : k ≤ F)
    (g1 g2 : Getter) (f : CVal → CVal → CVal → Outcome CVal) (rf rf' : VRF)
    (h : binOp Td o N k g1 g2 f rf = .ok rf') : Spec.Frame o.vd (N * F) rf rf' := by
  intro q hq
  apply binOp_frame Td o N k g1 g2 f rf rf' h
  have h1 : N * k ≤ N * F := Nat.mul_le_mul_left _ hF
  rcases hk with rfl | rfl
  · exact untouched_frame hN (by omega)
  · exact untouched_frame2 hN (by omega)

theorem run_frame (v : VOp) (i : VInst) (rf rf' : VRF) (h : v.run i rf = .ok rf') :
    Spec.Frame i.vd (i.n * v.dstFactor) rf rf' := by
  have hN := numOps_pos i.strip
  cases v with
  | bin k T =>
    have hk : regsPerOpOf false false (k.dstTy T) T = 1 := by simp [regsPerOpOf, (dstTy_size k T).1]
    simp only [VOp.run, VOp.exec, hk] at h
    exact frame_of_run _ _ _ _ _ hN (Or.inl rfl) le_rfl _ _ _ _ _ h
  | ter k T =>
    have hk : regsPerOpOf false false T T = 1 := by simp [regsPerOpOf]
    simp only [VOp.run, VOp.exec, hk] at h
    exact frame_of_run _ _ _ _ _ hN (Or.inl rfl) le_rfl _ _ _ _ _ h
  | un k T => exact frame_of_run _ _ _ _ _ hN (Or.inl rfl) le_rfl _ _ _ _ _ h
  | wid k Td Ts =>
    exact frame_of_run _ _ _ _ _ hN (regsPerOp_le _ _ _ _) (by rcases regsPerOp_le false false Td Ts with h | h <;> simp [h, VOp.dstFactor]) _ _ _ _ _ h
  | acc Td Ts =>
    exact frame_of_run _ _ _ _ _ hN (regsPerOp_le _ _ _ _) (by rcases regsPerOp_le false false Td Ts with h | h <;> simp [h, VOp.dstFactor]) _ _ _ _ _ h
  | packed k Td Ts =>
    have hk : regsPerOpOf true false Td Ts = 1 := by simp [regsPerOpOf]
    simp only [VOp.run, VOp.exec, hk] at h
    exact frame_of_run _ _ _ _ _ hN (Or.inl rfl) le_rfl _ _ _ _ _ h
  | srans r Td Ts =>
    have hk : regsPerOpOf false false Td Td = 1 := by simp [regsPerOpOf]
    simp only [VOp.run, VOp.exec, hk] at h
    exact frame_of_run _ _ _ _ _ hN (Or.inl rfl) le_rfl _ _ _ _ _ h
  | mvp T => exact frame_of_run _ _ _ _ _ hN (regsPerOp_le _ _ _ _) (by simp [regsPerOpOf, VOp.dstFactor]) _ _ _ _ _ h
  | sliden hz ix T =>
    have hk : regsPerOpOf false false T T = 1 := by simp [regsPerOpOf]
    simp only [VOp.run, VOp.exec, hk] at h
    have hl := binOp_len _ _ _ _ _ _ _ _ _ h
    have hn : numOpsOf (i.strip || hz) = i.n := by
      cases hs : i.strip <;> cases hz <;> simp only [VInst.n, numOpsOf, hs] <;> try rfl
      have := hl 3 (by simp [numOpsOf, hs])
      simp [VInst.operands, VOp.dstFactor, VInst.n, numOpsOf, hs] at this
    rw [hn] at h
    exact frame_of_run _ _ _ _ _ hN (Or.inl rfl) le_rfl _ _ _ _ _ h
  | slidep hz ix T =>
    have hk : regsPerOpOf false false T T = 1 := by simp [regsPerOpOf]
    simp only [VOp.run, VOp.exec, hk] at h
    have hl := binOp_len _ _ _ _ _ _ _ _ _ h
    have hn : numOpsOf (i.strip || hz) = i.n := by
      cases hs : i.strip <;> cases hz <;> simp only [VInst.n, numOpsOf, hs] <;> try rfl
      have := hl 3 (by simp [numOpsOf, hs])
      simp [VInst.operands, VOp.dstFactor, VInst.n, numOpsOf, hs] at this
    rw [hn] at h
    exact frame_of_run _ _ _ _ _ hN (Or.inl rfl) le_rfl _ _ _ _ _ h
  | evn T =>
    have hk : regsPerOpOf false false T T = 1 := by simp [regsPerOpOf]
    simp only [VOp.run, VOp.exec, hk] at h
    exact frame_of_run _ _ _ _ _ hN (Or.inl rfl) le_rfl _ _ _ _ _ h
  | odd T =>
    have hk : regsPerOpOf false false T T = 1 := by simp [regsPerOpOf]
    simp only [VOp.run, VOp.exec, hk] at h
    exact frame_of_run _ _ _ _ _ hN (Or.inl rfl) le_rfl _ _ _ _ _ h
  | evnodd T => exact frame_of_run _ _ _ _ _ hN (regsPerOp_le _ _ _ _) (by simp [regsPerOpOf, VOp.dstFactor]) _ _ _ _ _ h
  | zip T => exact frame_of_run _ _ _ _ _ hN (regsPerOp_le _ _ _ _) (by simp [regsPerOpOf, VOp.dstFactor]) _ _ _ _ _ h

/-- Registers are equal when all their lanes are. -/
theorem reg_ext (T : CTy) (r r' : VReg)
    (h : ∀ e < lanesOf T, Spec.lane T.signed T.bits r e = Spec.lane T.signed T.bits r' e) : r = r' := by
  apply BitVec.eq_of_getLsbD_eq
  intro j hj
  have hw : 0 < T.bits := by cases T <;> decide
  have hm := lanesOf_mul T
  have he : j / T.bits < lanesOf T := by
    rw [Nat.div_lt_iff_lt_mul hw]; omega
  have h1 := h _ he
  have hx : r.extractLsb' (j / T.bits * T.bits) T.bits = r'.extractLsb' (j / T.bits * T.bits) T.bits := by
    unfold Spec.lane Spec.value at h1
    split at h1
    · exact BitVec.eq_of_toInt_eq h1
    · exact BitVec.eq_of_toNat_eq (by exact_mod_cast h1)
  have h2 := congrArg (fun b => b.getLsbD (j % T.bits)) hx
  have hmod := Nat.mod_lt j hw
  simp only [BitVec.getLsbD_extractLsb', hmod, decide_true, Bool.true_and] at h2
  rwa [Nat.div_add_mod'] at h2

end Verif.Proofs
