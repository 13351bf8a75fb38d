import Verif.Proofs.KernelMat
import Verif.Proofs.VecCore

/-! # The matrix product program in the memory of the core -/

namespace Verif.Proofs

open Verif Verif.Model
open Verif.Spec.Program (Machine Ev word next run Steady)

/-- The rounds of the loop over the tiles: the body and `sub rn, rn, rl`. -/
theorem mat_rounds (maxPhys : Nat) (fresh : Nat → VReg) (p : MatProg) (B W : CTy) (hp : p.Ok B W) (cmd : BitVec 32)
    (hc1 : Spec.bitsAt cmd 0 2 = 0) (hc2 : Spec.bitsAt cmd 2 5 ≤ Spec.bitsAt cmd 7 5) (hc3 : Spec.bitsAt cmd 7 5 < 8)
    (a b lim : Nat) (hlim : lim = if maxPhys ≤ 0x3fffff then 2 ^ 31 else 2 ^ 32) (s : Arch)
    (hl : 128 ≤ (s.x p.rl).toNat) (hcmd : s.x p.rc = cmd) (hxa : s.x p.ra = BitVec.ofNat 32 a)
    (hxb : s.x p.rb = BitVec.ofNat 32 b) (K : Nat) (ha : a + 256 * K ≤ lim) (hb : b + 256 * K ≤ lim)
    (rn : Nat) (hrn : rn ∉ [0, p.ra, p.rb, p.rd, p.rl, p.rc]) (hn : s.x rn = BitVec.ofNat 32 (K * (s.x p.rl).toNat)) :
    ∀ k ≤ K, ∃ s', times (loopBody maxPhys fresh p.body rn p.rl) k s = .ok s' ∧
      MatInv p (decide (Spec.bitsAt cmd 21 1 = 1)) (decide (Spec.bitsAt cmd 31 1 = 1)) (Spec.sbitsAt cmd 12 9)
        (Spec.sbitsAt cmd 22 9) (4 * Spec.bitsAt cmd 2 5) (4 * (Spec.bitsAt cmd 7 5 + 1 - Spec.bitsAt cmd 2 5)) a b
        { s with x := fun q => if q = rn then BitVec.ofNat 32 ((K - k) * (s.x p.rl).toNat) else s.x q } k s' := by
  simp only [List.mem_cons, List.not_mem_nil, or_false, not_or] at hrn
  obtain ⟨q0, qa, qb, qd, ql, qc⟩ := hrn
  have hr := hp.regs
  simp only [List.nodup_cons, List.mem_cons, List.not_mem_nil, or_false, not_or, not_false_eq_true] at hr
  obtain ⟨-, ⟨nab, nad, nal, nac⟩, ⟨nbd, nbl, nbc⟩, -⟩ := hr
  intro k
  induction k with
  | zero =>
    intro _
    refine ⟨s, rfl, hxa, hxb, fun q _ _ => ?_, rfl, fun i _ w _ => ?_⟩
    · show _ = if q = rn then _ else _
      split
      · rename_i h; rw [h, hn, Nat.sub_zero]
      · rfl
    · show _ = _ + BitVec.ofInt 32 0
      simp
  | succ k ih =>
    intro hk
    obtain ⟨s1, h1, hI⟩ := ih (by omega)
    obtain ⟨s2, h2, hI2⟩ := mat_step maxPhys fresh p B W hp cmd hc1 hc2 hc3 a b lim hlim _ s1 k (by omega) (by omega)
      (by show 128 ≤ (if p.rl = rn then _ else s.x p.rl).toNat; rw [if_neg (Ne.symm ql)]; exact hl)
      (by show (if p.rc = rn then _ else s.x p.rc) = _; rw [if_neg (Ne.symm qc)]; exact hcmd) hI
    have hn2 : s2.x rn = BitVec.ofNat 32 ((K - k) * (s.x p.rl).toNat) := (hI2.others rn qa qb).trans (if_pos rfl)
    have hl2 : s2.x p.rl = s.x p.rl := (hI2.others p.rl (Ne.symm nal) (Ne.symm nbl)).trans (if_neg (Ne.symm ql))
    have hsub : s2.x rn - s2.x p.rl = BitVec.ofNat 32 ((K - (k + 1)) * (s.x p.rl).toNat) := by
      rw [hn2, hl2, show K - k = K - (k + 1) + 1 from by omega, Nat.add_mul, Nat.one_mul, BitVec.ofNat_add,
        BitVec.ofNat_toNat, BitVec.setWidth_eq]
      exact BitVec.add_sub_cancel ..
    have hwr : ∀ (y : BitVec 32) q, writeX s2.x rn y q = if q = rn then y else s2.x q := by
      intro y q
      unfold writeX
      by_cases h : q = rn
      · simp [h, q0]
      · simp [h]
    refine ⟨{ s2 with x := writeX s2.x rn (s2.x rn - s2.x p.rl) }, ?_, ?_, ?_, ?_, hI2.mem, hI2.acc⟩
    · rw [times, h1, Outcome.ok_bind, loopBody, h2]
      rfl
    · show writeX s2.x rn _ p.ra = _
      rw [hwr, if_neg (Ne.symm qa)]; exact hI2.xa
    · show writeX s2.x rn _ p.rb = _
      rw [hwr, if_neg (Ne.symm qb)]; exact hI2.xb
    · intro q h1 h2
      show writeX s2.x rn _ q = if q = rn then _ else s.x q
      rw [hwr, hsub]
      split
      · rfl
      · rename_i h
        exact (hI2.others q h1 h2).trans (if_neg h)

end Verif.Proofs
