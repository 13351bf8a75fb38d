import Verif.Model.KernelDw
import Verif.Spec.DwCore
import Verif.Proofs.KernelMat
import Verif.Proofs.RenodeCore

/-!
# Loads that fill vector registers, and what a host sends (for C119)
-/

namespace Verif.Proofs
open Verif Verif.Model

theorem bytes_ext : ∀ (n x y : Nat), x < 256 ^ n → y < 256 ^ n → (∀ b < n, Spec.byteOf x b = Spec.byteOf y b) → x = y
  | 0, x, y, hx, hy, _ => by simp at hx hy; omega
  | n + 1, x, y, hx, hy, h => by
    have h0 := h 0 (by omega)
    simp only [Spec.byteOf, Nat.pow_zero, Nat.div_one] at h0
    have := bytes_ext n (x / 256) (y / 256) (by rw [Nat.pow_succ] at hx; omega) (by rw [Nat.pow_succ] at hy; omega) (fun b hb => by
      have := h (b + 1) (by omega)
      unfold Spec.byteOf at this ⊢
      rw [Nat.div_div_eq_div_mul, Nat.div_div_eq_div_mul, Nat.mul_comm, ← Nat.pow_succ]
      exact this)
    omega

/-- A register is determined by its bytes. -/
theorem reg_bytes {v : BitVec 256} {mem : Nat → BitVec 8} {a : Nat}
    (h : ∀ e < 32, (v.extractLsb' (e * 8) 8).toNat = (mem (a + e)).toNat) : v = BitVec.ofNat 256 (Spec.loadLE 32 mem a) := by
  have hl := loadLE_lt mem 32 a
  apply BitVec.eq_of_toNat_eq
  rw [BitVec.toNat_ofNat, Nat.mod_eq_of_lt (by omega)]
  refine bytes_ext 32 _ _ (by have := v.isLt; omega) hl (fun b hb => ?_)
  rw [loadLE_byte mem 32 a b hb, ← h b hb, BitVec.extractLsb'_toNat, Nat.shiftRight_eq_div_pow, Nat.mul_comm, Nat.pow_mul]
  rfl

/-- Loads that fill consecutive groups of registers. -/
theorem run_loads (maxPhys : Nat) (fresh : Nat → VReg) (B : CTy) (hB : B.bits = 8) (ra rl lim : Nat)
    (hlim : lim = if maxPhys ≤ 0x3fffff then 2 ^ 31 else 2 ^ 32) (h0a : ra ≠ 0) (h0l : rl ≠ 0) (hal : ra ≠ rl) :
    ∀ (ls : List Inst) (g a : Nat) (s : Arch), (∀ i ∈ ls, i.Ok ∧ i.row.sem = .vld B true false true true true ∧
      Spec.bitsAt i.word 15 5 = ra ∧ Spec.bitsAt i.word 20 5 = rl) → (∀ j (h : j < ls.length), Spec.bitsAt ls[j].word 6 6 = g + 4 * j) →
      s.x ra = BitVec.ofNat 32 a → 128 ≤ (s.x rl).toNat → a + 128 * ls.length ≤ lim →
      ∃ s', runAll maxPhys fresh ls s = .ok s' ∧ s'.mem = s.mem ∧ s'.v = Spec.filled g (4 * ls.length) a s.mem s.v ∧
        ∀ q, s'.x q = if q = ra then BitVec.ofNat 32 (a + 128 * ls.length) else s.x q := by
  have hlim32 : lim ≤ 2 ^ 32 := by subst hlim; split <;> decide
  intro ls
  induction ls with
  | nil =>
    intro g a s _ _ hx _ _
    refine ⟨s, rfl, rfl, ?_, ?_⟩
    · funext q
      unfold Spec.filled
      rw [if_neg (by simp)]
    · intro q
      split
      · rename_i h; rw [h]; exact hx
      · rfl
  | cons i ls ih =>
    intro g a s hi hg hx hr hl
    rw [List.length_cons] at hl
    have ha : a < lim := by omega
    obtain ⟨o, hs, h1, h2⟩ := hi i (by simp)
    have hd : Spec.bitsAt i.word 6 6 = g := hg 0 (by simp)
    obtain ⟨s1, r1, m1, g1, f1, x1⟩ := run_vldLp maxPhys fresh o hs (by rw [h1]; exact h0a) (by rw [h2]; exact h0l) s a 128
      (by rw [h1, hx]; exact effBase_small hlim ha)
      (by rw [h2, hB, if_pos rfl, show Spec.lanes 8 = 32 from rfl]; omega) (by rw [hB]; omega)
    rw [hB, hd] at g1
    rw [if_pos rfl, hd] at f1
    rw [hB, h1] at x1
    have x1a : s1.x ra = BitVec.ofNat 32 (a + 128) := by rw [x1, if_pos rfl]
    have x1l : s1.x rl = s.x rl := by rw [x1, if_neg (Ne.symm hal)]
    have hreg : ∀ k < 4, s1.v (g + k) = BitVec.ofNat 256 (Spec.loadLE 32 s.mem (a + 32 * k)) := by
      intro k hk
      refine reg_bytes (fun e he => ?_)
      have := g1 (32 * k + e) (by omega)
      rw [Spec.groupNat, show Spec.lanes 8 = 32 from rfl, show (32 * k + e) / 32 = k from by omega,
        show (32 * k + e) % 32 = e from by omega] at this
      rw [this, show a + (32 * k + e) * (8 / 8) = a + 32 * k + e from by omega]
      simp [Spec.loadLE]
    rcases Nat.eq_zero_or_pos ls.length with h0 | h0
    · obtain rfl : ls = [] := List.eq_nil_of_length_eq_zero h0
      refine ⟨s1, by rw [runAll, r1, Outcome.ok_bind]; rfl, m1, ?_, x1⟩
      funext q
      unfold Spec.filled
      rw [List.length_cons, List.length_nil]
      by_cases h : g ≤ q ∧ q < g + 4 * (0 + 1)
      · rw [if_pos h]
        have := hreg (q - g) (by omega)
        rwa [show g + (q - g) = q from by omega] at this
      · rw [if_neg h]
        exact f1 q (by omega)
    · obtain ⟨s2, r2, m2, v2, x2⟩ := ih (g + 4) (a + 128) s1 (fun j hj => hi j (List.mem_cons_of_mem _ hj))
        (fun j hj => by
          have := hg (j + 1) (by simpa using hj)
          rw [List.getElem_cons_succ] at this
          rw [this]; omega)
        x1a (by rw [x1l]; exact hr) (by omega)
      refine ⟨s2, by rw [runAll, r1, Outcome.ok_bind]; exact r2, m2.trans m1, ?_, ?_⟩
      · rw [v2, m1]
        funext q
        unfold Spec.filled
        rw [List.length_cons]
        by_cases h : g ≤ q ∧ q < g + 4 * (ls.length + 1)
        · rw [if_pos h]
          by_cases h' : g + 4 ≤ q
          · rw [if_pos (by omega), show a + 128 + 32 * (q - (g + 4)) = a + 32 * (q - g) from by omega]
          · rw [if_neg (by omega)]
            have := hreg (q - g) (by omega)
            rwa [show g + (q - g) = q from by omega] at this
        · rw [if_neg h, if_neg (by omega)]
          exact f1 q (by omega)
      · intro q
        rw [x2]
        by_cases h : q = ra
        · rw [if_pos h, if_pos h, List.length_cons, show a + 128 + 128 * ls.length = a + 128 * (ls.length + 1) from by omega]
        · rw [if_neg h, if_neg h, x1, if_neg h]

end Verif.Proofs

namespace Verif.Proofs.RenodeCore
open Verif Verif.Model Verif.Model.Agent Verif.Model.RenodeCore
open Verif.Model.Top (St fresh)

variable {σ : Type}

/-- Blocks of bytes sent one after the other. -/
theorem send_blocks (R : Params σ) (id : BitVec 32) (ag : Agent (St σ)) (cs : List Call) (ag' : Agent (St σ)) (L : List Reply) :
    ∀ (bs : List (Nat × List (BitVec 8))) (m : Spec.Program.Machine σ), (∀ b ∈ bs, b.2 ≠ [] ∧ b.1 + b.2.length ≤ 0x400000) →
    (∃ tr, calls (core R) cs (seat ag id (fresh { m with mem := Spec.placed m.mem bs })) = .ok (tr, ag') ∧ tr.map Prod.snd = L) →
    ∃ tr, calls (core R) (bs.map (fun b => Call.writeMemory id (BitVec.ofNat 64 b.1) b.2) ++ cs) (seat ag id (fresh m)) =
      .ok (tr, ag') ∧ tr.map Prod.snd = bs.map (fun b => { ret := BitVec.ofNat 64 b.2.length }) ++ L
  | [], m, _, h => h
  | (a, l) :: bs, m, hb, h => by
    obtain ⟨h1, h2⟩ := hb (a, l) (by simp)
    dsimp only at h1 h2
    have ea : (BitVec.ofNat 64 a).toNat = a := by rw [BitVec.toNat_ofNat]; exact Nat.mod_eq_of_lt (by omega)
    have hc := call_poke R id (BitVec.ofNat 64 a) l h1 (by rw [ea]; exact h2) ag m
    rw [ea] at hc
    refine replies_cons hc (send_blocks R id ag cs ag' L bs _ (fun b hb' => hb b (List.mem_cons_of_mem _ hb')) ?_)
    have e : Spec.placed (DebugMem.put m.mem a l) bs = Spec.placed m.mem ((a, l) :: bs) := by
      show _ = Spec.placed _ bs
      congr 1
      funext q
      unfold DebugMem.put
      by_cases h : a ≤ q ∧ q < a + l.length
      · rw [dif_pos (by omega), if_pos h, List.getD_eq_getElem]
      · rw [dif_neg (by omega), if_neg h]
    dsimp only
    rw [e]
    exact h

/-- Registers set one after the other. -/
theorem send_regs (R : Params σ) (id : BitVec 32) (ag : Agent (St σ)) (cs : List Call) (ag' : Agent (St σ)) (L : List Reply) :
    ∀ (rs : List (Fin 32 × BitVec 32)) (m : Spec.Program.Machine σ),
    (∃ tr, calls (core R) cs (seat ag id (fresh { m with regs := rs.foldl (fun g r => R.setX g r.1 r.2) m.regs })) = .ok (tr, ag') ∧
      tr.map Prod.snd = L) →
    ∃ tr, calls (core R) (rs.map (fun r => Call.writeRegister id (R.nb.num (.x r.1)) (BitVec.ofNat 64 r.2.toNat)) ++ cs)
      (seat ag id (fresh m)) = .ok (tr, ag') ∧ tr.map Prod.snd = rs.map (fun _ => { ret := 0 }) ++ L
  | [], m, h => h
  | (i, v) :: rs, m, h => by
    have hc := call_setX R id i (BitVec.ofNat 64 v.toNat) ag m
    have ev : (BitVec.ofNat 64 v.toNat).truncate 32 = v := by
      apply BitVec.eq_of_toNat_eq
      have := v.isLt
      simp
    rw [ev] at hc
    exact replies_cons hc (send_regs R id ag cs ag' L rs _ h)

end Verif.Proofs.RenodeCore
