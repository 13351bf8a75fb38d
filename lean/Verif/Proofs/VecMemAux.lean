import Verif.Model.VecMem
import Verif.Spec.Memory
import Verif.Proofs.Frame
import Verif.Proofs.Lift

/-! # Loops and buffers of the vector memory instructions -/

namespace Verif.Proofs
open Verif Verif.Model CVal

/-- A loop over `0 .. N-1` whose state after `k` iterations is `g k`. -/
theorem foldlM_range {σ : Type} (f : σ → Nat → Outcome σ) (g : Nat → σ) : ∀ (N : Nat),
    (∀ k < N, f (g k) k = .ok (g (k + 1))) → (List.range N).foldlM f (g 0) = .ok (g N)
  | 0, _ => by simp
  | N + 1, h => by
    rw [List.range_succ, List.foldlM_append, foldlM_range f g N (fun k hk => h k (by omega))]
    simp [h N (by omega)]

theorem bufFill {α : Type} (n k : Nat) (b : Nat → Option α) (f : Nat → α) (c : Nat) (h : k + c ≤ n) :
    (List.range c).foldlM (fun b i => bufSet n b (k + i) (f i)) b =
      .ok (fun j => if k ≤ j ∧ j < k + c then some (f (j - k)) else b j) := by
  have := foldlM_range (fun b i => bufSet n b (k + i) (f i))
    (fun c j => if k ≤ j ∧ j < k + c then some (f (j - k)) else b j) c (by
      intro m hm
      simp only [bufSet]
      rw [if_pos (by omega)]
      congr 1
      funext j
      by_cases e : j = k + m
      · subst e; rw [if_pos rfl, if_pos (by omega)]; congr 2; omega
      · rw [if_neg e]
        by_cases h2 : k ≤ j ∧ j < k + m
        · rw [if_pos h2, if_pos (by omega)]
        · rw [if_neg h2, if_neg (by omega)])
  rw [← this]
  congr 1
  funext j
  rw [if_neg (by omega)]

theorem bufAll_ok {α : Type} (n : Nat) (b : Nat → Option α) (f : Nat → α) (h : ∀ j < n, b j = some (f j)) :
    bufAll n b = .ok ((List.range n).map f) := by
  apply Outcome.mapM_ok
  intro j hj
  rw [h j (List.mem_range.1 hj)]

/-- Address of element `j`. -/
theorem addr_step (addr : BitVec 32) (k S : Nat) :
    (addr + BitVec.ofNat 32 (k * S)) + BitVec.ofNat 32 S = addr + BitVec.ofNat 32 ((k + 1) * S) := by
  rw [BitVec.add_assoc, ← BitVec.ofNat_add, Nat.add_mul, Nat.one_mul]

theorem addr_toNat (addr : BitVec 32) (k S : Nat) :
    (addr + BitVec.ofNat 32 (k * S)).toNat = (addr.toNat + k * S) % 2 ^ 32 := by
  rw [BitVec.toNat_add, BitVec.toNat_ofNat, Nat.add_mod_mod]

theorem vldAddrs_ok (T : CTy) (N n stride : Nat) (addr : BitVec 32) (hn : n ≤ N * lanesOf T) :
    vldAddrs T N n stride addr =
      .ok ((List.range n).map (Spec.elemAddr addr.toNat (lanesOf T) stride T.size)) := by
  have hL := lanesOf_pos T
  have key := foldlM_range (vldRow T n stride)
    (fun k => (addr + BitVec.ofNat 32 (k * (stride * T.size)), n - k * lanesOf T,
      fun j => if j < min n (k * lanesOf T) then
        some (Spec.elemAddr addr.toNat (lanesOf T) stride T.size j) else none)) N (by
    intro k hk
    simp only [vldRow]
    rw [show (fun (b : Nat → Option Nat) i => bufSet n b (k * lanesOf T + i)
        ((addr + BitVec.ofNat 32 (k * (stride * T.size))).toNat + i * T.size)) =
        (fun b i => bufSet n b (k * lanesOf T + i)
          ((fun i => (addr + BitVec.ofNat 32 (k * (stride * T.size))).toNat + i * T.size) i)) from rfl]
    by_cases hfull : k * lanesOf T ≤ n
    · rw [bufFill _ _ _ _ _ (by omega)]
      simp only [Outcome.ok_bind, addr_step]
      congr 2
      refine Prod.ext ?_ ?_
      · show _ = _; rw [Nat.add_mul, Nat.one_mul]; simp only; omega
      · simp only
        funext j
        have h1 : (k + 1) * lanesOf T = k * lanesOf T + lanesOf T := by rw [Nat.add_mul, Nat.one_mul]
        by_cases h2 : k * lanesOf T ≤ j ∧ j < k * lanesOf T + min (n - k * lanesOf T) (lanesOf T)
        · rw [if_pos h2, if_pos (by omega), addr_toNat, Spec.elemAddr]
          have h3 : j / lanesOf T = k := Nat.div_eq_of_lt_le (by omega) (by omega)
          have h4 : j % lanesOf T = j - k * lanesOf T := by
            have := Nat.div_add_mod j (lanesOf T)
            rw [h3, Nat.mul_comm] at this; omega
          rw [h3, h4]
        · rw [if_neg h2]
          by_cases h5 : j < min n (k * lanesOf T)
          · rw [if_pos h5, if_pos (by omega)]
          · rw [if_neg h5, if_neg (by omega)]
    · have e0 : min (n - k * lanesOf T) (lanesOf T) = 0 := by omega
      rw [e0]
      simp only [List.range_zero, List.foldlM_nil, Outcome.pure_def, Outcome.ok_bind, addr_step]
      have h1 : (k + 1) * lanesOf T = k * lanesOf T + lanesOf T := by rw [Nat.add_mul, Nat.one_mul]
      congr 2
      refine Prod.ext ?_ ?_
      · simp only; omega
      · simp only
        funext j
        have : min n (k * lanesOf T) = min n ((k + 1) * lanesOf T) := by omega
        rw [this])
  unfold vldAddrs
  rw [show ((addr, n, fun _ => none) : BitVec 32 × Nat × (Nat → Option Nat)) =
    (addr + BitVec.ofNat 32 (0 * (stride * T.size)), n - 0 * lanesOf T,
      fun j => if j < min n (0 * lanesOf T) then
        some (Spec.elemAddr addr.toNat (lanesOf T) stride T.size j) else none) by simp, key]
  simp only [Outcome.ok_bind]
  apply bufAll_ok
  intro j hj
  rw [if_pos (by omega)]


/-- State of the store loop after `r` rows. -/
def stAfter (T : CTy) (n stride row : Nat) (addr : BitVec 32) (V : Nat → CVal) (r : Nat) : StState where
  idx := min n (r * row)
  base := addr + BitVec.ofNat 32 (r * (stride * T.size))
  buf := fun j => if j < min n (r * row) then
    some (Spec.elemAddr addr.toNat row stride T.size j, V j) else none

theorem vstRow_ok (T : CTy) (n stride row : Nat) (addr : BitVec 32) (V : Nat → CVal) (r : Nat) (src : VReg)
    (off : Nat) (hV : ∀ j < row, V (r * row + j) = regElt T src (off + j)) :
    vstRow T n stride row src off (stAfter T n stride row addr V r) =
      .ok (stAfter T n stride row addr V (r + 1)) := by
  have h1 : (r + 1) * row = r * row + row := by rw [Nat.add_mul, Nat.one_mul]
  unfold vstRow
  have key := foldlM_range (fun (st : StState) j =>
    if st.idx < n then do
      let b ← bufSet n st.buf st.idx (st.base.toNat + j * T.size, regElt T src (off + j))
      .ok { st with idx := st.idx + 1, buf := b }
    else .ok st)
    (fun c => { stAfter T n stride row addr V r with
      idx := min n (r * row + c)
      buf := fun j => if j < min n (r * row + c) then
        some (Spec.elemAddr addr.toNat row stride T.size j, V j) else none }) row (by
    intro c hc
    simp only [stAfter, addr_toNat]
    by_cases h : r * row + c < n
    · have e : min n (r * row + c) = r * row + c := by omega
      have e' : min n (r * row + (c + 1)) = r * row + c + 1 := by omega
      rw [e, if_pos h, bufSet, if_pos h]
      simp only [Outcome.ok_bind, e']
      congr 2
      funext j
      by_cases hj : j = r * row + c
      · have h3 : j / row = r := Nat.div_eq_of_lt_le (by omega) (by omega)
        have h4 : j % row = c := by
          have := Nat.div_add_mod j row
          rw [h3, Nat.mul_comm] at this; omega
        rw [if_pos hj, if_pos (by omega), Spec.elemAddr, h3, h4, hj, hV c hc]
      · rw [if_neg hj]
        by_cases h5 : j < r * row + c
        · rw [if_pos h5, if_pos (by omega)]
        · rw [if_neg h5, if_neg (by omega)]
    · have e : min n (r * row + c) = n := by omega
      have e' : min n (r * row + (c + 1)) = n := by omega
      rw [e, e', if_neg (by omega)])
  rw [show stAfter T n stride row addr V r = { stAfter T n stride row addr V r with
      idx := min n (r * row + 0)
      buf := fun j => if j < min n (r * row + 0) then
        some (Spec.elemAddr addr.toNat row stride T.size j, V j) else none } from rfl]
  rw [key]
  simp only [Outcome.ok_bind, stAfter, addr_step, h1]

theorem vst_ok (T : CTy) (N n stride : Nat) (quad : Bool) (vd : Nat) (rf : VRF) (addr : BitVec 32)
    (h4 : quad = true → lanesOf T % 4 = 0) :
    (List.range N).foldlM (vstOp T n stride quad vd N rf) ⟨0, addr, fun _ => none⟩ =
      .ok (stAfter T n stride (if quad then lanesOf T / 4 else lanesOf T) addr
        (fun j => regElt T (rf (vd + j / lanesOf T)) (j % lanesOf T)) (if quad then N * 4 else N)) := by
  have hL := lanesOf_pos T
  cases quad with
  | false =>
    simp only [Bool.false_eq_true, if_false]
    have key := foldlM_range (vstOp T n stride false vd N rf)
      (fun r => stAfter T n stride (lanesOf T) addr
        (fun j => regElt T (rf (vd + j / lanesOf T)) (j % lanesOf T)) r) N (by
      intro k hk
      simp only [vstOp, hk, if_true, Bool.false_eq_true, if_false]
      apply vstRow_ok
      intro j hj
      have e1 : (k * lanesOf T + j) / lanesOf T = k := Nat.div_eq_of_lt_le (by omega) (by rw [Nat.add_mul]; omega)
      have e2 : (k * lanesOf T + j) % lanesOf T = j := by
        rw [Nat.mul_comm, Nat.mul_add_mod, Nat.mod_eq_of_lt hj]
      rw [e1, e2, Nat.zero_add])
    rw [← key]
    simp [stAfter]
  | true =>
    have h4 := h4 rfl
    simp only [if_true]
    have key := foldlM_range (vstOp T n stride true vd N rf)
      (fun r => stAfter T n stride (lanesOf T / 4) addr
        (fun j => regElt T (rf (vd + j / lanesOf T)) (j % lanesOf T)) (r * 4)) N (by
      intro k hk
      simp only [vstOp, hk, if_true]
      have inner := foldlM_range (fun st i =>
          vstRow T n stride (lanesOf T / 4) (rf (vd + k)) (i * (lanesOf T / 4)) st)
        (fun i => stAfter T n stride (lanesOf T / 4) addr
          (fun j => regElt T (rf (vd + j / lanesOf T)) (j % lanesOf T)) (k * 4 + i)) 4 (by
        intro i hi
        apply vstRow_ok
        intro j hj
        have hq : (k * 4 + i) * (lanesOf T / 4) + j = k * lanesOf T + (i * (lanesOf T / 4) + j) := by
          have : 4 * (lanesOf T / 4) = lanesOf T := by omega
          rw [Nat.add_mul, Nat.mul_assoc, this]; omega
        have hb : i * (lanesOf T / 4) + j < lanesOf T := by
          have : i * (lanesOf T / 4) ≤ 3 * (lanesOf T / 4) := Nat.mul_le_mul_right _ (by omega)
          omega
        have e1 : (k * lanesOf T + (i * (lanesOf T / 4) + j)) / lanesOf T = k :=
          Nat.div_eq_of_lt_le (by omega) (by rw [Nat.add_mul]; omega)
        have e2 : (k * lanesOf T + (i * (lanesOf T / 4) + j)) % lanesOf T = i * (lanesOf T / 4) + j := by
          rw [Nat.mul_comm k, Nat.mul_add_mod, Nat.mod_eq_of_lt hb]
        rw [hq, e1, e2])
      rw [show k * 4 = k * 4 + 0 from rfl, inner, Nat.add_mul, Nat.one_mul])
    rw [← key]
    simp [stAfter]

end Verif.Proofs
