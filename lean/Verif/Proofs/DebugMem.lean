import Verif.Model.DebugMem
import Verif.Spec.DebugMem

/-!
# Helper lemmas for debug memory access
-/

namespace Verif.Proofs.DebugMem

open Verif.Model.DebugMem Verif.Spec.DebugMem

/-- The updated array of `store`. -/
def put (m : Mem) (a : Nat) (d : List (BitVec 8)) : Mem :=
  fun q => if h : a ≤ q ∧ q - a < d.length then d[q - a]'h.2 else m q

theorem isWrite_put (m : Mem) (a : Nat) (d : List (BitVec 8)) : IsWrite m (put m a d) a d := by
  constructor
  · intro k h
    unfold put
    rw [dif_pos (by omega)]
    simp
  · intro q h
    unfold put
    rw [dif_neg (by omega)]

theorem isWrite_unique {m m' m'' : Mem} {a : Nat} {d : List (BitVec 8)} (h : IsWrite m m' a d)
    (h' : IsWrite m m'' a d) : m' = m'' := by
  funext q
  by_cases hq : a ≤ q ∧ q < a + d.length
  · have e1 := h.1 (q - a) (by omega)
    have e2 := h'.1 (q - a) (by omega)
    rw [show a + (q - a) = q by omega] at e1 e2
    rw [e1, e2]
  · rw [h.2 q (by omega), h'.2 q (by omega)]

theorem put_put (m : Mem) (a : Nat) (d e : List (BitVec 8)) :
    put (put m a d) (a + d.length) e = put m a (d ++ e) := by
  funext q
  unfold put
  simp only [List.length_append]
  by_cases h1 : a + d.length ≤ q ∧ q - (a + d.length) < e.length
  · rw [dif_pos h1, dif_pos (by omega), List.getElem_append_right (by omega)]
    congr 1; omega
  · rw [dif_neg h1]
    by_cases h2 : a ≤ q ∧ q - a < d.length
    · rw [dif_pos h2, dif_pos (by omega), List.getElem_append_left (by omega)]
    · rw [dif_neg h2, dif_neg (by omega)]

theorem store_ok (m : Mem) (a : Nat) (d : List (BitVec 8)) (h : d ≠ []) : store m a d = .ok (put m a d) := by
  unfold store; rw [if_neg h]; rfl

theorem room (address : Nat) (h : address ≤ maxAddr) : (maxAddr - address + 1) % 2 ^ 64 = 0x400000 - address := by
  unfold maxAddr at *; omega

theorem writeMemory_ok (m : Mem) (address : Nat) (buf : List (BitVec 8)) (h : address ≤ maxAddr)
    (hb : buf ≠ []) :
    writeMemory true m address buf =
      .ok (.ok (min buf.length (0x400000 - address)), put m address (buf.take (0x400000 - address))) := by
  unfold writeMemory
  rw [room address h]
  have hl : 0 < buf.length := List.length_pos_iff.2 hb
  have hne : buf.take (min buf.length (0x400000 - address)) ≠ [] := by
    unfold maxAddr at h
    intro h'
    have := congrArg List.length h'
    rw [List.length_take, List.length_nil] at this
    omega
  simp only [Bool.not_true, Bool.false_eq_true, if_false, Nat.not_lt.2 h]
  rw [store_ok _ _ _ hne]
  simp only [Outcome.ok_bind]
  congr 3
  apply List.ext_getElem
  · simp; omega
  · intro k h1 h2; simp

theorem loadLoop_spec : ∀ (fuel : Nat) (m : Mem) (address : Nat) (rest : List (BitVec 8)), rest.length < fuel →
    (Fits address rest → loadLoop true fuel m address rest = .ok (.ok (), put m address rest)) ∧
    (¬ Fits address rest → ∃ n, n < rest.length ∧
      loadLoop true fuel m address rest = .ok (.error .internal, put m address (rest.take n)))
  | 0, _, _, _, h => by omega
  | fuel + 1, m, address, rest, hf => by
    have hput : ∀ a, put m a [] = m := by
      intro a; funext q; unfold put; rw [dif_neg (by simp)]
    have hlen : (rest.take bufferSize).length = min bufferSize rest.length := List.length_take
    have hbs : bufferSize = 4096 := rfl
    rw [loadLoop]
    simp only [hlen]
    by_cases h0 : rest = []
    · subst h0
      simp [hput, Fits]
    · have hpos : 0 < rest.length := List.length_pos_iff.2 h0
      rw [if_neg (by omega)]
      have hne : rest.take bufferSize ≠ [] := by
        intro h'
        have := congrArg List.length h'
        rw [hlen, List.length_nil] at this
        omega
      by_cases ha : address ≤ maxAddr
      · rw [writeMemory_ok m address _ ha hne]
        unfold maxAddr at ha
        simp only [Outcome.ok_bind, hlen]
        by_cases hfit : min bufferSize rest.length ≤ 0x400000 - address
        · rw [if_neg (by omega)]
          have htake : (rest.take bufferSize).take (0x400000 - address) = rest.take bufferSize := by
            apply List.take_of_length_le; rw [hlen]; exact hfit
          rw [htake]
          by_cases hfull : min bufferSize rest.length = bufferSize
          · rw [if_pos hfull, hfull, Nat.mod_eq_of_lt (by omega)]
            have hd : (rest.drop bufferSize).length = rest.length - bufferSize := List.length_drop
            obtain ⟨ih1, ih2⟩ := loadLoop_spec fuel (put m address (rest.take bufferSize)) (address + bufferSize)
              (rest.drop bufferSize) (by omega)
            have hadd : address + bufferSize = address + (rest.take bufferSize).length := by rw [hlen]; omega
            have hpp : ∀ e, put (put m address (rest.take bufferSize)) (address + bufferSize) e =
                put m address (rest.take bufferSize ++ e) := by
              intro e; rw [hadd, put_put]
            have hiff : Fits (address + bufferSize) (rest.drop bufferSize) ↔ Fits address rest := by
              unfold Fits
              rw [hd]
              constructor
              · intro h k hk
                by_cases hk' : bufferSize ≤ k
                · have := h (k - bufferSize) (by omega); omega
                · omega
              · intro h k hk
                have := h (k + bufferSize) (by omega); omega
            refine ⟨fun h => ?_, fun h => ?_⟩
            · rw [ih1 (hiff.2 h), hpp, List.take_append_drop]
            · obtain ⟨n, hn, e⟩ := ih2 (fun h' => h (hiff.1 h'))
              refine ⟨bufferSize + n, by omega, ?_⟩
              rw [e, hpp, List.take_add]
          · rw [if_neg hfull]
            have hall : rest.take bufferSize = rest := List.take_of_length_le (by omega)
            rw [hall]
            refine ⟨fun _ => rfl, fun h => absurd ?_ h⟩
            intro k hk; omega
        · rw [if_pos (by omega)]
          refine ⟨fun h => absurd (h (0x400000 - address) (by omega)) (by omega), fun _ => ?_⟩
          refine ⟨0x400000 - address, by omega, ?_⟩
          rw [List.take_take, Nat.min_eq_left (by omega)]
      · have e : writeMemory true m address (rest.take bufferSize) = .ok (.error .invalidArgument, m) := by
          unfold writeMemory
          simp only [Bool.not_true, Bool.false_eq_true, if_false, Nat.lt_of_not_le ha, if_true]
        rw [e]
        simp only [Outcome.ok_bind]
        unfold maxAddr at ha
        refine ⟨fun h => absurd (h 0 hpos) (by omega), fun _ => ⟨0, hpos, ?_⟩⟩
        rw [List.take_zero, hput]

end Verif.Proofs.DebugMem
