import Verif.Model.DebugMemMax
import Verif.Proofs.DebugMem

/-!
# C117: debug memory access under any address limit

Specification: `IsWrite` and `Holds` of `Verif/Spec/DebugMem.lean`; `m` is the memory before the call and `M` the largest address.
-/

namespace Verif.Props

open Verif Verif.Model.DebugMem Verif.Proofs.DebugMem Verif.Spec.DebugMem

theorem room_max (M address : Nat) (hM : M < 2 ^ 64) (h : address ≤ M) (hw : ¬(M = 2 ^ 64 - 1 ∧ address = 0)) :
    (M - address + 1) % 2 ^ 64 = M + 1 - address := by
  rw [Nat.mod_eq_of_lt (by omega)]; omega

/-- C117: with the limit that the constructor sets these are the calls of C42 and C43. -/
theorem C117_default (halted : Bool) (m : Mem) (address length : Nat) (buf : List (BitVec 8)) (file : Option (List (BitVec 8))) :
    readMemoryMax 0x3fffff halted m address length = readMemory halted m address length ∧
    writeMemoryMax 0x3fffff halted m address buf = writeMemory halted m address buf ∧
    loadImageMax 0x3fffff halted m file address = loadImage halted m file address := by
  have hw : ∀ m a b, writeMemoryMax 0x3fffff halted m a b = writeMemory halted m a b := fun _ _ _ => rfl
  refine ⟨rfl, rfl, ?_⟩
  have hl : ∀ (fuel : Nat) (m : Mem) (a : Nat) (r : List (BitVec 8)),
      loadLoopMax 0x3fffff halted fuel m a r = loadLoop halted fuel m a r := by
    intro fuel
    induction fuel with
    | zero => intros; rfl
    | succ fuel ih =>
      intro m a r
      unfold loadLoopMax loadLoop
      simp only [hw, ih]
      rfl
  cases file with
  | none => rfl
  | some f => exact hl _ m address f

/-- C117: above the limit, and while the core is not halted, both calls fail and change nothing. -/
theorem C117_rejects (M : Nat) (m : Mem) (address length : Nat) (buf : List (BitVec 8)) :
    (M < address → readMemoryMax M true m address length = .ok (.error .invalidArgument) ∧
      writeMemoryMax M true m address buf = .ok (.error .invalidArgument, m)) ∧
    readMemoryMax M false m address length = .ok (.error .failedPrecondition) ∧
    writeMemoryMax M false m address buf = .ok (.error .failedPrecondition, m) := by
  refine ⟨fun h => ⟨?_, ?_⟩, rfl, rfl⟩
  · unfold readMemoryMax; simp only [Bool.not_true, Bool.false_eq_true, if_false, h, if_true]
  · unfold writeMemoryMax; simp only [Bool.not_true, Bool.false_eq_true, if_false, h, if_true]

/-- C117: a non-empty read up to the limit gives the bytes of memory from the address on, as many as asked for but none beyond the
limit. -/
theorem C117_read_partial (M : Nat) (hM : M < 2 ^ 64) (m : Mem) (address length : Nat) (h : address ≤ M) (hl : 0 < length)
    (hw : ¬(M = 2 ^ 64 - 1 ∧ address = 0)) :
    ∃ d, readMemoryMax M true m address length = .ok (.ok d) ∧ d.length = min length (M + 1 - address) ∧ Holds m address d := by
  unfold readMemoryMax
  rw [room_max M address hM h hw]
  simp only [Bool.not_true, Bool.false_eq_true, if_false, Nat.not_lt.2 h]
  unfold load
  rw [if_neg (by omega)]
  simp only [Outcome.ok_bind]
  exact ⟨_, rfl, by simp, fun k hk => by simp⟩

theorem writeMemoryMax_ok (M : Nat) (hM : M < 2 ^ 64) (m : Mem) (address : Nat) (buf : List (BitVec 8)) (h : address ≤ M)
    (hb : buf ≠ []) (hw : ¬(M = 2 ^ 64 - 1 ∧ address = 0)) :
    writeMemoryMax M true m address buf =
      .ok (.ok (min buf.length (M + 1 - address)), put m address (buf.take (M + 1 - address))) := by
  unfold writeMemoryMax
  rw [room_max M address hM h hw]
  have hl : 0 < buf.length := List.length_pos_iff.2 hb
  have hne : buf.take (min buf.length (M + 1 - address)) ≠ [] := by
    intro h'
    have := congrArg List.length h'
    rw [List.length_take, List.length_nil] at this
    omega
  simp only [Bool.not_true, Bool.false_eq_true, if_false, Nat.not_lt.2 h]
  rw [store_ok _ _ _ hne]
  simp only [Outcome.ok_bind]
  congr 3
  apply List.ext_getElem
  · simp; omega
  · intro k h1 h2; simp

/-- C117: a non-empty write up to the limit changes the bytes from the address on and no others, none beyond the limit, and returns how
many. -/
theorem C117_write_partial (M : Nat) (hM : M < 2 ^ 64) (m : Mem) (address : Nat) (buf : List (BitVec 8)) (h : address ≤ M)
    (hb : buf ≠ []) (hw : ¬(M = 2 ^ 64 - 1 ∧ address = 0)) :
    ∃ m', writeMemoryMax M true m address buf = .ok (.ok (min buf.length (M + 1 - address)), m') ∧
      IsWrite m m' address (buf.take (M + 1 - address)) :=
  ⟨_, writeMemoryMax_ok M hM m address buf h hb hw, isWrite_put _ _ _⟩

/-- C117, negation: with the limit at the very top of the address space no byte can be transferred from address 0 on, since the number of
bytes up to the limit is computed as 0; the process stops. -/
theorem C117_whole_space (m : Mem) (length : Nat) (buf : List (BitVec 8)) :
    readMemoryMax (2 ^ 64 - 1) true m 0 length = .abort ∧ writeMemoryMax (2 ^ 64 - 1) true m 0 buf = .abort := by
  constructor
  · unfold readMemoryMax; simp [load]
  · unfold writeMemoryMax; simp [store]

theorem loadLoopMax_spec (M : Nat) (hM : M < 2 ^ 64 - 1) : ∀ (fuel : Nat) (m : Mem) (address : Nat) (rest : List (BitVec 8)),
    rest.length < fuel →
    loadLoopMax M true fuel m address rest =
      .ok (if address + rest.length ≤ M + 1 ∨ rest = [] then .ok () else .error .internal, put m address (rest.take (M + 1 - address)))
  | 0, _, _, _, h => by omega
  | fuel + 1, m, address, rest, hf => by
    have hput : ∀ a, put m a [] = m := by
      intro a; funext q; unfold put; rw [dif_neg (by simp)]
    have hlen : (rest.take bufferSize).length = min bufferSize rest.length := List.length_take
    have hbs : bufferSize = 4096 := rfl
    rw [loadLoopMax]
    simp only [hlen]
    by_cases h0 : rest = []
    · subst h0
      simp [hput]
    · have hpos : 0 < rest.length := List.length_pos_iff.2 h0
      rw [if_neg (by omega)]
      have hne : rest.take bufferSize ≠ [] := by
        intro h'
        have := congrArg List.length h'
        rw [hlen, List.length_nil] at this
        omega
      by_cases ha : address ≤ M
      · rw [writeMemoryMax_ok M (by omega) m address _ ha hne (by omega)]
        simp only [Outcome.ok_bind, hlen]
        by_cases hfit : min bufferSize rest.length ≤ M + 1 - address
        · rw [if_neg (by omega)]
          have htake : (rest.take bufferSize).take (M + 1 - address) = rest.take bufferSize := by
            apply List.take_of_length_le; rw [hlen]; exact hfit
          rw [htake]
          by_cases hfull : min bufferSize rest.length = bufferSize
          · rw [if_pos hfull, hfull, Nat.mod_eq_of_lt (by omega)]
            have hd : (rest.drop bufferSize).length = rest.length - bufferSize := List.length_drop
            rw [loadLoopMax_spec M hM fuel _ _ _ (by omega)]
            have hadd : address + bufferSize = address + (rest.take bufferSize).length := by rw [hlen]; omega
            rw [show put (put m address (rest.take bufferSize)) (address + bufferSize)
                ((rest.drop bufferSize).take (M + 1 - (address + bufferSize))) =
                put m address (rest.take (M + 1 - address)) by
              rw [hadd, put_put, ← hadd, ← List.take_add,
                show bufferSize + (M + 1 - (address + bufferSize)) = M + 1 - address by omega]]
            congr 2
            by_cases hr : address + rest.length ≤ M + 1
            · rw [if_pos (.inl (by omega)), if_pos (.inl hr)]
            · rw [if_neg, if_neg]
              · rintro (h | h)
                · exact hr h
                · exact h0 h
              · rintro (h | h)
                · omega
                · rw [h, List.length_nil] at hd; omega
          · rw [if_neg hfull, if_pos (.inl (by omega))]
            have hall : rest.take bufferSize = rest := List.take_of_length_le (by omega)
            rw [hall, List.take_of_length_le (by omega)]
        · rw [if_pos (by omega), if_neg]
          · rw [List.take_take, Nat.min_eq_left (by omega)]
          · rintro (h | h)
            · omega
            · exact h0 h
      · rw [((C117_rejects M m address 0 (rest.take bufferSize)).1 (by omega)).2]
        simp only [Outcome.ok_bind]
        rw [if_neg, show M + 1 - address = 0 by omega, List.take_zero, hput]
        rintro (h | h)
        · omega
        · exact h0 h

/-- C117: loading an image succeeds exactly when the file is empty or its last byte lies at or below the limit. Whether or not it succeeds,
memory holds the part of the file up to the limit, and nothing else has changed. -/
theorem C117_image (M : Nat) (hM : M < 2 ^ 64 - 1) (m : Mem) (f : List (BitVec 8)) (start : Nat) :
    ∃ m', IsWrite m m' start (f.take (M + 1 - start)) ∧
      (f = [] ∨ start + f.length ≤ M + 1 → loadImageMax M true m (some f) start = .ok (.ok (), m')) ∧
      (¬(f = [] ∨ start + f.length ≤ M + 1) → loadImageMax M true m (some f) start = .ok (.error .internal, m')) := by
  refine ⟨_, isWrite_put m start _, fun h => ?_, fun h => ?_⟩
  · show loadLoopMax M true _ m start f = _
    rw [loadLoopMax_spec M hM _ m start f (by omega), if_pos h.symm]
  · show loadLoopMax M true _ m start f = _
    rw [loadLoopMax_spec M hM _ m start f (by omega), if_neg (fun h' => h h'.symm)]

theorem loadLoopMax_top : ∀ (fuel : Nat) (m : Mem) (address : Nat) (rest : List (BitVec 8)),
    rest.length < fuel → 0 < address → address < 2 ^ 64 →
    loadLoopMax (2 ^ 64 - 1) true fuel m address rest =
      if address + rest.length ≤ 2 ^ 64 then .ok (.ok (), put m address rest)
      else if (2 ^ 64 - address) % 4096 = 0 then .abort
      else .ok (.error .internal, put m address (rest.take (2 ^ 64 - address)))
  | 0, _, _, _, h, _, _ => by omega
  | fuel + 1, m, address, rest, hf, ha0, ha => by
    have hput : ∀ (m : Mem) a, put m a [] = m := by
      intro m a; funext q; unfold put; rw [dif_neg (by simp)]
    have hlen : (rest.take bufferSize).length = min bufferSize rest.length := List.length_take
    have hbs : bufferSize = 4096 := rfl
    rw [loadLoopMax]
    simp only [hlen]
    by_cases h0 : rest = []
    · subst h0
      have hle : address + ([] : List (BitVec 8)).length ≤ 2 ^ 64 := by rw [List.length_nil]; omega
      rw [if_pos hle, hput, if_pos (by simp)]
    · have hpos : 0 < rest.length := List.length_pos_iff.2 h0
      rw [if_neg (by omega)]
      have hne : rest.take bufferSize ≠ [] := by
        intro h'
        have := congrArg List.length h'
        rw [hlen, List.length_nil] at this
        omega
      rw [writeMemoryMax_ok (2 ^ 64 - 1) (by omega) m address _ (by omega) hne (by omega), show 2 ^ 64 - 1 + 1 = 2 ^ 64 from rfl]
      simp only [Outcome.ok_bind, hlen]
      by_cases hfit : min bufferSize rest.length ≤ 2 ^ 64 - address
      · rw [if_neg (by omega)]
        have htake : (rest.take bufferSize).take (2 ^ 64 - address) = rest.take bufferSize := by
          apply List.take_of_length_le; rw [hlen]; exact hfit
        rw [htake]
        by_cases hfull : min bufferSize rest.length = bufferSize
        · rw [if_pos hfull, hfull]
          have hd : (rest.drop bufferSize).length = rest.length - bufferSize := List.length_drop
          by_cases hend : address + bufferSize = 2 ^ 64
          · rw [hend, Nat.mod_self]
            cases fuel with
            | zero => omega
            | succ fuel =>
            rw [loadLoopMax]
            by_cases hr : rest.length = bufferSize
            · have e1 : rest.drop bufferSize = [] := List.drop_eq_nil_of_le (by omega)
              rw [e1, if_pos (by simp), if_pos (by omega), List.take_of_length_le (by omega)]
            · have e1 : ((rest.drop bufferSize).take bufferSize).length ≠ 0 := by rw [List.length_take, hd]; omega
              rw [if_neg e1, (C117_whole_space _ 0 _).2, if_neg (by omega), if_pos (by omega)]
              rfl
          · rw [Nat.mod_eq_of_lt (by omega), loadLoopMax_top fuel _ _ _ (by omega) (by omega) (by omega), hd]
            have hadd : address + bufferSize = address + (rest.take bufferSize).length := by rw [hlen]; omega
            by_cases hr : address + rest.length ≤ 2 ^ 64
            · rw [if_pos (by omega), if_pos hr, hadd, put_put, List.take_append_drop]
            · rw [if_neg (by omega), if_neg hr]
              have hm : (2 ^ 64 - (address + bufferSize)) % 4096 = (2 ^ 64 - address) % 4096 := by omega
              rw [hm]
              by_cases hz : (2 ^ 64 - address) % 4096 = 0
              · rw [if_pos hz, if_pos hz]
              · rw [if_neg hz, if_neg hz]
                rw [show put (put m address (rest.take bufferSize)) (address + bufferSize)
                    ((rest.drop bufferSize).take (2 ^ 64 - (address + bufferSize))) =
                    put m address (rest.take (2 ^ 64 - address)) by
                  rw [hadd, put_put, ← hadd, ← List.take_add,
                    show bufferSize + (2 ^ 64 - (address + bufferSize)) = 2 ^ 64 - address by omega]]
        · rw [if_neg hfull, if_pos (by omega)]
          rw [List.take_of_length_le (by omega)]
      · rw [if_pos (by omega), if_neg (by omega), if_neg (by omega)]
        rw [List.take_take, Nat.min_eq_left (by omega)]

/-- C117: the images under the limit at the very top of the address space, for which `C117_image` does not speak. From an address other
than 0, a file that ends within the address space is loaded; a longer one is refused and its first part loaded, as under other limits,
unless a whole number of buffers reaches to the end: the next part then goes to address 0 and the process stops. From address 0 it stops
at once. -/
theorem C117_image_top (m : Mem) (f : List (BitVec 8)) (start : Nat) (hs : start < 2 ^ 64) :
    (f = [] → loadImageMax (2 ^ 64 - 1) true m (some f) start = .ok (.ok (), m)) ∧
    (f ≠ [] → start = 0 → loadImageMax (2 ^ 64 - 1) true m (some f) start = .abort) ∧
    (start ≠ 0 → start + f.length ≤ 2 ^ 64 →
      ∃ m', IsWrite m m' start f ∧ loadImageMax (2 ^ 64 - 1) true m (some f) start = .ok (.ok (), m')) ∧
    (start ≠ 0 → 2 ^ 64 < start + f.length → (2 ^ 64 - start) % 4096 ≠ 0 →
      ∃ m', IsWrite m m' start (f.take (2 ^ 64 - start)) ∧
        loadImageMax (2 ^ 64 - 1) true m (some f) start = .ok (.error .internal, m')) ∧
    (start ≠ 0 → 2 ^ 64 < start + f.length → (2 ^ 64 - start) % 4096 = 0 →
      loadImageMax (2 ^ 64 - 1) true m (some f) start = .abort) := by
  refine ⟨?_, ?_, fun h1 h2 => ⟨_, isWrite_put m start _, ?_⟩, fun h1 h2 h3 => ⟨_, isWrite_put m start _, ?_⟩, fun h1 h2 h3 => ?_⟩
  · rintro rfl
    show loadLoopMax (2 ^ 64 - 1) true 1 m start [] = _
    rw [loadLoopMax]
    simp
  · rintro hf rfl
    show loadLoopMax (2 ^ 64 - 1) true (f.length + 1) m 0 f = _
    have hpos : 0 < f.length := List.length_pos_iff.2 hf
    have hbs : bufferSize = 4096 := rfl
    rw [loadLoopMax, if_neg (by rw [List.length_take]; omega), (C117_whole_space m 0 _).2]
    rfl
  all_goals
    show loadLoopMax (2 ^ 64 - 1) true (f.length + 1) m start f = _
    rw [loadLoopMax_top _ m start f (by omega) (by omega) hs]
  · rw [if_pos h2]
  · rw [if_neg (by omega), if_neg h3]
  · rw [if_neg (by omega), if_pos h3]

/-- A buffer's worth of bytes up to the end of the address space is loaded, one byte more stops the process. -/
example (m : Mem) (f : List (BitVec 8)) : (f.length = 4096 →
      ∃ m', IsWrite m m' 0xfffffffffffff000 f ∧ loadImageMax (2 ^ 64 - 1) true m (some f) 0xfffffffffffff000 = .ok (.ok (), m')) ∧
    (f.length = 4097 → loadImageMax (2 ^ 64 - 1) true m (some f) 0xfffffffffffff000 = .abort) :=
  have h := C117_image_top m f 0xfffffffffffff000 (by decide)
  ⟨fun hl => h.2.2.1 (by decide) (by omega), fun hl => h.2.2.2.2 (by decide) (by omega) (by decide)⟩

/-- C117: changing the limit in between only cuts: what was written under one limit is read under another up to the smaller of the two. -/
theorem C117_change (M M' : Nat) (hM : M < 2 ^ 64) (hM' : M' < 2 ^ 64) (m : Mem) (address : Nat) (buf : List (BitVec 8))
    (hb : buf ≠ []) (h : address ≤ M) (h' : address ≤ M') (h0 : address = 0 → M < 2 ^ 64 - 1 ∧ M' < 2 ^ 64 - 1) :
    ∃ n m' d, writeMemoryMax M true m address buf = .ok (.ok n, m') ∧ readMemoryMax M' true m' address n = .ok (.ok d) ∧
      d = buf.take (min M M' + 1 - address) := by
  obtain ⟨m', e1, e2, -⟩ := C117_write_partial M (by omega) m address buf h hb (by omega)
  have hl : 0 < buf.length := List.length_pos_iff.2 hb
  obtain ⟨d, e3, e4, e5⟩ := C117_read_partial M' (by omega) m' address (min buf.length (M + 1 - address)) h' (by omega) (by omega)
  refine ⟨_, m', d, e1, e3, ?_⟩
  apply List.ext_getElem
  · rw [e4, List.length_take]; omega
  · intro k h1 h2
    rw [List.length_take] at h2
    rw [← e5 k h1, e2 k (by rw [List.length_take]; omega)]
    simp

/-! ### Examples -/

/-- A limit of 15: four of the bytes at 12 are kept; a file of 17 bytes does not fit and one of 16 does. -/
example :
    (∃ m', writeMemoryMax 0xf true (fun _ => 0) 12 [1, 2, 3, 4, 5] = .ok (.ok 4, m')) ∧
    (∃ m', loadImageMax 0xf true (fun _ => 0) (some (List.replicate 17 7)) 0 = .ok (.error .internal, m')) ∧
    ∃ m', loadImageMax 0xf true (fun _ => 0) (some (List.replicate 16 7)) 0 = .ok (.ok (), m') := by
  refine ⟨?_, ?_, ?_⟩
  · obtain ⟨m', e, -⟩ := C117_write_partial 0xf (by omega) (fun _ => 0) 12 [1, 2, 3, 4, 5] (by omega) (by simp) (by omega)
    exact ⟨m', e⟩
  · obtain ⟨m', -, -, e⟩ := C117_image 0xf (by omega) (fun _ => 0) (List.replicate 17 7) 0
    exact ⟨m', e (by simp)⟩
  · obtain ⟨m', -, e, -⟩ := C117_image 0xf (by omega) (fun _ => 0) (List.replicate 16 7) 0
    exact ⟨m', e (by simp)⟩

end Verif.Props
