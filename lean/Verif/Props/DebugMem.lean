import Verif.Proofs.DebugMem
import Verif.Props.Memory

/-!
# C42, C43: debug memory access and image loading
-/

namespace Verif.Props

open Verif.Model.DebugMem Verif.Proofs.DebugMem Verif.Spec.DebugMem

/-- C42: above the maximal address nothing is transferred and the call reports an invalid argument. -/
theorem C42_rejects (m : Mem) (address length : Nat) (buf : List (BitVec 8)) (h : 0x3fffff < address) :
    readMemory true m address length = .ok (.error .invalidArgument) ∧
    writeMemory true m address buf = .ok (.error .invalidArgument, m) := by
  have : maxAddr < address := h
  constructor
  · unfold readMemory; simp only [Bool.not_true, Bool.false_eq_true, if_false, this, if_true]
  · unfold writeMemory; simp only [Bool.not_true, Bool.false_eq_true, if_false, this, if_true]

/-- C42: while the core is not halted both calls fail and have no effect. -/
theorem C42_not_halted (m : Mem) (address length : Nat) (buf : List (BitVec 8)) :
    readMemory false m address length = .ok (.error .failedPrecondition) ∧
    writeMemory false m address buf = .ok (.error .failedPrecondition, m) := ⟨rfl, rfl⟩

/-- C42, non-empty requests: `min(length, max - address + 1)` bytes are read, and they are the bytes of memory. -/
theorem C42_read_partial (m : Mem) (address length : Nat) (h : address ≤ 0x3fffff) (hl : 0 < length) :
    ∃ d, readMemory true m address length = .ok (.ok d) ∧ d.length = min length (0x3fffff - address + 1) ∧
      Holds m address d := by
  have h' : address ≤ maxAddr := h
  unfold readMemory
  rw [room address h']
  simp only [Bool.not_true, Bool.false_eq_true, if_false, Nat.not_lt.2 h']
  unfold load
  rw [if_neg (by omega)]
  simp only [Outcome.ok_bind]
  refine ⟨_, rfl, by simp; omega, ?_⟩
  intro k hk
  simp

/-- C42, non-empty requests: `min(length, max - address + 1)` bytes are written, the count is returned and no other
byte changes. -/
theorem C42_write_partial (m : Mem) (address : Nat) (buf : List (BitVec 8)) (h : address ≤ 0x3fffff)
    (hl : buf ≠ []) :
    ∃ m', writeMemory true m address buf = .ok (.ok (min buf.length (0x3fffff - address + 1)), m') ∧
      IsWrite m m' address (buf.take (0x3fffff - address + 1)) := by
  have e : (0x400000 - address) = 0x3fffff - address + 1 := by omega
  refine ⟨_, ?_, isWrite_put m address (buf.take (0x3fffff - address + 1))⟩
  rw [writeMemory_ok m address buf h hl, e]

/-- C42, non-empty requests: reading back what was just written returns it. -/
theorem C42_round_trip_partial (m : Mem) (address : Nat) (buf : List (BitVec 8)) (h : address ≤ 0x3fffff)
    (hl : buf ≠ []) :
    ∃ m', writeMemory true m address buf = .ok (.ok (min buf.length (0x3fffff - address + 1)), m') ∧
      readMemory true m' address buf.length = .ok (.ok (buf.take (0x3fffff - address + 1))) := by
  obtain ⟨m', e1, e2, -⟩ := C42_write_partial m address buf h hl
  obtain ⟨d, e3, e4, e5⟩ := C42_read_partial m' address buf.length h (List.length_pos_iff.2 hl)
  refine ⟨m', e1, ?_⟩
  rw [e3]
  congr 2
  apply List.ext_getElem
  · rw [e4]; simp; omega
  · intro k h1 h2
    rw [← e5 k h1, e2 k h2]

/-- C42, negation for empty requests: the process stops instead of transferring zero bytes. -/
theorem C42_empty_abort (m : Mem) (address : Nat) (h : address ≤ 0x3fffff) :
    readMemory true m address 0 = .abort ∧ writeMemory true m address [] = .abort := by
  have h' : address ≤ maxAddr := h
  constructor
  · unfold readMemory
    simp only [Bool.not_true, Bool.false_eq_true, if_false, Nat.not_lt.2 h']
    simp [load]
  · unfold writeMemory
    simp only [Bool.not_true, Bool.false_eq_true, if_false, Nat.not_lt.2 h']
    simp [store]

open Verif.Model.RenodeMem (construct flat exec Cfg Buf Heap) in
/-- C42: on the Renode memory the load and store used by these calls are the ones of the flat array, including the
refusal of empty ones. -/
theorem C42_renode_backing {blockSize memSize supplied : Nat} {c : Cfg} {len : Nat → Nat}
    (h : construct blockSize memSize supplied 0 1 = .ok c) (hbs : blockSize < 2 ^ 31)
    (hfit : memSize + blockSize ≤ 2 ^ 64)
    (hlen : ∀ i < supplied, min blockSize (memSize - i * blockSize) ≤ len i) (junk : Buf) (heap : Heap)
    (a : Nat) (d : List (BitVec 8)) (n : Nat) (hd : a + d.length ≤ 0x400000) (hn : a + n ≤ 0x400000) :
    (exec c len junk heap (.load a n) >>= fun r => .ok r.2) = load (flat c heap) a n ∧
    (exec c len junk heap (.store a d) >>= fun r => .ok (flat c r.1)) = store (flat c heap) a d := by
  obtain ⟨wf, hb, hm, -⟩ := Verif.Proofs.RenodeMem.construct_wf h hbs (by omega) (by simpa using hlen)
  have hmax : 0x400000 ≤ c.max := by
    unfold construct at h
    simp only [Nat.zero_add] at h hm
    split at h
    · next hk =>
      have : Verif.Model.RenodeMem.kMaxMemoryAddress = 0x3fffff := rfl
      rw [this] at hk
      have e : memSize % 18446744073709551616 = memSize ∨ memSize = 18446744073709551616 := by omega
      rcases e with e | e
      · rw [e] at hk; omega
      · omega
    · cases h
  refine ⟨?_, ?_⟩
  · have e := Verif.Proofs.RenodeMem.exec_refines wf junk heap (.load a n)
      (by show n < 2 ^ 31; omega) (by show a < 2 ^ 64; omega)
    simp only [Spec.BlockMem.step] at e
    unfold load
    by_cases hn0 : n = 0
    · rw [if_neg (by simp [Spec.BlockMem.inside, hn0])] at e
      rw [e, if_pos hn0]; rfl
    · rw [if_pos ⟨by omega, by omega, by omega⟩] at e
      obtain ⟨h', e1, -, -⟩ := e
      rw [e1, if_neg hn0]; rfl
  · have e := Verif.Proofs.RenodeMem.exec_refines wf junk heap (.store a d)
      (by show d.length < 2 ^ 31; omega) (by show a < 2 ^ 64; omega)
    simp only [Spec.BlockMem.step] at e
    unfold store
    by_cases hn0 : d = []
    · rw [if_neg (by simp [Spec.BlockMem.inside, hn0])] at e
      rw [e, if_pos hn0]; rfl
    · have : 0 < d.length := List.length_pos_iff.2 hn0
      rw [if_pos ⟨by omega, by omega, this⟩] at e
      obtain ⟨h', e1, e2, -⟩ := e
      rw [e1, if_neg hn0]
      simp only [Outcome.ok_bind, e2]
      rfl

/-- Four bytes written two below the limit: two are kept and two are cut off. -/
example : (0x3ffffe : Nat) ≤ 0x3fffff ∧ ([1, 2, 3, 4] : List (BitVec 8)) ≠ [] ∧
    min ([1, 2, 3, 4] : List (BitVec 8)).length (0x3fffff - 0x3ffffe + 1) = 2 := by decide

/-- C43: on a halted core an image loads successfully exactly when every byte has an address below the limit; memory
then holds the file verbatim and nothing else has changed. -/
theorem C43_load_image (m : Mem) (f : List (BitVec 8)) (start : Nat) :
    (Fits start f → ∃ m', loadImage true m (some f) start = .ok (.ok (), m') ∧ IsWrite m m' start f) ∧
    (¬ Fits start f → ∃ m' n, loadImage true m (some f) start = .ok (.error .internal, m') ∧ n < f.length ∧
      IsWrite m m' start (f.take n)) := by
  obtain ⟨h1, h2⟩ := loadLoop_spec (f.length + 1) m start f (by omega)
  refine ⟨fun h => ⟨_, h1 h, isWrite_put _ _ _⟩, fun h => ?_⟩
  obtain ⟨n, hn, e⟩ := h2 h
  exact ⟨_, n, e, hn, isWrite_put _ _ _⟩

/-- C43: a missing file, or a core that is not halted and a non-empty file, is an error and memory is unchanged. -/
theorem C43_errors (m : Mem) (f : List (BitVec 8)) (hf : f ≠ []) (start : Nat) (halted : Bool) :
    loadImage halted m none start = .ok (.error .internal, m) ∧
    loadImage false m (some f) start = .ok (.error .internal, m) := by
  refine ⟨rfl, ?_⟩
  have hl : 0 < f.length := List.length_pos_iff.2 hf
  have hc : (f.take bufferSize).length ≠ 0 := by
    rw [List.length_take]
    have : bufferSize = 4096 := rfl
    omega
  unfold loadImage
  simp only [loadLoop]
  rw [if_neg hc]
  rfl

/-- A file of two full chunks ending exactly at the limit fits; one byte more does not. -/
example : Fits 0x3fe000 (List.replicate 8192 7) ∧ ¬ Fits 0x3fe000 (List.replicate 8193 7) := by
  constructor
  · intro k hk
    simp only [List.length_replicate] at hk
    omega
  · intro h
    have := h 8192 (by rw [List.length_replicate]; omega)
    omega

end Verif.Props
