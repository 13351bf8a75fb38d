import Verif.Proofs.RenodeMem

/-!
# C39 – C41: the Renode block-list memory

`construct blockSize memSize supplied base 1 = .ok c` says that the constructor ran on a list of `supplied` block
pointers; `len i` is the length of block `i`. `flat c heap` reads the blocks as one array. An outcome `.ok` of the
model also says that every block pointer and every byte dereferenced was one of the supplied ones.
-/

namespace Verif.Props

open Verif.Model.RenodeMem Verif.Proofs.RenodeMem
open Verif.Spec.BlockMem (Op Flat inside legal addr64)

/-- C39: every history of loads, stores, gathers and scatters on the blocks gives the results, the final memory and
the refusals of the same history on one flat array; bytes of the blocks beyond the block size are never touched. -/
theorem C39_history_partial {blockSize memSize supplied base : Nat} {c : Cfg} {len : Nat → Nat}
    (h : construct blockSize memSize supplied base 1 = .ok c) (hbs : blockSize < 2 ^ 31)
    (hfit : base + memSize + blockSize ≤ 2 ^ 64)
    (hlen : ∀ i < supplied, min blockSize (base + memSize - i * blockSize) ≤ len i)
    (junk : Buf) (heap : Heap) (ops : List Op) (hops : ∀ op ∈ ops, legal op ∧ addr64 op) :
    match Spec.BlockMem.run base (base + memSize) (flat c heap) ops with
    | none => execAll c len junk heap ops = .abort
    | some (m, rs) => ∃ heap', execAll c len junk heap ops = .ok (heap', rs) ∧ flat c heap' = m ∧
        (∀ i o, blockSize ≤ o → heap' i o = heap i o) := by
  obtain ⟨wf, hb, hm, hs⟩ := construct_wf h hbs hfit hlen
  have := execAll_refines wf junk ops heap hops
  rw [hb, hm, hs] at this
  exact this

/-- C39: a load returns the bytes of the last store to its range. -/
theorem C39_load_after_store_partial {blockSize memSize supplied base : Nat} {c : Cfg} {len : Nat → Nat}
    (h : construct blockSize memSize supplied base 1 = .ok c) (hbs : blockSize < 2 ^ 31)
    (hfit : base + memSize + blockSize ≤ 2 ^ 64)
    (hlen : ∀ i < supplied, min blockSize (base + memSize - i * blockSize) ≤ len i)
    (junk : Buf) (heap : Heap) (a : Nat) (d : List (BitVec 8)) (hd : d.length < 2 ^ 31)
    (hin : inside base (base + memSize) a d.length) :
    ∃ heap', execAll c len junk heap [.store a d, .load a d.length] = .ok (heap', [[], d]) := by
  have h64 : a < 18446744073709551616 := by obtain ⟨_, h2, h3⟩ := hin; omega
  have := C39_history_partial h hbs hfit hlen junk heap [.store a d, .load a d.length] (by
    intro op hop
    simp only [List.mem_cons, List.not_mem_nil, or_false] at hop
    rcases hop with rfl | rfl
    · exact ⟨hd, h64⟩
    · exact ⟨hd, h64⟩)
  simp only [Spec.BlockMem.run, Spec.BlockMem.step, hin, if_true] at this
  obtain ⟨heap', e, -, -⟩ := this
  refine ⟨heap', ?_⟩
  rw [e]
  congr 4
  apply List.ext_getElem
  · simp [Spec.BlockMem.read]
  · intro k h1 h2
    simp [Spec.BlockMem.read, Spec.BlockMem.write, h2]

/-- C39: a store leaves every byte outside its range as it was. -/
theorem C39_store_frame_partial {blockSize memSize supplied base : Nat} {c : Cfg} {len : Nat → Nat}
    (h : construct blockSize memSize supplied base 1 = .ok c) (hbs : blockSize < 2 ^ 31)
    (hfit : base + memSize + blockSize ≤ 2 ^ 64)
    (hlen : ∀ i < supplied, min blockSize (base + memSize - i * blockSize) ≤ len i)
    (junk : Buf) (heap heap' : Heap) (a : Nat) (ha : a < 2 ^ 64) (d r : List (BitVec 8)) (hd : d.length < 2 ^ 31)
    (he : exec c len junk heap (.store a d) = .ok (heap', r)) (q : Nat) (hq : q < a ∨ a + d.length ≤ q) :
    heap' (q / blockSize) (q % blockSize) = heap (q / blockSize) (q % blockSize) := by
  obtain ⟨wf, hb, hm, hs⟩ := construct_wf h hbs hfit hlen
  have := exec_refines wf junk heap (.store a d) hd ha
  simp only [Spec.BlockMem.step] at this
  by_cases hi : inside c.base c.max a d.length
  · rw [if_pos hi] at this
    obtain ⟨h', e1, e2, -⟩ := this
    rw [he] at e1
    injection e1 with e1
    injection e1 with e1 _
    subst e1
    have e3 := congrFun e2 q
    simp only [flat, Spec.BlockMem.write, hs] at e3
    rw [e3, dif_neg (by omega)]
  · rw [if_neg hi, he] at this
    cases this

/-- A 5 MiB memory in blocks of 4 MiB, the second block short: the constructor accepts it. -/
example : construct (4 * 2 ^ 20) (5 * 2 ^ 20) 2 0 1 =
    .ok { unit := 1, alloc := 4 * 2 ^ 20, blockSize := 4 * 2 ^ 20, base := 0, max := 5 * 2 ^ 20, shift := 0,
          nblk := 2 } := by decide +kernel

/-- A store across the block boundary at 4 MiB, then an unaligned load over it. -/
example : inside 0 (5 * 2 ^ 20) (4 * 2 ^ 20 - 2) 4 ∧
    Spec.BlockMem.run 0 (5 * 2 ^ 20) (fun _ => 0) [.store (4 * 2 ^ 20 - 2) [1, 2, 3, 4], .load (4 * 2 ^ 20 - 1) 4] =
      some (Spec.BlockMem.write (fun _ => 0) (4 * 2 ^ 20 - 2) [1, 2, 3, 4], [[], [2, 3, 4, 0]]) := by
  refine ⟨by decide, ?_⟩
  have h1 : inside 0 5242880 4194302 4 := by decide
  have h2 : inside 0 5242880 4194303 4 := by decide
  simp [Spec.BlockMem.run, Spec.BlockMem.step, h1, h2, Spec.BlockMem.read, Spec.BlockMem.write, List.range,
    List.range.loop]

/-- C39, negation for a unit size above one: an access inside the memory reads past the end of its block. -/
theorem C39_unit_two_ub (junk : Buf) (heap : Heap) :
    ∃ c, construct 0x400000 0x800000 2 0 2 = .ok c ∧ inside c.base c.max 0x3fffff 2 ∧
      access c (fun _ => 2 * 0x400000) true 0x3fffff 4 junk heap = .ub := by
  refine ⟨{ unit := 2, alloc := 0x800000, blockSize := 0x400000, base := 0, max := 0x800000, shift := 1, nblk := 2 },
    by decide +kernel, by decide, ?_⟩
  rfl

/-- C39, negation for blocks of 2 GiB, whose size does not fit the `int` member: an access inside the memory has
undefined behaviour. -/
theorem C39_block_2GiB_ub (junk : Buf) (heap : Heap) :
    ∃ c, construct (2 ^ 31) (2 ^ 31) 1 0 1 = .ok c ∧ inside c.base c.max 4 4 ∧
      access c (fun _ => 2 ^ 31) true 4 4 junk heap = .ub := by
  refine ⟨{ unit := 1, alloc := -2 ^ 31, blockSize := 2 ^ 31, base := 0, max := 2 ^ 31, shift := 0, nblk := 1 },
    by decide +kernel, by decide, ?_⟩
  rfl

/-- C40: a scalar access is performed if and only if it is non-empty and lies inside `[base, base + size)`; otherwise
the process stops before touching a byte. There is no third outcome: in particular no access leaves the supplied
blocks, whose total length may be exactly the memory size. -/
theorem C40_bounds {blockSize memSize supplied base : Nat} {c : Cfg} {len : Nat → Nat}
    (h : construct blockSize memSize supplied base 1 = .ok c) (hbs : blockSize < 2 ^ 31)
    (hfit : base + memSize + blockSize ≤ 2 ^ 64)
    (hlen : ∀ i < supplied, min blockSize (base + memSize - i * blockSize) ≤ len i)
    (isLoad : Bool) (a n : Nat) (ha : a < 2 ^ 64) (hn : n < 2 ^ 31) (buf : Buf) (heap : Heap) :
    (inside base (base + memSize) a n → ∃ r, access c len isLoad a n buf heap = .ok r) ∧
    (¬ inside base (base + memSize) a n → access c len isLoad a n buf heap = .abort) := by
  obtain ⟨wf, hb, hm, hs⟩ := construct_wf h hbs hfit hlen
  rw [← hm]
  clear hm
  subst hb
  by_cases h0 : 0 < n
  · rw [access_eq wf isLoad a n buf heap h0]
    cases isLoad
    · obtain ⟨h1, h2⟩ := helper_store wf n a 0 n buf heap h0 hn ha (by omega)
      exact ⟨fun hi => by obtain ⟨h', e, -⟩ := h1 hi; exact ⟨_, e⟩, fun hi => h2 hi⟩
    · rw [helper_load wf n a 0 n buf heap h0 hn ha (by omega)]
      refine ⟨fun hi => ?_, fun hi => ?_⟩
      · rw [if_pos hi]; exact ⟨_, rfl⟩
      · rw [if_neg hi]
  · obtain rfl : n = 0 := by omega
    rw [access_zero wf]
    exact ⟨fun hi => absurd hi.2.2 (by omega), fun _ => rfl⟩

/-- C40: what a load returns depends only on the bytes of its own range. -/
theorem C40_reads_only_its_range {blockSize memSize supplied base : Nat} {c : Cfg} {len : Nat → Nat}
    (h : construct blockSize memSize supplied base 1 = .ok c) (hbs : blockSize < 2 ^ 31)
    (hfit : base + memSize + blockSize ≤ 2 ^ 64)
    (hlen : ∀ i < supplied, min blockSize (base + memSize - i * blockSize) ≤ len i)
    (a n : Nat) (ha : a < 2 ^ 64) (hn : n < 2 ^ 31) (junk junk' : Buf) (heap heap' : Heap)
    (heq : ∀ q, a ≤ q → q < a + n → heap (q / blockSize) (q % blockSize) = heap' (q / blockSize) (q % blockSize)) :
    (exec c len junk heap (.load a n) >>= fun r => .ok r.2) =
      (exec c len junk' heap' (.load a n) >>= fun r => .ok r.2) := by
  obtain ⟨wf, hb, hm, hs⟩ := construct_wf h hbs hfit hlen
  have e1 := exec_refines wf junk heap (.load a n) hn ha
  have e2 := exec_refines wf junk' heap' (.load a n) hn ha
  simp only [Spec.BlockMem.step] at e1 e2
  by_cases hi : inside c.base c.max a n
  · rw [if_pos hi] at e1 e2
    obtain ⟨g1, e1, -⟩ := e1
    obtain ⟨g2, e2, -⟩ := e2
    rw [e1, e2]
    simp only [Outcome.ok_bind]
    congr 1
    unfold Spec.BlockMem.read
    apply List.map_congr_left
    intro k hk
    simp only [List.mem_range] at hk
    simp only [flat, hs]
    exact heq (a + k) (by omega) (by omega)
  · rw [if_neg hi] at e1 e2
    rw [e1, e2]

/-- The last word of the memory is accepted, the word across its end is refused, and so is one whose end wraps
around `2^64`. -/
example : inside 0 (5 * 2 ^ 20) (5 * 2 ^ 20 - 4) 4 ∧ ¬ inside 0 (5 * 2 ^ 20) (5 * 2 ^ 20 - 3) 4 ∧
    ¬ inside 0 (5 * 2 ^ 20) (2 ^ 64 - 2) 4 := by decide

/-- C41: a gather loads exactly the elements whose mask bit is set, each from its own address, and leaves the bytes of
the other elements in the destination as they were; memory is unchanged. It is refused exactly when a selected
element does not lie inside. -/
theorem C41_gather {blockSize memSize supplied base : Nat} {c : Cfg} {len : Nat → Nat}
    (h : construct blockSize memSize supplied base 1 = .ok c) (hbs : blockSize < 2 ^ 31)
    (hfit : base + memSize + blockSize ≤ 2 ^ 64)
    (hlen : ∀ i < supplied, min blockSize (base + memSize - i * blockSize) ≤ len i)
    (junk : Buf) (heap : Heap) (addrs : List Nat) (mask : List Bool) (size : Nat) (dest : List (BitVec 8))
    (hl : legal (.gather addrs mask size dest)) (ha : ∀ a ∈ addrs, a < 2 ^ 64) :
    (Spec.BlockMem.allInside base (base + memSize) addrs mask size →
      ∃ r heap', exec c len junk heap (.gather addrs mask size dest) = .ok (heap', r) ∧
        (∀ q, heap' (q / blockSize) (q % blockSize) = heap (q / blockSize) (q % blockSize)) ∧
        r.length = dest.length ∧
        ∀ i k, k < size → i * size + k < dest.length →
          r[i * size + k]? = some (if mask[i]? = some true then
            heap ((Spec.BlockMem.elemAddr addrs size i + k) / blockSize)
              ((Spec.BlockMem.elemAddr addrs size i + k) % blockSize)
            else dest.getD (i * size + k) 0)) ∧
    (¬ Spec.BlockMem.allInside base (base + memSize) addrs mask size →
      exec c len junk heap (.gather addrs mask size dest) = .abort) := by
  obtain ⟨wf, hb, hm, hs⟩ := construct_wf h hbs hfit hlen
  have e1 := exec_refines wf junk heap (.gather addrs mask size dest) hl ha
  simp only [Spec.BlockMem.step, hb, hm] at e1
  refine ⟨fun hi => ?_, fun hi => ?_⟩
  · rw [if_pos hi] at e1
    obtain ⟨heap', q1, q2, -⟩ := e1
    refine ⟨_, heap', q1, fun q => ?_, by simp [Spec.BlockMem.gathered], ?_⟩
    · have := congrFun q2 q
      simpa only [flat, hs] using this
    · intro i k hk hd
      have hsz : 0 < size := by omega
      have d1 : (i * size + k) / size = i := by
        rw [Nat.mul_comm, Nat.mul_add_div hsz, Nat.div_eq_of_lt hk, Nat.add_zero]
      have d2 : (i * size + k) % size = k := by
        rw [Nat.mul_comm, Nat.mul_add_mod, Nat.mod_eq_of_lt hk]
      simp only [Spec.BlockMem.gathered, List.getElem?_map, List.getElem?_range hd, Option.map_some, d1, d2, flat, hs]
  · rw [if_neg hi] at e1
    exact e1

/-- C41: a scatter stores exactly the elements whose mask bit is set, in element order, each at its own address, and
touches no other byte. It is refused exactly when a selected element does not lie inside. -/
theorem C41_scatter {blockSize memSize supplied base : Nat} {c : Cfg} {len : Nat → Nat}
    (h : construct blockSize memSize supplied base 1 = .ok c) (hbs : blockSize < 2 ^ 31)
    (hfit : base + memSize + blockSize ≤ 2 ^ 64)
    (hlen : ∀ i < supplied, min blockSize (base + memSize - i * blockSize) ≤ len i)
    (junk : Buf) (heap : Heap) (addrs : List Nat) (mask : List Bool) (size : Nat) (data : List (BitVec 8))
    (hl : legal (.scatter addrs mask size data)) (ha : ∀ a ∈ addrs, a < 2 ^ 64) :
    (Spec.BlockMem.allInside base (base + memSize) addrs mask size →
      ∃ heap', exec c len junk heap (.scatter addrs mask size data) = .ok (heap', []) ∧
        flat c heap' = Spec.BlockMem.scattered addrs size data 0 mask (flat c heap) ∧
        ∀ q, (∀ i < mask.length, mask[i]? = some true →
            ¬ (Spec.BlockMem.elemAddr addrs size i ≤ q ∧ q < Spec.BlockMem.elemAddr addrs size i + size)) →
          flat c heap' q = flat c heap q) ∧
    (¬ Spec.BlockMem.allInside base (base + memSize) addrs mask size →
      exec c len junk heap (.scatter addrs mask size data) = .abort) := by
  obtain ⟨wf, hb, hm, hs⟩ := construct_wf h hbs hfit hlen
  have e1 := exec_refines wf junk heap (.scatter addrs mask size data) hl ha
  simp only [Spec.BlockMem.step, hb, hm] at e1
  refine ⟨fun hi => ?_, fun hi => ?_⟩
  · rw [if_pos hi] at e1
    obtain ⟨heap', q1, q2, -⟩ := e1
    refine ⟨heap', q1, q2, fun q hq => ?_⟩
    rw [q2]
    exact scattered_frame addrs size data q mask 0 _ (by simpa using hq)
  · rw [if_neg hi] at e1
    exact e1

/-- A gather of three words, the middle one masked off, from addresses one of which crosses a block boundary. -/
example : legal (.gather [0x10, 0x20, 0x3ffffe] [true, false, true] 4 (List.replicate 12 0)) ∧
    Spec.BlockMem.allInside 0 (5 * 2 ^ 20) [0x10, 2 ^ 40, 0x3ffffe] [true, false, true] 4 := by
  refine ⟨?_, by decide⟩
  simp [legal]

end Verif.Props
