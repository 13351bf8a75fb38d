import Mathlib.Tactic.Ring
import Mathlib.Tactic.Linarith
import Verif.Model.RenodeMem
import Verif.Spec.BlockMem

/-!
# Helper lemmas for the block-list memory
-/

namespace Verif.Proofs.RenodeMem

open Verif.Model.RenodeMem
open Verif.Spec.BlockMem (Flat inside read write gathered scattered elemAddr allInside legal addr64)

/-- A usable configuration: byte addressing, blocks that fit an `int`, and blocks long enough to hold the bytes below
the limit (the last block may be short). -/
structure WF (c : Cfg) (len : Nat → Nat) : Prop where
  unit : c.unit = 1
  shift : c.shift = 0
  alloc : c.alloc = c.blockSize
  pos : 0 < c.blockSize
  small : c.blockSize < 2147483648
  max64 : c.max < 18446744073709551616
  cover : c.max ≤ c.nblk * c.blockSize
  nblk : c.nblk < 2147483648
  blocks : ∀ i < c.nblk, min c.blockSize (c.max - i * c.blockSize) ≤ len i

theorem toI32_id (x : Int) (h : -2147483648 ≤ x) (h' : x < 2147483648) : toI32 x = x := by
  unfold toI32; omega

theorem toI32_nat (k : Nat) (h : k < 2147483648) : toI32 (k : Int) = (k : Int) :=
  toI32_id _ (by omega) (by omega)

theorem chk32_nat (k : Nat) (h : k < 2147483648) : chk32 (k : Int) = .ok (k : Int) := by
  unfold chk32
  rw [if_pos (by omega)]

attribute [local irreducible] toI32 chk32 shl32

theorem chk32_ok (x : Int) (h : -2147483648 ≤ x) (h' : x < 2147483648) : chk32 x = .ok x := by
  unfold chk32; simp only [h, h', and_self, if_true]

theorem shl32_zero (x : Nat) (h' : x < 2147483648) : shl32 x 0 = .ok (x : Int) := by
  unfold shl32
  rw [if_pos (by omega)]
  have : (x : Int) * 2 ^ 0 = x := by simp
  rw [this]; exact chk32_ok _ (by omega) (by omega)

/-- Length of the part of a request that lies in the block of its first byte. -/
def chunkLen (bs address size : Nat) : Nat := min size (bs - address % bs)

def heapAfter (c : Cfg) (isLoad : Bool) (address pos n : Nat) (buf : Buf) (heap : Heap) : Heap :=
  if isLoad then heap else
    fun i => if i = address / c.blockSize then
      copy (heap (address / c.blockSize)) (address % c.blockSize) buf pos n else heap i

def bufAfter (c : Cfg) (isLoad : Bool) (address pos n : Nat) (buf : Buf) (heap : Heap) : Buf :=
  if isLoad then copy buf pos (heap (address / c.blockSize)) (address % c.blockSize) n else buf

theorem loop_step {c : Cfg} {len : Nat → Nat} (wf : WF c len) (isLoad : Bool) (buflen fuel address pos size : Nat)
    (buf : Buf) (heap : Heap) (hs : 0 < size) (hs' : size < 2147483648) (ha : address + size ≤ c.max)
    (hb : pos + size ≤ buflen) :
    loop c len buflen isLoad (fuel + 1) address pos size buf heap =
      (if 0 < size - chunkLen c.blockSize address size then
        loop c len buflen isLoad fuel (address + chunkLen c.blockSize address size)
          (pos + chunkLen c.blockSize address size)
          ((size - chunkLen c.blockSize address size : Nat) : Int)
          (bufAfter c isLoad address pos (chunkLen c.blockSize address size) buf heap)
          (heapAfter c isLoad address pos (chunkLen c.blockSize address size) buf heap)
      else .ok (bufAfter c isLoad address pos (chunkLen c.blockSize address size) buf heap,
          heapAfter c isLoad address pos (chunkLen c.blockSize address size) buf heap)) := by
  obtain ⟨hu, hsh, hal, hp, hsm, hm, hc, _, hbl⟩ := wf
  set bs := c.blockSize with hbs
  have hmod : address % bs < bs := Nat.mod_lt _ hp
  have hdm : bs * (address / bs) + address % bs = address := Nat.div_add_mod _ _
  have hidx : address / bs < c.nblk := by
    rw [Nat.div_lt_iff_lt_mul hp]; omega
  have hoff : address - address / bs * bs = address % bs := by
    rw [Nat.mul_comm]; omega
  have hmul : address / bs * bs = bs * (address / bs) := Nat.mul_comm _ _
  set n := chunkLen bs address size with hn
  have hn1 : n = min size (bs - address % bs) := rfl
  have hn0 : 0 < n := by omega
  have hns : n ≤ size := by omega
  have hmod31 : address % bs < 2147483648 := by omega
  have hav31 : bs - address % bs < 2147483648 := by omega
  have hn31 : n < 2147483648 := by omega
  have hsn31 : size - n < 2147483648 := by omega
  have e0 : (bs : Int) - ((address % bs : Nat) : Int) = ((bs - address % bs : Nat) : Int) := by omega
  have e2 : min (size : Int) ((bs - address % bs : Nat) : Int) = (n : Int) := by omega
  have e3 : (size : Int) - (n : Int) = ((size - n : Nat) : Int) := by omega
  have hlen : address % bs + n ≤ len (address / bs) := by
    have := hbl (address / bs) hidx
    rw [hmul] at this
    omega
  have h64 : (address + n) % 18446744073709551616 = address + n := Nat.mod_eq_of_lt (by omega)
  have hpos : pos + n ≤ buflen := by omega
  have hidx' : ¬ c.nblk ≤ address / bs := by omega
  simp only [loop, ← hbs, hsh]
  rw [if_neg hidx', hoff, toI32_nat _ hmod31, hal, e0, chk32_nat _ hav31]
  simp -implicitDefEqProofs only [Outcome.ok_bind, e2]
  rw [shl32_zero n hn31, shl32_zero _ hmod31]
  simp -implicitDefEqProofs only [Outcome.ok_bind, Int.toNat_natCast, e3]
  rw [if_pos ⟨hlen, hpos⟩, chk32_nat _ hsn31]
  simp -implicitDefEqProofs only [Outcome.ok_bind, h64, bufAfter, heapAfter, ← hbs]
  by_cases h : 0 < size - n
  · rw [if_pos h, if_pos (Int.natCast_pos.2 h)]
  · rw [if_neg h, if_neg (fun h' => h (Int.natCast_pos.1 h'))]

/-- Offsets inside one block are additive. -/
theorem flat_add {c : Cfg} (heap : Heap) (address k : Nat) (hp : 0 < c.blockSize)
    (hk : address % c.blockSize + k < c.blockSize) :
    flat c heap (address + k) = heap (address / c.blockSize) (address % c.blockSize + k) := by
  unfold flat
  have e : address + k = (address % c.blockSize + k) + c.blockSize * (address / c.blockSize) := by
    have := Nat.div_add_mod address c.blockSize; omega
  have h1 : (address + k) / c.blockSize = address / c.blockSize := by
    conv_lhs => rw [e]
    rw [Nat.add_mul_div_left _ _ hp, Nat.div_eq_of_lt hk, Nat.zero_add]
  have h2 : (address + k) % c.blockSize = address % c.blockSize + k := by
    conv_lhs => rw [e]
    rw [Nat.add_mul_mod_self_left, Nat.mod_eq_of_lt hk]
  rw [h1, h2]

theorem bufAfter_load {c : Cfg} (address pos n : Nat) (buf : Buf) (heap : Heap) (hp : 0 < c.blockSize)
    (hn : address % c.blockSize + n ≤ c.blockSize) :
    bufAfter c true address pos n buf heap = copy buf pos (flat c heap) address n := by
  funext q
  simp only [bufAfter, if_true, copy]
  by_cases h : pos ≤ q ∧ q < pos + n
  · rw [if_pos h, if_pos h, flat_add heap address (q - pos) hp (by omega)]
  · rw [if_neg h, if_neg h]

theorem flat_heapAfter {c : Cfg} (address pos n : Nat) (buf : Buf) (heap : Heap) (hp : 0 < c.blockSize)
    (hn : address % c.blockSize + n ≤ c.blockSize) :
    flat c (heapAfter c false address pos n buf heap) = copy (flat c heap) address buf pos n := by
  funext q
  have hq : q % c.blockSize < c.blockSize := Nat.mod_lt _ hp
  have hdq := Nat.div_add_mod q c.blockSize
  have hda := Nat.div_add_mod address c.blockSize
  by_cases h : q / c.blockSize = address / c.blockSize
  · have e : flat c (heapAfter c false address pos n buf heap) q =
        copy (heap (address / c.blockSize)) (address % c.blockSize) buf pos n (q % c.blockSize) := by
      simp [flat, heapAfter, h]
    rw [e]
    simp only [copy]
    rw [h] at hdq
    by_cases h2 : address % c.blockSize ≤ q % c.blockSize ∧ q % c.blockSize < address % c.blockSize + n
    · rw [if_pos h2, if_pos (by omega)]
      congr 1; omega
    · rw [if_neg h2, if_neg (by omega)]
      simp [flat, h]
  · have e : flat c (heapAfter c false address pos n buf heap) q = flat c heap q := by
      simp [flat, heapAfter, h]
    rw [e]
    simp only [copy]
    rw [if_neg]
    rintro ⟨h1, h2⟩
    apply h
    have : q = (address % c.blockSize + (q - address)) + c.blockSize * (address / c.blockSize) := by omega
    rw [this, Nat.add_mul_div_left _ _ hp, Nat.div_eq_of_lt (by omega), Nat.zero_add]

theorem copy_copy (dst : Nat → BitVec 8) (d : Nat) (src : Nat → BitVec 8) (s n m : Nat) :
    copy (copy dst d src s n) (d + n) src (s + n) m = copy dst d src s (n + m) := by
  funext q
  simp only [copy]
  by_cases h1 : d + n ≤ q ∧ q < d + n + m
  · rw [if_pos h1, if_pos (by omega)]; congr 1; omega
  · rw [if_neg h1]
    by_cases h2 : d ≤ q ∧ q < d + n
    · rw [if_pos h2, if_pos (by omega)]
    · rw [if_neg h2, if_neg (by omega)]

theorem loop_load {c : Cfg} {len : Nat → Nat} (wf : WF c len) (buflen : Nat) (heap : Heap) :
    ∀ (fuel address pos size : Nat) (buf : Buf), 0 < size → size < 2147483648 → size ≤ fuel →
      address + size ≤ c.max → pos + size ≤ buflen →
      loop c len buflen true fuel address pos size buf heap =
        .ok (copy buf pos (flat c heap) address size, heap)
  | 0, _, _, _, _, h1, _, h3, _, _ => by omega
  | fuel + 1, address, pos, size, buf, h1, h2, h3, h4, h5 => by
    rw [loop_step wf true buflen fuel address pos size buf heap h1 h2 h4 h5]
    have hp := wf.pos
    have hmod : address % c.blockSize < c.blockSize := Nat.mod_lt _ hp
    have hn : chunkLen c.blockSize address size = min size (c.blockSize - address % c.blockSize) := rfl
    rw [bufAfter_load _ _ _ _ _ hp (by omega)]
    simp only [heapAfter, if_true]
    by_cases h : 0 < size - chunkLen c.blockSize address size
    · rw [if_pos h, loop_load wf buflen heap fuel _ _ _ _ h (by omega) (by omega) (by omega) (by omega),
        copy_copy]
      congr 4; omega
    · rw [if_neg h]
      congr 4; omega

theorem loop_store {c : Cfg} {len : Nat → Nat} (wf : WF c len) (buflen : Nat) (buf : Buf) :
    ∀ (fuel address pos size : Nat) (heap : Heap), 0 < size → size < 2147483648 → size ≤ fuel →
      address + size ≤ c.max → pos + size ≤ buflen →
      ∃ heap', loop c len buflen false fuel address pos size buf heap = .ok (buf, heap') ∧
        flat c heap' = copy (flat c heap) address buf pos size ∧
        (∀ i o, c.blockSize ≤ o → heap' i o = heap i o)
  | 0, _, _, _, _, h1, _, h3, _, _ => by omega
  | fuel + 1, address, pos, size, heap, h1, h2, h3, h4, h5 => by
    rw [loop_step wf false buflen fuel address pos size buf heap h1 h2 h4 h5]
    have hp := wf.pos
    have hmod : address % c.blockSize < c.blockSize := Nat.mod_lt _ hp
    have hn : chunkLen c.blockSize address size = min size (c.blockSize - address % c.blockSize) := rfl
    have hf := flat_heapAfter address pos (chunkLen c.blockSize address size) buf heap hp (by omega)
    have ho : ∀ i o, c.blockSize ≤ o →
        heapAfter c false address pos (chunkLen c.blockSize address size) buf heap i o = heap i o := by
      intro i o h
      simp only [heapAfter, Bool.false_eq_true, if_false]
      split
      · next e => subst e; simp only [copy]; rw [if_neg (by omega)]
      · rfl
    simp only [bufAfter, Bool.false_eq_true, if_false]
    by_cases h : 0 < size - chunkLen c.blockSize address size
    · rw [if_pos h]
      obtain ⟨h', e1, e2, e3⟩ := loop_store wf buflen buf fuel (address + chunkLen c.blockSize address size)
        (pos + chunkLen c.blockSize address size) (size - chunkLen c.blockSize address size)
        (heapAfter c false address pos (chunkLen c.blockSize address size) buf heap)
        h (by omega) (by omega) (by omega) (by omega)
      refine ⟨h', e1, ?_, fun i o hio => by rw [e3 i o hio, ho i o hio]⟩
      rw [e2, hf, copy_copy]
      congr 1; omega
    · rw [if_neg h]
      refine ⟨_, rfl, ?_, ho⟩
      rw [hf]; congr 1; omega

theorem addU64_nat (a k : Nat) : addU64 a (k : Int) = (a + k) % 18446744073709551616 := by
  unfold addU64; omega

theorem max_small {c : Cfg} {len : Nat → Nat} (wf : WF c len) : c.max < 4611686018427387904 := by
  have h1 := wf.cover
  have h2 := wf.nblk
  have h3 := wf.small
  have : c.nblk * c.blockSize < 2147483648 * 2147483648 :=
    Nat.mul_lt_mul'' h2 h3
  omega

/-- The validity check and the helper's own assertion together accept exactly the requests that lie inside. -/
theorem valid_iff {c : Cfg} {len : Nat → Nat} (wf : WF c len) (a n : Nat) (hn : 0 < n) (hn' : n < 2147483648)
    (ha : a < 18446744073709551616) :
    (isValid c a (addU64 a n) = true ∧ a < c.max) ↔ inside c.base c.max a n := by
  have h := max_small wf
  have e := addU64_nat a n
  simp only [isValid, inside, Bool.and_eq_true, decide_eq_true_eq]
  rw [e]
  omega

theorem helper_load {c : Cfg} {len : Nat → Nat} (wf : WF c len) (buflen a pos n : Nat) (buf : Buf) (heap : Heap)
    (hn : 0 < n) (hn' : n < 2147483648) (ha : a < 18446744073709551616) (hb : pos + n ≤ buflen) :
    (if isValid c a (addU64 a n) = true then helper c len buflen true a pos n buf heap else .abort) =
      if inside c.base c.max a n then .ok (copy buf pos (flat c heap) a n, heap) else .abort := by
  have hv := valid_iff wf a n hn hn' ha
  by_cases hi : inside c.base c.max a n
  · obtain ⟨h1, h2⟩ := hv.2 hi
    rw [if_pos h1, if_pos hi]
    unfold helper
    rw [if_pos h2, Int.toNat_natCast]
    exact loop_load wf buflen heap (n + 1) a pos n buf hn hn' (by omega) hi.2.1 hb
  · rw [if_neg hi]
    split
    · next h1 =>
      unfold helper
      rw [if_neg (fun h2 => hi (hv.1 ⟨h1, h2⟩))]
    · rfl

theorem helper_store {c : Cfg} {len : Nat → Nat} (wf : WF c len) (buflen a pos n : Nat) (buf : Buf) (heap : Heap)
    (hn : 0 < n) (hn' : n < 2147483648) (ha : a < 18446744073709551616) (hb : pos + n ≤ buflen) :
    (inside c.base c.max a n →
      ∃ heap', (if isValid c a (addU64 a n) = true then helper c len buflen false a pos n buf heap else .abort) =
        .ok (buf, heap') ∧ flat c heap' = copy (flat c heap) a buf pos n ∧
        (∀ i o, c.blockSize ≤ o → heap' i o = heap i o)) ∧
    (¬ inside c.base c.max a n →
      (if isValid c a (addU64 a n) = true then helper c len buflen false a pos n buf heap else .abort) = .abort) := by
  have hv := valid_iff wf a n hn hn' ha
  refine ⟨fun hi => ?_, fun hi => ?_⟩
  · obtain ⟨h1, h2⟩ := hv.2 hi
    rw [if_pos h1]
    unfold helper
    rw [if_pos h2, Int.toNat_natCast]
    exact loop_store wf buflen buf (n + 1) a pos n heap hn hn' (by omega) hi.2.1 hb
  · split
    · next h1 =>
      unfold helper
      rw [if_neg (fun h2 => hi (hv.1 ⟨h1, h2⟩))]
    · rfl

theorem access_eq {c : Cfg} {len : Nat → Nat} (wf : WF c len) (isLoad : Bool) (a n : Nat) (buf : Buf) (heap : Heap)
    (hn : 0 < n) :
    access c len isLoad a n buf heap =
      if isValid c a (addU64 a n) = true then helper c len n isLoad a 0 n buf heap else .abort := by
  unfold access
  rw [wf.unit, if_neg (by decide)]
  have e : Int.tdiv (n : Int) 1 = n := Int.tdiv_one _
  simp only [e]
  by_cases h : isValid c a (addU64 a n) = true
  · rw [if_pos ⟨h, by omega⟩, if_pos h]
  · rw [if_neg (fun h' => h h'.1), if_neg h]

theorem access_zero {c : Cfg} {len : Nat → Nat} (wf : WF c len) (isLoad : Bool) (a : Nat) (buf : Buf) (heap : Heap) :
    access c len isLoad a 0 buf heap = .abort := by
  unfold access
  rw [wf.unit, if_neg (by decide)]
  simp

theorem toList_copy (m : Flat) (junk : Buf) (a n : Nat) : toList (copy junk 0 m a n) n = read m a n := by
  unfold toList Spec.BlockMem.read
  apply List.map_congr_left
  intro k hk
  simp only [List.mem_range] at hk
  simp [copy, hk]

theorem copy_write (m : Flat) (d : List (BitVec 8)) (a : Nat) :
    copy m a (ofList d) 0 d.length = write m a d := by
  funext q
  unfold copy write ofList
  by_cases h : a ≤ q ∧ q - a < d.length
  · rw [if_pos (by omega), dif_pos h]
    simp [h.2]
  · rw [if_neg (by omega), dif_neg h]

/-- The address computed in the element loop. -/
theorem elem_address (addrs : List Nat) (i size : Nat) (hne : addrs ≠ [])
    (hlen : 1 < addrs.length → i < addrs.length) (hmul : i * size < 2147483648) :
    elemAddress addrs size i = .ok (elemAddr addrs size i) := by
  have h0 : 0 < addrs.length := List.length_pos_iff.2 hne
  have e : (((i : Int) * (size : Int)) % 4294967296).toNat = i * size := by
    have : (i : Int) * (size : Int) = ((i * size : Nat) : Int) := by push_cast; rfl
    rw [this]; omega
  unfold elemAddr elemAddress
  split
  · next h => simp [hlen h]
  · simp [h0, e]

theorem elemAddr_lt (addrs : List Nat) (i size : Nat) (h : ∀ a ∈ addrs, a < 18446744073709551616) :
    elemAddr addrs size i < 18446744073709551616 := by
  unfold elemAddr
  split
  · by_cases hi : i < addrs.length
    · have e : addrs.getD i 0 = addrs[i] := by simp [hi]
      rw [e]; exact h _ (List.getElem_mem hi)
    · have e : addrs.getD i 0 = 0 := by simp [List.getElem?_eq_none (Nat.le_of_not_lt hi)]
      rw [e]; decide
  · exact Nat.mod_lt _ (by decide)

/-- One element of a vector access. -/
theorem elems_true (c : Cfg) (len : Nat → Nat) (isLoad : Bool) (buflen size i : Nat) (addrs : List Nat)
    (mask : List Bool) (buf : Buf) (heap : Heap) (hne : addrs ≠ [])
    (hlen : 1 < addrs.length → i < addrs.length) (hmul : i * size < 2147483648) :
    elems c len buflen isLoad addrs size size i (true :: mask) buf heap =
      (if isValid c (elemAddr addrs size i) (addU64 (elemAddr addrs size i) size) = true then
          helper c len buflen isLoad (elemAddr addrs size i) (i * size) size buf heap
        else .abort) >>= fun r => elems c len buflen isLoad addrs size size (i + 1) mask r.1 r.2 := by
  have e : (((size : Int) * (i : Int)) % 4294967296).toNat = i * size := by
    have : (size : Int) * (i : Int) = ((i * size : Nat) : Int) := by push_cast; ring
    rw [this]; omega
  rw [elems, elem_address addrs i size hne hlen hmul, Outcome.ok_bind, e]
  by_cases h : isValid c (elemAddr addrs size i) (addU64 (elemAddr addrs size i) size) = true
  · simp -implicitDefEqProofs only [h, if_true]
  · simp -implicitDefEqProofs only [h, if_false, Outcome.abort_bind, Bool.false_eq_true]

/-- The buffer after the elements `i, i+1, …` of a gather. -/
def gatherBuf (m : Flat) (addrs : List Nat) (size : Nat) : Nat → List Bool → Buf → Buf
  | _, [], buf => buf
  | i, b :: mask, buf =>
    gatherBuf m addrs size (i + 1) mask (if b then copy buf (i * size) m (elemAddr addrs size i) size else buf)

def insideFrom (lo hi : Nat) (addrs : List Nat) (size : Nat) : Nat → List Bool → Prop
  | _, [] => True
  | i, b :: mask => (b = true → inside lo hi (elemAddr addrs size i) size) ∧ insideFrom lo hi addrs size (i + 1) mask

theorem insideFrom_iff (lo hi : Nat) (addrs : List Nat) (size : Nat) :
    ∀ (i : Nat) (mask : List Bool), insideFrom lo hi addrs size i mask ↔
      ∀ k < mask.length, mask[k]? = some true → inside lo hi (elemAddr addrs size (i + k)) size
  | _, [] => by simp [insideFrom]
  | i, b :: mask => by
    rw [insideFrom, insideFrom_iff lo hi addrs size (i + 1) mask]
    constructor
    · rintro ⟨h1, h2⟩ k hk hm
      cases k with
      | zero => exact h1 (by simpa using hm)
      | succ k =>
        have := h2 k (by simpa using hk) (by simpa using hm)
        rwa [show i + (k + 1) = i + 1 + k by omega]
    · intro h
      refine ⟨fun hb => h 0 (by simp) (by simp [hb]), fun k hk hm => ?_⟩
      have := h (k + 1) (by simpa using hk) (by simpa using hm)
      rwa [show i + 1 + k = i + (k + 1) by omega]

theorem allInside_iff (lo hi : Nat) (addrs : List Nat) (mask : List Bool) (size : Nat) :
    allInside lo hi addrs mask size ↔ insideFrom lo hi addrs size 0 mask := by
  rw [insideFrom_iff]; simp [allInside]

theorem elems_load {c : Cfg} {len : Nat → Nat} (wf : WF c len) (buflen size : Nat) (addrs : List Nat) (heap : Heap)
    (hne : addrs ≠ []) (hsz : 0 < size) (ha : ∀ a ∈ addrs, a < 18446744073709551616) (hbl : buflen < 2147483648) :
    ∀ (mask : List Bool) (i : Nat) (buf : Buf), (1 < addrs.length → i + mask.length ≤ addrs.length) →
      (i + mask.length) * size ≤ buflen →
      (insideFrom c.base c.max addrs size i mask →
        elems c len buflen true addrs size size i mask buf heap =
          .ok (gatherBuf (flat c heap) addrs size i mask buf, heap)) ∧
      (¬ insideFrom c.base c.max addrs size i mask →
        elems c len buflen true addrs size size i mask buf heap = .abort)
  | [], i, buf, _, _ => by simp [elems, gatherBuf, insideFrom]
  | false :: mask, i, buf, h1, h2 => by
    have e1 : i + (false :: mask).length = i + 1 + mask.length := by simp; omega
    rw [e1] at h1 h2
    have ih := elems_load wf buflen size addrs heap hne hsz ha hbl mask (i + 1) buf h1 h2
    simpa [elems, gatherBuf, insideFrom] using ih
  | true :: mask, i, buf, h1, h2 => by
    have e1 : i + (true :: mask).length = i + 1 + mask.length := by simp; omega
    rw [e1] at h1 h2
    have hle : (i + 1) * size ≤ (i + 1 + mask.length) * size := Nat.mul_le_mul_right _ (by omega)
    have e2 : (i + 1) * size = i * size + size := by ring
    have hb : i * size + size ≤ buflen := by omega
    rw [elems_true c len true buflen size i addrs mask buf heap hne (fun h => by have := h1 h; omega) (by omega),
      helper_load wf buflen _ _ _ _ _ hsz (by omega) (elemAddr_lt _ _ _ ha) hb]
    by_cases hi : inside c.base c.max (elemAddr addrs size i) size
    · rw [if_pos hi, Outcome.ok_bind]
      have ih := elems_load wf buflen size addrs heap hne hsz ha hbl mask (i + 1)
        (copy buf (i * size) (flat c heap) (elemAddr addrs size i) size) h1 h2
      simpa [gatherBuf, insideFrom, hi] using ih
    · rw [if_neg hi, Outcome.abort_bind]
      exact ⟨fun h => absurd (h.1 rfl) hi, fun _ => rfl⟩

theorem elems_store {c : Cfg} {len : Nat → Nat} (wf : WF c len) (size : Nat) (addrs : List Nat)
    (d : List (BitVec 8))
    (hne : addrs ≠ []) (hsz : 0 < size) (ha : ∀ a ∈ addrs, a < 18446744073709551616)
    (hbl : d.length < 2147483648) :
    ∀ (mask : List Bool) (i : Nat) (heap : Heap), (1 < addrs.length → i + mask.length ≤ addrs.length) →
      (i + mask.length) * size ≤ d.length →
      (insideFrom c.base c.max addrs size i mask →
        ∃ heap', elems c len d.length false addrs size size i mask (ofList d) heap = .ok (ofList d, heap') ∧
          flat c heap' = scattered addrs size d i mask (flat c heap) ∧
          (∀ i o, c.blockSize ≤ o → heap' i o = heap i o)) ∧
      (¬ insideFrom c.base c.max addrs size i mask →
        elems c len d.length false addrs size size i mask (ofList d) heap = .abort)
  | [], i, heap, _, _ => by simp [elems, scattered, insideFrom]
  | false :: mask, i, heap, h1, h2 => by
    have e1 : i + (false :: mask).length = i + 1 + mask.length := by simp; omega
    rw [e1] at h1 h2
    have ih := elems_store wf size addrs d hne hsz ha hbl mask (i + 1) heap h1 h2
    simpa [elems, scattered, insideFrom] using ih
  | true :: mask, i, heap, h1, h2 => by
    have e1 : i + (true :: mask).length = i + 1 + mask.length := by simp; omega
    rw [e1] at h1 h2
    have hle : (i + 1) * size ≤ (i + 1 + mask.length) * size := Nat.mul_le_mul_right _ (by omega)
    have e2 : (i + 1) * size = i * size + size := by ring
    have hb : i * size + size ≤ d.length := by omega
    rw [elems_true c len false d.length size i addrs mask (ofList d) heap hne (fun h => by have := h1 h; omega)
      (by omega)]
    obtain ⟨hs1, hs2⟩ := helper_store wf d.length (elemAddr addrs size i) (i * size) size (ofList d) heap hsz
      (by omega) (elemAddr_lt _ _ _ ha) hb
    by_cases hi : inside c.base c.max (elemAddr addrs size i) size
    · obtain ⟨h', q1, q2, q3⟩ := hs1 hi
      rw [q1, Outcome.ok_bind]
      obtain ⟨ih1, ih2⟩ := elems_store wf size addrs d hne hsz ha hbl mask (i + 1) h' h1 h2
      refine ⟨fun hin => ?_, fun hin => ih2 (fun h => hin ⟨fun _ => hi, h⟩)⟩
      obtain ⟨h'', r1, r2, r3⟩ := ih1 hin.2
      refine ⟨h'', r1, ?_, fun i o ho => by rw [r3 i o ho, q3 i o ho]⟩
      rw [r2, q2, scattered, if_pos rfl]
      congr 1
      funext q
      unfold copy write ofList
      simp only [List.length_take, List.length_drop]
      by_cases hq : elemAddr addrs size i ≤ q ∧ q < elemAddr addrs size i + size
      · rw [if_pos hq, dif_pos (by omega)]
        have : i * size + (q - elemAddr addrs size i) < d.length := by omega
        simp [this]
      · rw [if_neg hq, dif_neg (by omega)]
    · rw [hs2 hi, Outcome.abort_bind]
      exact ⟨fun h => absurd (h.1 rfl) hi, fun _ => rfl⟩

/-- Closed form of the gathered buffer. -/
theorem gatherBuf_eq (m : Flat) (addrs : List Nat) (size : Nat) (hsz : 0 < size) :
    ∀ (mask : List Bool) (i : Nat) (buf : Buf) (q : Nat),
      gatherBuf m addrs size i mask buf q =
        if i ≤ q / size ∧ mask[q / size - i]? = some true then m (elemAddr addrs size (q / size) + q % size)
        else buf q
  | [], i, buf, q => by simp [gatherBuf]
  | b :: mask, i, buf, q => by
    rw [gatherBuf, gatherBuf_eq m addrs size hsz mask (i + 1)]
    have hdm := Nat.div_add_mod q size
    have hmod := Nat.mod_lt q hsz
    by_cases h : i + 1 ≤ q / size
    · have e : q / size - i = (q / size - (i + 1)) + 1 := by omega
      have e2 : (b :: mask)[q / size - i]? = mask[q / size - (i + 1)]? := by rw [e]; rfl
      rw [e2]
      by_cases h2 : mask[q / size - (i + 1)]? = some true
      · rw [if_pos ⟨h, h2⟩, if_pos ⟨by omega, h2⟩]
      · have hr : (if i ≤ q / size ∧ mask[q / size - (i + 1)]? = some true then
            m (elemAddr addrs size (q / size) + q % size) else buf q) = buf q := if_neg (fun h' => h2 h'.2)
        rw [if_neg (fun h' : i + 1 ≤ q / size ∧ _ => h2 h'.2), hr]
        cases b
        · rfl
        · simp only [if_true, copy]
          rw [if_neg]
          rintro ⟨_, h4⟩
          have : size * (i + 1) ≤ size * (q / size) := Nat.mul_le_mul_left _ h
          have e3 : size * (i + 1) = i * size + size := by ring
          omega
    · rw [if_neg (fun h' : i + 1 ≤ q / size ∧ _ => h h'.1)]
      by_cases h3 : q / size = i
      · rw [h3, Nat.sub_self]
        rw [h3] at hdm
        have e3 : size * i = i * size := by ring
        cases b
        · simp
        · simp only [if_true, copy]
          rw [if_pos (by omega), if_pos (by simp)]
          congr 1; omega
      · have hr : (if i ≤ q / size ∧ (b :: mask)[q / size - i]? = some true then
            m (elemAddr addrs size (q / size) + q % size) else buf q) = buf q := if_neg (fun h' => by omega)
        rw [hr]
        cases b
        · rfl
        · simp only [if_true, copy]
          rw [if_neg]
          rintro ⟨h4, h5⟩
          apply h3
          rw [Nat.div_eq_iff hsz]
          have e3 : (i + 1) * size = i * size + size := by ring
          constructor <;> omega

theorem vaccess_eq {c : Cfg} {len : Nat → Nat} (wf : WF c len) (isLoad : Bool) (addrs : List Nat) (mask : List Bool)
    (size n : Nat) (buf : Buf) (heap : Heap) (hsz : 0 < size) :
    vaccess c len isLoad addrs mask size n buf heap = elems c len n isLoad addrs size size 0 mask buf heap := by
  unfold vaccess
  rw [wf.unit, if_neg (by decide)]
  have e : Int.tdiv (size : Int) 1 = size := Int.tdiv_one _
  simp only [e]
  rw [if_pos (by omega)]

/-- One transaction on the blocks is one transaction on flat memory. -/
theorem exec_refines {c : Cfg} {len : Nat → Nat} (wf : WF c len) (junk : Buf) (heap : Heap)
    (op : Spec.BlockMem.Op) (hl : legal op) (h64 : addr64 op) :
    match Spec.BlockMem.step c.base c.max (flat c heap) op with
    | none => exec c len junk heap op = .abort
    | some (m, r) => ∃ heap', exec c len junk heap op = .ok (heap', r) ∧ flat c heap' = m ∧
        (∀ i o, c.blockSize ≤ o → heap' i o = heap i o) := by
  cases op with
  | load a n =>
    simp only [Spec.BlockMem.step, exec, legal, addr64] at *
    by_cases hn : 0 < n
    · rw [access_eq wf true a n junk heap hn, helper_load wf n a 0 n junk heap hn hl h64 (by omega)]
      by_cases hi : inside c.base c.max a n
      · rw [if_pos hi, if_pos hi]
        exact ⟨heap, by rw [Outcome.ok_bind, toList_copy], rfl, fun _ _ _ => rfl⟩
      · rw [if_neg hi, if_neg hi]; rfl
    · obtain rfl : n = 0 := by omega
      rw [if_neg (by simp [inside]), access_zero wf]; rfl
  | store a d =>
    simp only [Spec.BlockMem.step, exec, legal, addr64] at *
    by_cases hn : 0 < d.length
    · rw [access_eq wf false a d.length (ofList d) heap hn]
      obtain ⟨h1, h2⟩ := helper_store wf d.length a 0 d.length (ofList d) heap hn hl h64 (by omega)
      by_cases hi : inside c.base c.max a d.length
      · obtain ⟨h', e1, e2, e3⟩ := h1 hi
        rw [if_pos hi, e1]
        exact ⟨h', by rw [Outcome.ok_bind], by rw [e2, copy_write], e3⟩
      · rw [if_neg hi, h2 hi]; rfl
    · have h0 : d.length = 0 := by omega
      rw [h0, if_neg (by simp [inside]), access_zero wf]; rfl
  | gather as mask size d =>
    simp only [Spec.BlockMem.step, exec, legal, addr64] at *
    obtain ⟨hne, hml, hsz, hd, hdl⟩ := hl
    rw [vaccess_eq wf true as mask size d.length (ofList d) heap hsz]
    obtain ⟨h1, h2⟩ := elems_load wf d.length size as heap hne hsz h64 hdl mask 0 (ofList d)
      (by simpa using hml) (by simpa using hd)
    by_cases hi : allInside c.base c.max as mask size
    · rw [if_pos hi, h1 ((allInside_iff _ _ _ _ _).1 hi)]
      refine ⟨heap, ?_, rfl, fun _ _ _ => rfl⟩
      rw [Outcome.ok_bind]
      congr 2
      unfold toList gathered
      apply List.map_congr_left
      intro q _
      show gatherBuf (flat c heap) as size 0 mask (ofList d) q = _
      rw [gatherBuf_eq _ _ _ hsz]
      simp [ofList]
    · rw [if_neg hi, h2 (fun h => hi ((allInside_iff _ _ _ _ _).2 h))]; rfl
  | scatter as mask size d =>
    simp only [Spec.BlockMem.step, exec, legal, addr64] at *
    obtain ⟨hne, hml, hsz, hd, hdl⟩ := hl
    rw [vaccess_eq wf false as mask size d.length (ofList d) heap hsz]
    obtain ⟨h1, h2⟩ := elems_store wf size as d hne hsz h64 hdl mask 0 heap
      (by simpa using hml) (by simpa using hd)
    by_cases hi : allInside c.base c.max as mask size
    · obtain ⟨h', e1, e2, e3⟩ := h1 ((allInside_iff _ _ _ _ _).1 hi)
      rw [if_pos hi, e1]
      exact ⟨h', by rw [Outcome.ok_bind], e2, e3⟩
    · rw [if_neg hi, h2 (fun h => hi ((allInside_iff _ _ _ _ _).2 h))]; rfl

theorem scattered_frame (addrs : List Nat) (size : Nat) (d : List (BitVec 8)) (q : Nat) :
    ∀ (mask : List Bool) (i : Nat) (m : Flat),
      (∀ k < mask.length, mask[k]? = some true →
        ¬ (elemAddr addrs size (i + k) ≤ q ∧ q < elemAddr addrs size (i + k) + size)) →
      scattered addrs size d i mask m q = m q
  | [], i, m, _ => by simp [scattered]
  | b :: mask, i, m, h => by
    rw [scattered, scattered_frame addrs size d q mask (i + 1)]
    · cases b
      · rfl
      · have h0 := h 0 (by simp) (by simp)
        simp only [if_true, Nat.add_zero] at h0 ⊢
        unfold write
        rw [dif_neg]
        simp only [List.length_take, List.length_drop]
        omega
    · intro k hk hm
      have := h (k + 1) (by simpa using hk) (by simpa using hm)
      rwa [show i + 1 + k = i + (k + 1) by omega]

/-- What the constructor builds from enough blocks of a usable size. -/
theorem construct_wf {blockSize memSize supplied base : Nat} {c : Cfg} {len : Nat → Nat}
    (h : construct blockSize memSize supplied base 1 = .ok c) (hbs : blockSize < 2147483648)
    (hfit : base + memSize + blockSize ≤ 18446744073709551616)
    (hlen : ∀ i < supplied, min blockSize (base + memSize - i * blockSize) ≤ len i) :
    WF c len ∧ c.base = base ∧ c.max = base + memSize ∧ c.blockSize = blockSize := by
  unfold construct at h
  by_cases hb : blockSize = 0
  · simp only [hb, if_true] at h
    split at h <;> cases h
  · have e1 : (base + memSize) % 18446744073709551616 = base + memSize := Nat.mod_eq_of_lt (by omega)
    have e2 : (base + memSize + blockSize - 1) % 18446744073709551616 = base + memSize + blockSize - 1 :=
      Nat.mod_eq_of_lt (by omega)
    simp only [e1, e2, hb, if_false] at h
    split at h
    · split at h
      · next hs =>
        injection h with h; subst h
        have hp : 0 < blockSize := by omega
        refine ⟨⟨toI32_nat 1 (by decide), by show Nat.log2 1 = 0; decide, ?_, hp, hbs, by show base + memSize < _; omega, ?_, hs.2, ?_⟩, rfl, rfl, rfl⟩
        · show toI32 _ = _
          rw [Nat.mul_one, Nat.mod_eq_of_lt (by omega)]
          exact toI32_nat _ hbs
        · show base + memSize ≤ (base + memSize + blockSize - 1) / blockSize * blockSize
          have h1 := Nat.div_add_mod (base + memSize + blockSize - 1) blockSize
          have h2 := Nat.mod_lt (base + memSize + blockSize - 1) hp
          rw [Nat.mul_comm]; omega
        · intro i hi
          exact hlen i (by have := hs.1; exact Nat.lt_of_lt_of_le hi this)
      · cases h
    · cases h

/-- A history of transactions. -/
theorem execAll_refines {c : Cfg} {len : Nat → Nat} (wf : WF c len) (junk : Buf) :
    ∀ (ops : List Spec.BlockMem.Op) (heap : Heap), (∀ op ∈ ops, legal op ∧ addr64 op) →
    match Spec.BlockMem.run c.base c.max (flat c heap) ops with
    | none => execAll c len junk heap ops = .abort
    | some (m, rs) => ∃ heap', execAll c len junk heap ops = .ok (heap', rs) ∧ flat c heap' = m ∧
        (∀ i o, c.blockSize ≤ o → heap' i o = heap i o)
  | [], heap, _ => by simp [Spec.BlockMem.run, execAll]
  | op :: ops, heap, h => by
    have h1 := exec_refines wf junk heap op (h op (by simp)).1 (h op (by simp)).2
    rw [Spec.BlockMem.run, execAll]
    cases hs : Spec.BlockMem.step c.base c.max (flat c heap) op with
    | none => rw [hs] at h1; simp only [h1, Outcome.abort_bind]
    | some p =>
      obtain ⟨m, r⟩ := p
      rw [hs] at h1
      obtain ⟨heap', e1, e2, e3⟩ := h1
      have h2 := execAll_refines wf junk ops heap' (fun o ho => h o (by simp [ho]))
      rw [e2] at h2
      simp only [e1, Outcome.ok_bind]
      cases hr : Spec.BlockMem.run c.base c.max m ops with
      | none => rw [hr] at h2; simp only [h2, Outcome.abort_bind]
      | some p2 =>
        obtain ⟨m', rs⟩ := p2
        rw [hr] at h2
        obtain ⟨heap'', q1, q2, q3⟩ := h2
        simp only [q1, Outcome.ok_bind]
        exact ⟨heap'', rfl, q2, fun i o ho => by rw [q3 i o ho, e3 i o ho]⟩

end Verif.Proofs.RenodeMem
