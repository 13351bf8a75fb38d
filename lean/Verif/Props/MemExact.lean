import Verif.Proofs.RenodeUnits
import Verif.Props.Memory

/-!
# C114: exactly which accesses of the Renode block memory have a result

C39 and C40 are about byte units and blocks below 2 GiB. Here the unit is any number of bytes and the blocks have up to 4 GiB;
every supplied block has the full `blockSize * unit` bytes.
-/

namespace Verif.Props

open Verif Verif.Model.RenodeMem Verif.Proofs.RenodeMem Verif.Proofs.RenodeUnits
open Verif.Spec.BlockMem (inside)
open Verif.Spec.BlockUnits

/-- The address is in a block at unit `a % B`; the access of `k` units stays in it. -/
def InOneBlock (B a k : Nat) : Prop := a % B + k ≤ B

/-- C114 for every unit of more than one byte. The size and the offset of an access are shifted by the logarithm of the unit, so
that every unit takes the place of the largest power of two, `2 ^ log2 u` bytes, that is not larger. An access is refused unless
its units lie inside; inside, it has a result if and only if what it reaches lies in the block of its first unit, and it then
transfers just those bytes. -/
theorem C114_any {B memSize supplied base u : Nat} {c : Cfg} {len : Nat → Nat}
    (h : construct B memSize supplied base u = .ok c) (hu : 2 ≤ u) (hB : B * u < 2 ^ 31)
    (hfit : base + memSize + B ≤ 2 ^ 64) (hlen : ∀ i < supplied, len i = B * u) (isLoad : Bool) (a n : Nat)
    (ha : a < 2 ^ 64) (hn : n < 2 ^ 31) (buf : Buf) (heap : Heap) :
    let v := 2 ^ Nat.log2 u
    (¬ inside base (base + memSize) a (n / u) → access c len isLoad a n buf heap = .abort) ∧
    (inside base (base + memSize) a (n / u) →
      ((a % B + n / u) * v ≤ B * u → ∃ buf' heap', access c len isLoad a n buf heap = .ok (buf', heap') ∧
        (isLoad = true → heap' = heap ∧ ∀ q, buf' q = if q < n / u * v then heap (a / B) (a % B * v + q) else buf q) ∧
        (isLoad = false → buf' = buf ∧ ∀ i o, heap' i o =
          if i = a / B ∧ a % B * v ≤ o ∧ o < a % B * v + n / u * v then buf (o - a % B * v) else heap i o)) ∧
      (B * u < (a % B + n / u) * v → access c len isLoad a n buf heap = .ub)) := by
  obtain ⟨v, hv⟩ : ∃ v, v = 2 ^ Nat.log2 u := ⟨_, rfl⟩
  have hB0 : 0 < B := by
    rcases Nat.eq_zero_or_pos B with h0 | h0
    · rw [h0] at h
      unfold construct at h
      simp only [if_true] at h
      split at h <;> cases h
    · exact h0
  have hBle : B ≤ B * u := Nat.le_mul_of_pos_right _ (by omega)
  have hvle : u ≤ B * u := Nat.le_mul_of_pos_left _ hB0
  have hvu : v ≤ u := by rw [hv]; exact pow_log2_le (by omega)
  obtain ⟨hm, hnb⟩ := construct_made h (by omega) (by omega) hfit
  obtain ⟨h1, h2⟩ := access_made hm (by omega) (by omega) len isLoad a n buf heap hn ha
  refine ⟨h2, fun hi => ?_⟩
  have hlt : a < base + memSize := by obtain ⟨_, q, r⟩ := hi; omega
  have hidx : a / B < supplied := by
    have := (blk hm a hlt).1
    omega
  rw [h1 hi]
  refine ⟨fun ho => ?_, fun ho => ?_⟩
  · have hbuf : n / u * 2 ^ Nat.log2 u ≤ n := by
      rw [← hv]
      exact (Nat.mul_le_mul_left _ hvu).trans (Nat.div_mul_le_self n u)
    refine ⟨_, _, loop_fits hm (by omega) (by omega) len n _ a 0 (n / u) isLoad buf heap hlt ho (hlen _ hidx) (by omega), ?_, ?_⟩
    · rintro rfl
      refine ⟨rfl, fun q => ?_⟩
      show (if 0 ≤ q ∧ q < 0 + n / u * 2 ^ Nat.log2 u then _ else _) = _
      rw [Nat.zero_add]
      simp only [Nat.zero_le, true_and, Nat.sub_zero]
    · rintro rfl
      refine ⟨rfl, fun i o => ?_⟩
      show (if i = a / B then copy (heap (a / B)) (a % B * 2 ^ Nat.log2 u) buf 0 (n / u * 2 ^ Nat.log2 u) else heap i) o = _
      rw [← hv]
      by_cases e : i = a / B
      · subst e
        rw [if_pos rfl]
        show (if a % B * v ≤ o ∧ o < a % B * v + n / u * v then buf (0 + (o - a % B * v)) else heap (a / B) o) = _
        simp only [Nat.zero_add, true_and]
      · rw [if_neg e, if_neg (fun hh => e hh.1)]
  · exact loop_over hm hu (by omega) len n _ a 0 (n / u) isLoad buf heap hlt ho (hlen _ hidx)

/-- C114: with units of `2 ^ s` bytes, `s` positive, an access is refused unless its units lie inside; inside, it has a result
if and only if it stays in one block. The result is then that of the bytes of its units. -/
theorem C114_units {B memSize supplied base s : Nat} {c : Cfg} {len : Nat → Nat}
    (h : construct B memSize supplied base (2 ^ s) = .ok c) (hs : 0 < s) (hB : B * 2 ^ s < 2 ^ 31)
    (hfit : base + memSize + B ≤ 2 ^ 64) (hlen : ∀ i < supplied, len i = B * 2 ^ s) (isLoad : Bool) (a n : Nat)
    (ha : a < 2 ^ 64) (hn : n < 2 ^ 31) (buf : Buf) (heap : Heap) :
    (¬ inside base (base + memSize) a (n / 2 ^ s) → access c len isLoad a n buf heap = .abort) ∧
    (inside base (base + memSize) a (n / 2 ^ s) →
      (InOneBlock B a (n / 2 ^ s) → ∃ buf' heap', access c len isLoad a n buf heap = .ok (buf', heap') ∧
        (isLoad = true → heap' = heap ∧ ∀ q, buf' q = if q < n / 2 ^ s * 2 ^ s then heap (a / B) (a % B * 2 ^ s + q) else buf q) ∧
        (isLoad = false → buf' = buf ∧ ∀ i o, heap' i o =
          if i = a / B ∧ a % B * 2 ^ s ≤ o ∧ o < a % B * 2 ^ s + n / 2 ^ s * 2 ^ s then buf (o - a % B * 2 ^ s)
          else heap i o)) ∧
      (¬ InOneBlock B a (n / 2 ^ s) → access c len isLoad a n buf heap = .ub)) := by
  have hv2 : 2 ≤ 2 ^ s := by
    calc 2 = 2 ^ 1 := rfl
      _ ≤ 2 ^ s := Nat.pow_le_pow_right (by omega) hs
  have h3 := C114_any h hv2 hB hfit hlen isLoad a n ha hn buf heap
  rw [Nat.log2_two_pow] at h3
  have hcond : InOneBlock B a (n / 2 ^ s) ↔ (a % B + n / 2 ^ s) * 2 ^ s ≤ B * 2 ^ s := by
    unfold InOneBlock
    exact (Nat.mul_le_mul_right_iff (by omega)).symm
  exact ⟨h3.1, fun hi => ⟨fun ho => (h3.2 hi).1 (hcond.1 ho), fun ho => (h3.2 hi).2 (Nat.lt_of_not_le fun hh => ho (hcond.2 hh))⟩⟩

/-- C114: an access inside its memory and its block, with a unit that is not a power of two, leaves the end of the buffer alone: of
every `u` bytes only `2 ^ log2 u` are transferred. -/
theorem C114_odd {B memSize supplied base u : Nat} {c : Cfg} {len : Nat → Nat}
    (h : construct B memSize supplied base u = .ok c) (hu : 2 ≤ u) (hodd : ∀ s, u ≠ 2 ^ s) (hB : B * u < 2 ^ 31)
    (hfit : base + memSize + B ≤ 2 ^ 64) (hlen : ∀ i < supplied, len i = B * u) (a n : Nat)
    (ha : a < 2 ^ 64) (hn : n < 2 ^ 31) (hi : inside base (base + memSize) a (n / u)) (hone : InOneBlock B a (n / u)) (buf : Buf)
    (heap : Heap) :
    ∃ buf', access c len true a n buf heap = .ok (buf', heap) ∧ ∀ q, n / u * (u - 1) ≤ q → buf' q = buf q := by
  have h3 := (C114_any h hu hB hfit hlen true a n ha hn buf heap).2 hi
  have hle : 2 ^ Nat.log2 u ≤ u := pow_log2_le (by omega)
  have hne := hodd (Nat.log2 u)
  obtain ⟨buf', heap', h4, h5, -⟩ := h3.1 (Nat.mul_le_mul hone hle)
  obtain ⟨rfl, h6⟩ := h5 rfl
  refine ⟨buf', h4, fun q hq => ?_⟩
  rw [h6 q, if_neg]
  have : n / u * 2 ^ Nat.log2 u ≤ n / u * (u - 1) := Nat.mul_le_mul_left _ (by omega)
  omega

/-- With units of three bytes, a load of two units fills four of the six bytes. -/
example : ∃ c, construct 0x400000 0x400000 1 0 3 = .ok c ∧
    ∃ buf' heap', access c (fun _ => 0xc00000) true 0 6 (fun _ => 0) (fun _ _ => 7) = .ok (buf', heap') ∧
      (List.range 6).map buf' = [7, 7, 7, 7, 0, 0] := by
  refine ⟨{ unit := 3, alloc := 0xc00000, blockSize := 0x400000, base := 0, max := 0x400000, shift := 1, nblk := 1 },
    by decide +kernel, _, _, rfl, ?_⟩
  decide +kernel

/-- C114: with blocks of 2 to 4 GiB no access inside has a result, whatever the unit. -/
theorem C114_huge {B memSize supplied base u : Nat} {c : Cfg} (len : Nat → Nat)
    (h : construct B memSize supplied base u = .ok c) (hu : 0 < u) (hu' : u < 2 ^ 31) (hlo : 2 ^ 31 ≤ B * u)
    (hhi : B * u ≤ 2 ^ 32) (hfit : base + memSize + B ≤ 2 ^ 64) (isLoad : Bool) (a n : Nat) (ha : a < 2 ^ 64) (hn : n < 2 ^ 31)
    (buf : Buf) (heap : Heap) :
    access c len isLoad a n buf heap = if inside base (base + memSize) a (n / u) then .ub else .abort := by
  have hBB : B ≤ B * u := Nat.le_mul_of_pos_right _ hu
  obtain ⟨hm, -⟩ := construct_made h hu' (by omega) hfit
  obtain ⟨h1, h2⟩ := access_made hm hu (by omega) len isLoad a n buf heap hn ha
  split
  · next hi =>
    rw [h1 hi]
    have hq : n / u ≤ n := Nat.div_le_self _ _
    exact loop_huge hm hu hlo hhi len n a (n / u) 0 isLoad buf heap (by obtain ⟨_, q, r⟩ := hi; omega) ha hi.2.2 (by omega) _
  · next hi => exact h2 hi

/-- C114: a unit size of zero: every access divides by zero. -/
theorem C114_zero {B memSize supplied base : Nat} {c : Cfg} (len : Nat → Nat)
    (h : construct B memSize supplied base 0 = .ok c) (isLoad : Bool) (a n : Nat) (buf : Buf) (heap : Heap) :
    access c len isLoad a n buf heap = .ub := by
  have hz : c.unit = 0 := by
    unfold construct at h
    dsimp only at h
    split at h
    · split at h
      · cases h
      · split at h
        · injection h with h; subst h; rfl
        · cases h
    · cases h
  unfold access
  rw [if_pos hz]

/-- C114, vector accesses: elements narrower than a unit (or of no width at all) stop the process, whatever the addresses and even
when no element is enabled. -/
theorem C114_narrow (c : Cfg) (len : Nat → Nat) (isLoad : Bool) (addrs : List Nat) (mask : List Bool) (elSize : Int) (n : Nat)
    (buf : Buf) (heap : Heap) (h0 : 0 ≤ elSize) (h : elSize < c.unit) :
    vaccess c len isLoad addrs mask elSize n buf heap = .abort := by
  unfold vaccess
  rw [if_neg (by omega), Int.tdiv_eq_zero_of_lt h0 h]
  rfl

example : vaccess { unit := 4, alloc := 16, blockSize := 4, base := 0, max := 8, shift := 2, nblk := 2 } (fun _ => 16) true [0] [true] 2
    2 (fun _ => 0) (fun _ _ => 0) = .abort := C114_narrow _ _ _ _ _ _ _ _ _ (by decide) (by decide)

/-- C114, vector accesses with a unit of more than one byte and elements of `size` bytes, at least a unit: there is a result if and
only if every enabled element has one on its own, that is, lies inside and in one block. A load then changes exactly the places of
the enabled elements in the buffer and a store exactly the bytes that an enabled element reaches; where several do, the last one
counts. -/
theorem C114_vector {B memSize supplied base u : Nat} {c : Cfg} {len : Nat → Nat}
    (h : construct B memSize supplied base u = .ok c) (hu : 2 ≤ u) (hB : B * u < 2 ^ 31)
    (hfit : base + memSize + B ≤ 2 ^ 64) (hlen : ∀ i < supplied, len i = B * u) (isLoad : Bool) (addrs : List Nat)
    (mask : List Bool) (size n : Nat) (h0 : addrs ≠ []) (h1 : 1 < addrs.length → mask.length ≤ addrs.length)
    (h64 : ∀ a ∈ addrs, a < 2 ^ 64) (hs : u ≤ size) (hs' : size < 2 ^ 31) (hm32 : mask.length * size < 2 ^ 32)
    (hn : mask.length * size ≤ n) (buf : Buf) (heap : Heap) :
    ((∃ r, vaccess c len isLoad addrs mask size n buf heap = .ok r) ↔
      ∀ j < mask.length, mask.getD j false = true → Good B u base (base + memSize) (size / u) (elemAt addrs size j)) ∧
    ∀ r, vaccess c len isLoad addrs mask size n buf heap = .ok r →
      (isLoad = true → Loaded B (2 ^ Nat.log2 u) (size / u) size addrs 0 mask buf heap r) ∧
      (isLoad = false → Stored B (2 ^ Nat.log2 u) (size / u) size addrs 0 mask buf heap r) := by
  have hB0 : 0 < B := by
    rcases Nat.eq_zero_or_pos B with h0 | h0
    · rw [h0] at h
      unfold construct at h
      simp only [if_true] at h
      split at h <;> cases h
    · exact h0
  have hule : u ≤ B * u := Nat.le_mul_of_pos_left _ hB0
  obtain ⟨hm, hnb⟩ := construct_made h (by omega) (by omega) hfit
  have hk : 0 < size / u := Nat.div_pos hs (by omega)
  have hk' : size / u ≤ size := Nat.div_le_self _ _
  have e : vaccess c len isLoad addrs mask size n buf heap =
      elems c len n isLoad addrs size ((size / u : Nat) : Int) 0 mask buf heap := by
    unfold vaccess
    have e1 : Int.tdiv (size : Int) (u : Int) = ((size / u : Nat) : Int) := rfl
    rw [hm.unit, if_neg (by omega)]
    simp only [e1]
    rw [if_pos (by omega)]
  obtain ⟨g1, g2⟩ := elems_spec hm hu hB len (fun i hi => hlen i (by omega)) n size (size / u) mask.length isLoad addrs hk
    (Nat.div_mul_le_self size u) (by omega) h0 h1 h64 hm32 hn mask 0 buf heap (by omega)
  simp only [Nat.zero_add] at g1 g2
  rw [e]
  by_cases hg : ∀ j < mask.length, mask.getD j false = true → Good B u base (base + memSize) (size / u) (elemAt addrs size j)
  · obtain ⟨r, e1, e2, e3⟩ := g1 hg
    refine ⟨⟨fun _ => hg, fun _ => ⟨r, e1⟩⟩, fun r' hr' => ?_⟩
    rw [e1] at hr'
    injection hr' with hr'
    subst hr'
    exact ⟨e2, e3⟩
  · exact ⟨⟨fun ⟨r, hr⟩ => absurd hr (g2 hg r), fun hh => absurd hh hg⟩, fun r hr => absurd hr (g2 hg r)⟩

/-- C114: the single address of a vector access is advanced by the size of the elements in bytes, although it counts units. With
units of two bytes, a load of two adjacent elements of one unit leaves out every second unit. -/
theorem C114_stride : ∃ c, construct 0x400000 0x400000 1 0 2 = .ok c ∧ ∀ heap : Heap,
    ∃ r, vaccess c (fun _ => 0x800000) true [0] [true, true] 2 4 (fun _ => 0) heap = .ok r ∧
      (List.range 4).map r.1 = [heap 0 0, heap 0 1, heap 0 4, heap 0 5] := by
  refine ⟨{ unit := 2, alloc := 0x800000, blockSize := 0x400000, base := 0, max := 0x400000, shift := 1, nblk := 1 },
    by decide +kernel, fun heap => ?_⟩
  have hc : construct 0x400000 0x400000 1 0 2 =
      .ok { unit := 2, alloc := 0x800000, blockSize := 0x400000, base := 0, max := 0x400000, shift := 1, nblk := 1 } := by decide +kernel
  obtain ⟨h1, h2⟩ := C114_vector (len := fun _ => 0x800000) hc (by omega) (by decide) (by decide) (fun _ _ => rfl) true [0]
    [true, true] 2 4 (by simp) (by simp) (by simp) (by omega) (by omega) (by decide) (by decide) (fun _ => 0) heap
  obtain ⟨r, hr⟩ := h1.2 (by unfold Good; decide +kernel)
  refine ⟨r, hr, ?_⟩
  obtain ⟨-, -, h3⟩ := (h2 r hr).1 rfl
  have l : Nat.log2 2 = 1 := by decide +kernel
  have a0 := h3 0 (by decide) rfl
  have a1 := h3 1 (by decide) rfl
  rw [l] at a0 a1
  have b0 := a0 0 (by decide)
  have b1 := a0 1 (by decide)
  have b2 := a1 0 (by decide)
  have b3 := a1 1 (by decide)
  simp [elemAt] at b0 b1 b2 b3
  simp [List.range, List.range.loop, b0, b1, b2, b3]

/-- C114: with blocks above 4 GiB an access can reach another place than its own: bytes 4 and 2^32 + 4 of a block are one. -/
theorem C114_alias (junk : Buf) (heap : Heap) :
    ∃ c, construct (2 ^ 32 + 16) (2 ^ 32 + 16) 1 0 1 = .ok c ∧ inside c.base c.max (2 ^ 32 + 4) 4 ∧
      ∃ r, access c (fun _ => 2 ^ 32 + 16) true (2 ^ 32 + 4) 4 junk heap = .ok (r, heap) ∧ ∀ q < 4, r q = heap 0 (4 + q) := by
  refine ⟨{ unit := 1, alloc := 16, blockSize := 2 ^ 32 + 16, base := 0, max := 2 ^ 32 + 16, shift := 0, nblk := 1 },
    by decide +kernel, by decide, copy junk 0 (heap 0) 4 4, rfl, fun q hq => ?_⟩
  unfold copy
  rw [if_pos ⟨by omega, by omega⟩, Nat.sub_zero]

/-- A memory of two blocks of 4 Mi units of two bytes: the last two units of the first block can be accessed, the last unit and the
first of the next block cannot. -/
example : construct 0x400000 0x800000 2 0 2 =
      .ok { unit := 2, alloc := 0x800000, blockSize := 0x400000, base := 0, max := 0x800000, shift := 1, nblk := 2 } ∧
    inside 0 0x800000 0x3ffffe (4 / 2) ∧ InOneBlock 0x400000 0x3ffffe (4 / 2) ∧
    inside 0 0x800000 0x3fffff (4 / 2) ∧ ¬ InOneBlock 0x400000 0x3fffff (4 / 2) := by
  unfold InOneBlock
  decide +kernel

/-! ## Construction -/

/-- C114, construction: it stops the process exactly when the memory ends inside the 4 MiB of the core, and otherwise succeeds exactly
when blocks have a size and every address from 0 (not from the base) to the end lies in one of the supplied blocks. -/
theorem C114_construct {B memSize supplied base u : Nat} (hfit : base + memSize + B ≤ 2 ^ 64) (hend : base + memSize < 2 ^ 64) :
    (construct B memSize supplied base u = .abort ↔ base + memSize ≤ 0x3fffff) ∧
    ((∃ c, construct B memSize supplied base u = .ok c) ↔
      0x3fffff < base + memSize ∧ 0 < B ∧ ∀ a < base + memSize, a / B < supplied ∧ a / B + 1 < 2 ^ 31) := by
  unfold construct
  dsimp only
  by_cases hB : B = 0
  · subst hB
    by_cases h : kMaxMemoryAddress < (base + memSize) % 18446744073709551616
    · rw [if_pos h, if_pos rfl]
      refine ⟨⟨fun e => (by cases e), fun e => ?_⟩, ⟨fun ⟨c, e⟩ => (by cases e), fun e => absurd e.2.1 (by omega)⟩⟩
      unfold kMaxMemoryAddress at h
      have := Nat.mod_le (base + memSize) 18446744073709551616
      omega
    · rw [if_neg h]
      rw [Nat.mod_eq_of_lt (by omega)] at h
      unfold kMaxMemoryAddress at h
      exact ⟨⟨fun _ => by omega, fun _ => rfl⟩, ⟨fun ⟨c, e⟩ => (by cases e), fun e => absurd e.2.1 (by omega)⟩⟩
  · have hm : (base + memSize) % 18446744073709551616 = base + memSize := Nat.mod_eq_of_lt (by omega)
    have hm2 : (base + memSize + B - 1) % 18446744073709551616 = base + memSize + B - 1 := Nat.mod_eq_of_lt (by omega)
    rw [hm, hm2, if_neg hB]
    unfold kMaxMemoryAddress
    by_cases h : 0x3fffff < base + memSize
    · rw [if_pos h]
      have hp : 0 < B := Nat.pos_of_ne_zero hB
      have hd : (base + memSize + B - 1) / B = (base + memSize - 1) / B + 1 := by
        rw [show base + memSize + B - 1 = base + memSize - 1 + B by omega, Nat.add_div_right _ hp]
      rw [hd]
      have key : ((base + memSize - 1) / B + 1 ≤ supplied ∧ (base + memSize - 1) / B + 1 < 2147483648) ↔
          ∀ a < base + memSize, a / B < supplied ∧ a / B + 1 < 2 ^ 31 := by
        constructor
        · intro ⟨h1, h2⟩ a ha
          have : a / B ≤ (base + memSize - 1) / B := Nat.div_le_div_right (by omega)
          omega
        · intro h1
          have := h1 (base + memSize - 1) (by omega)
          omega
      by_cases hk : (base + memSize - 1) / B + 1 ≤ supplied ∧ (base + memSize - 1) / B + 1 < 2147483648
      · rw [if_pos hk]
        exact ⟨⟨fun e => (by cases e), fun e => absurd h (by omega)⟩, ⟨fun _ => ⟨h, hp, key.mp hk⟩, fun _ => ⟨_, rfl⟩⟩⟩
      · rw [if_neg hk]
        exact ⟨⟨fun e => (by cases e), fun e => absurd h (by omega)⟩, ⟨fun ⟨c, e⟩ => (by cases e), fun e => absurd (key.mpr e.2.2) hk⟩⟩
    · rw [if_neg h]
      exact ⟨⟨fun _ => by omega, fun _ => rfl⟩, ⟨fun ⟨c, e⟩ => (by cases e), fun e => absurd e.1 h⟩⟩

/-- One block for the 4 MiB from 4 MiB on: the list of blocks is read beyond its end, although every byte of the memory has its block. -/
theorem C114_base : construct 0x400000 0x400000 1 0x400000 1 = .ub := by decide +kernel

example : construct 0x40000 0x3fffff 16 0 1 = .abort ∧ (∃ c, construct 0x40000 0x400000 16 0 1 = .ok c) ∧
    ∃ c, construct 0x400000 0x400000 2 0x400000 1 = .ok c := by
  refine ⟨(C114_construct (by decide) (by decide)).1.mpr (by decide), (C114_construct (by decide) (by decide)).2.mpr ⟨by decide, by decide, fun a ha => ?_⟩,
    (C114_construct (by decide) (by decide)).2.mpr ⟨by decide, by decide, fun a ha => ?_⟩⟩ <;> omega

end Verif.Props
