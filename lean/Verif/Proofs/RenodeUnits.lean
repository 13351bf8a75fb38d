import Verif.Proofs.RenodeMem
import Verif.Spec.BlockUnits

/-!
# Lemmas for memories with larger units or blocks (C114)
-/

namespace Verif.Proofs.RenodeUnits

open Verif Verif.Model.RenodeMem Verif.Proofs.RenodeMem
open Verif.Spec.BlockMem (inside)
open Verif.Spec.BlockUnits

/-- What the constructor builds, for every block and unit size. -/
structure Made (c : Cfg) (B u lo hi : Nat) : Prop where
  unit : c.unit = u
  alloc : c.alloc = toI32 ((B * u : Nat) : Int)
  size : c.blockSize = B
  base : c.base = lo
  max : c.max = hi
  shift : c.shift = Nat.log2 u
  pos : 0 < B
  cover : hi ≤ c.nblk * B
  nblk : c.nblk < 2147483648

theorem construct_made {B memSize supplied base u : Nat} {c : Cfg} (h : construct B memSize supplied base u = .ok c)
    (hu : u < 2147483648) (hB : B * u < 18446744073709551616) (hfit : base + memSize + B ≤ 18446744073709551616) :
    Made c B u base (base + memSize) ∧ c.nblk ≤ supplied := by
  unfold construct at h
  by_cases hb : B = 0
  · simp only [hb, if_true] at h
    split at h <;> cases h
  · have e1 : (base + memSize) % 18446744073709551616 = base + memSize := Nat.mod_eq_of_lt (by omega)
    have e2 : (base + memSize + B - 1) % 18446744073709551616 = base + memSize + B - 1 :=
      Nat.mod_eq_of_lt (by omega)
    simp only [e1, e2, hb, if_false] at h
    split at h
    · split at h
      · next hs =>
        injection h with h; subst h
        have hp : 0 < B := by omega
        refine ⟨⟨toI32_nat u hu, ?_, rfl, rfl, rfl, rfl, hp, ?_, hs.2⟩, hs.1⟩
        · show toI32 _ = _
          rw [Nat.mod_eq_of_lt hB]
        · show base + memSize ≤ (base + memSize + B - 1) / B * B
          have h1 := Nat.div_add_mod (base + memSize + B - 1) B
          have h2 := Nat.mod_lt (base + memSize + B - 1) hp
          rw [Nat.mul_comm]; omega
      · cases h
    · cases h

theorem pow_log2_le {u : Nat} (h : 1 ≤ u) : 2 ^ Nat.log2 u ≤ u := Nat.log2_self_le (by omega)

theorem two_le_pow {u : Nat} (h : 2 ≤ u) : 2 ≤ 2 ^ Nat.log2 u := by
  have h1 : 1 ≤ Nat.log2 u := (Nat.le_log2 (by omega)).2 (by omega)
  calc 2 = 2 ^ 1 := rfl
    _ ≤ 2 ^ Nat.log2 u := Nat.pow_le_pow_right (by omega) h1

theorem log2_lt {u : Nat} (h : 1 ≤ u) (h' : u < 2147483648) : Nat.log2 u < 32 := by
  have := (Nat.log2_lt (n := u) (k := 31) (by omega)).2 h'
  omega

theorem shl32_nat (x k : Nat) (hk : k < 32) (h : x * 2 ^ k < 2147483648) : shl32 (x : Int) k = .ok ((x * 2 ^ k : Nat) : Int) := by
  unfold shl32
  rw [if_pos ⟨by omega, hk⟩]
  have e : (x : Int) * 2 ^ k = ((x * 2 ^ k : Nat) : Int) := by push_cast; rfl
  rw [e, chk32_nat _ h]

theorem shl32_cases (x : Int) (k : Nat) : shl32 x k = .ub ∨ (0 ≤ x ∧ shl32 x k = .ok (x * 2 ^ k)) := by
  unfold shl32 chk32
  split
  · split
    · rename_i h _; exact Or.inr ⟨h.1, rfl⟩
    · exact Or.inl rfl
  · exact Or.inl rfl

theorem zero31 : 0 < 2147483648 := by decide

theorem shl32_neg (x : Int) (k : Nat) (h : x < 0) : shl32 x k = .ub := by
  unfold shl32; rw [if_neg (by omega)]

theorem chk32_cases (x : Int) : chk32 x = .ub ∨ chk32 x = .ok x := by
  unfold chk32; split
  · exact Or.inr rfl
  · exact Or.inl rfl

/-- The block of an address. -/
theorem blk {c : Cfg} {B u lo hi : Nat} (hm : Made c B u lo hi) (a : Nat) (ha : a < hi) :
    ¬ c.nblk ≤ a / B ∧ a - a / B * B = a % B := by
  have h1 := hm.cover
  have h2 := Nat.div_add_mod a B
  have hidx : a / B < c.nblk := by rw [Nat.div_lt_iff_lt_mul hm.pos]; omega
  refine ⟨by omega, ?_⟩
  rw [Nat.mul_comm]; omega

theorem toI32_high (k : Nat) (h : 2147483648 ≤ k) (h' : k ≤ 4294967296) : toI32 (k : Int) = (k : Int) - 4294967296 := by
  unfold toI32; omega

theorem huge_cases (A o : Int) (n : Nat) (hA : A ≤ 0) :
    o < 0 ∨ min (n : Int) (A - o) < 0 ∨ min (n : Int) (A - o) = 0 ∧ o = 0 := by omega

attribute [local irreducible] toI32 chk32 shl32

/-- The buffer after the one copy of an access. -/
def bufOne (v B : Nat) (isLoad : Bool) (a pos n : Nat) (buf : Buf) (heap : Heap) : Buf :=
  if isLoad then copy buf pos (heap (a / B)) (a % B * v) (n * v) else buf

/-- The blocks after the one copy of an access. -/
def heapOne (v B : Nat) (isLoad : Bool) (a pos n : Nat) (buf : Buf) (heap : Heap) : Heap :=
  if isLoad then heap else fun i => if i = a / B then copy (heap (a / B)) (a % B * v) buf pos (n * v) else heap i

/-- An access that fits into its block. -/
theorem loop_fits {c : Cfg} {B u lo hi : Nat} (hm : Made c B u lo hi) (hu : 1 ≤ u) (hBu : B * u < 2147483648)
    (len : Nat → Nat) (buflen fuel a pos n : Nat) (isLoad : Bool) (buf : Buf) (heap : Heap) (ha : a < hi)
    (hfit : (a % B + n) * 2 ^ Nat.log2 u ≤ B * u) (hlen : len (a / B) = B * u) (hbuf : pos + n * 2 ^ Nat.log2 u ≤ buflen) :
    loop c len buflen isLoad (fuel + 1) a pos n buf heap =
      .ok (bufOne (2 ^ Nat.log2 u) B isLoad a pos n buf heap, heapOne (2 ^ Nat.log2 u) B isLoad a pos n buf heap) := by
  obtain ⟨hb1, hb2⟩ := blk hm a ha
  have hpos := hm.pos
  have hu31 : u < 2147483648 := by nlinarith
  have hk := log2_lt hu hu31
  have hmod : a % B < B := Nat.mod_lt _ hm.pos
  obtain ⟨v, hv⟩ : ∃ v, v = 2 ^ Nat.log2 u := ⟨_, rfl⟩
  have hv1 : 1 ≤ v := by rw [hv]; exact Nat.one_le_two_pow
  rw [← hv] at hfit hbuf
  have e0 : a % B + n ≤ (a % B + n) * v := Nat.le_mul_of_pos_right _ hv1
  have e1 : (a % B + n) * v = a % B * v + n * v := Nat.add_mul _ _ _
  have hoff31 : a % B < 2147483648 := by omega
  have hav31 : B * u - a % B < 2147483648 := by omega
  have e4 : ((B * u : Nat) : Int) - ((a % B : Nat) : Int) = ((B * u - a % B : Nat) : Int) := by omega
  have e5 : min (n : Int) ((B * u - a % B : Nat) : Int) = (n : Int) := by omega
  have hnv : n * v < 2147483648 := by omega
  have hov : a % B * v < 2147483648 := by omega
  have hfin : a % B * 2 ^ Nat.log2 u + n * 2 ^ Nat.log2 u ≤ len (a / B) ∧ pos + n * 2 ^ Nat.log2 u ≤ buflen := by
    rw [← hv, hlen]; omega
  have hnn : (n : Int) - (n : Int) = ((0 : Nat) : Int) := by omega
  rw [hv] at hnv hov
  have e2 : toI32 ((a % B : Nat) : Int) = ((a % B : Nat) : Int) := toI32_nat _ hoff31
  have e3 : c.alloc = ((B * u : Nat) : Int) := by rw [hm.alloc, toI32_nat _ hBu]
  simp only [loop, hm.size, hm.shift]
  rw [if_neg hb1, hb2, e2, e3, e4, chk32_nat _ hav31]
  simp -implicitDefEqProofs only [Outcome.ok_bind, e5]
  rw [shl32_nat n _ hk hnv, shl32_nat (a % B) _ hk hov]
  simp -implicitDefEqProofs only [Outcome.ok_bind, Int.toNat_natCast]
  rw [if_pos hfin, hnn, chk32_nat 0 zero31]
  simp -implicitDefEqProofs only [Outcome.ok_bind]
  rw [if_neg (by simp)]
  rfl

/-- An access that does not fit into its block, when the unit is larger than a byte. -/
theorem loop_over {c : Cfg} {B u lo hi : Nat} (hm : Made c B u lo hi) (hu : 2 ≤ u) (hBu : B * u < 2147483648)
    (len : Nat → Nat) (buflen fuel a pos n : Nat) (isLoad : Bool) (buf : Buf) (heap : Heap) (ha : a < hi)
    (hfit : B * u < (a % B + n) * 2 ^ Nat.log2 u) (hlen : len (a / B) = B * u) :
    loop c len buflen isLoad fuel a pos n buf heap = .ub := by
  cases fuel with
  | zero => rfl
  | succ fuel =>
  obtain ⟨hb1, hb2⟩ := blk hm a ha
  have hpos := hm.pos
  have hu31 : u < 2147483648 := by nlinarith
  have hmod : a % B < B := Nat.mod_lt _ hm.pos
  have hBB : B ≤ B * u := Nat.le_mul_of_pos_right _ (by omega)
  obtain ⟨v, hv⟩ : ∃ v, v = 2 ^ Nat.log2 u := ⟨_, rfl⟩
  have hv2 : 2 ≤ v := by rw [hv]; exact two_le_pow hu
  rw [← hv] at hfit
  have hoff31 : a % B < 2147483648 := by omega
  have hav31 : B * u - a % B < 2147483648 := by omega
  have e4 : ((B * u : Nat) : Int) - ((a % B : Nat) : Int) = ((B * u - a % B : Nat) : Int) := by omega
  obtain ⟨k, hk⟩ : ∃ k, k = min n (B * u - a % B) := ⟨_, rfl⟩
  have e5 : min (n : Int) ((B * u - a % B : Nat) : Int) = (k : Int) := by omega
  have hover : B * u < (a % B + k) * v := by
    by_cases h : n ≤ B * u - a % B
    · rw [hk, Nat.min_eq_left h]; exact hfit
    · rw [hk, Nat.min_eq_right (by omega), show a % B + (B * u - a % B) = B * u by omega]
      nlinarith
  have e2 : toI32 ((a % B : Nat) : Int) = ((a % B : Nat) : Int) := toI32_nat _ hoff31
  have e3 : c.alloc = ((B * u : Nat) : Int) := by rw [hm.alloc, toI32_nat _ hBu]
  simp only [loop, hm.size, hm.shift]
  rw [if_neg hb1, hb2, e2, e3, e4, chk32_nat _ hav31]
  simp -implicitDefEqProofs only [Outcome.ok_bind, e5]
  rcases shl32_cases (k : Int) (Nat.log2 u) with h | ⟨_, h⟩
  · rw [h]; rfl
  · rw [h]
    simp -implicitDefEqProofs only [Outcome.ok_bind]
    rcases shl32_cases ((a % B : Nat) : Int) (Nat.log2 u) with h' | ⟨_, h'⟩
    · rw [h']; rfl
    · rw [h']
      simp -implicitDefEqProofs only [Outcome.ok_bind]
      have t1 : ((k : Int) * 2 ^ Nat.log2 u).toNat = k * v := by
        rw [hv, show (k : Int) * 2 ^ Nat.log2 u = ((k * 2 ^ Nat.log2 u : Nat) : Int) by push_cast; rfl, Int.toNat_natCast]
      have t2 : (((a % B : Nat) : Int) * 2 ^ Nat.log2 u).toNat = a % B * v := by
        rw [hv, show ((a % B : Nat) : Int) * 2 ^ Nat.log2 u = ((a % B * 2 ^ Nat.log2 u : Nat) : Int) by push_cast; rfl,
          Int.toNat_natCast]
      rw [t1, t2, if_neg]
      rintro ⟨hx, _⟩
      rw [hlen] at hx
      rw [Nat.add_mul] at hover
      exact Nat.not_lt.2 hx hover

/-- Blocks of 2 to 4 GiB: no access comes to an end. -/
theorem loop_huge {c : Cfg} {B u lo hi : Nat} (hm : Made c B u lo hi) (hu : 1 ≤ u) (hlo : 2147483648 ≤ B * u)
    (hhi : B * u ≤ 4294967296) (len : Nat → Nat) (buflen a n pos : Nat) (isLoad : Bool) (buf : Buf) (heap : Heap)
    (ha : a < hi) (ha64 : a < 18446744073709551616) (hn : 0 < n) (hn' : n < 2147483648) (fuel : Nat) :
    loop c len buflen isLoad fuel a pos n buf heap = .ub := by
  obtain ⟨hb1, hb2⟩ := blk hm a ha
  have hmod : a % B < B := Nat.mod_lt _ hm.pos
  have hBB : B ≤ B * u := Nat.le_mul_of_pos_right _ (by omega)
  have e3 : c.alloc = ((B * u : Nat) : Int) - 4294967296 := hm.alloc.trans (toI32_high _ hlo hhi)
  obtain ⟨o, ho⟩ : ∃ o, toI32 ((a % B : Nat) : Int) = o := ⟨_, rfl⟩
  obtain ⟨A, hA⟩ : ∃ A, ((B * u : Nat) : Int) - 4294967296 = A := ⟨_, rfl⟩
  have hA0 : A ≤ 0 := by omega
  rw [hA] at e3
  clear hA hlo hhi hBB hmod
  induction fuel generalizing buf heap with
  | zero => rfl
  | succ fuel ih =>
    simp only [loop, hm.size, hm.shift]
    rw [if_neg hb1, hb2, ho, e3]
    rcases chk32_cases (A - o) with h | h
    · rw [h]; rfl
    · rw [h]
      simp -implicitDefEqProofs only [Outcome.ok_bind]
      rcases huge_cases A o n hA0 with hneg | hz | ⟨z, zo⟩
      · rw [shl32_neg o _ hneg]
        rcases shl32_cases (min (n : Int) (A - o)) (Nat.log2 u) with h' | ⟨_, h'⟩
        · rw [h']; rfl
        · rw [h']; rfl
      · rw [shl32_neg _ _ hz]; rfl
      · rw [z, zo]
        rcases shl32_cases (0 : Int) (Nat.log2 u) with h' | ⟨_, h'⟩
        · rw [h']; rfl
        · rw [h', Int.zero_mul]
          simp -implicitDefEqProofs only [Outcome.ok_bind]
          split
          · rw [Int.sub_zero, chk32_nat _ hn']
            simp -implicitDefEqProofs only [Outcome.ok_bind]
            rw [if_pos (Int.natCast_pos.2 hn)]
            simp only [Int.toNat_zero, Nat.add_zero]
            rw [Nat.mod_eq_of_lt ha64]
            exact ih _ _
          · rfl

/-- The checks accept exactly the requests inside. -/
theorem valid_made {c : Cfg} {B u lo hi : Nat} (hm : Made c B u lo hi) (hB : B ≤ 4294967296) (a n : Nat) (hn : 0 < n)
    (hn' : n < 2147483648) (ha : a < 18446744073709551616) :
    (isValid c a (addU64 a n) = true ∧ a < c.max) ↔ inside lo hi a n := by
  have h : hi < 9223372036854775808 + 1 := by
    have h1 := hm.cover
    have h2 := hm.nblk
    have : c.nblk * B ≤ 2147483647 * 4294967296 := Nat.mul_le_mul (by omega) hB
    omega
  have e := addU64_nat a n
  simp only [isValid, inside, Bool.and_eq_true, decide_eq_true_eq, hm.base, hm.max]
  rw [e]
  omega

/-- An access, up to the loop. -/
theorem access_made {c : Cfg} {B u lo hi : Nat} (hm : Made c B u lo hi) (hu : 1 ≤ u) (hB : B ≤ 4294967296)
    (len : Nat → Nat) (isLoad : Bool) (a n : Nat) (buf : Buf) (heap : Heap) (hn' : n < 2147483648)
    (ha : a < 18446744073709551616) :
    (inside lo hi a (n / u) → access c len isLoad a n buf heap =
      loop c len n isLoad (n / u + 1) a 0 ((n / u : Nat) : Int) buf heap) ∧
    (¬ inside lo hi a (n / u) → access c len isLoad a n buf heap = .abort) := by
  have hq : n / u ≤ n := Nat.div_le_self _ _
  have e : Int.tdiv (n : Int) (u : Int) = ((n / u : Nat) : Int) := rfl
  unfold access
  rw [hm.unit, if_neg (by omega)]
  simp only [e]
  by_cases h0 : 0 < n / u
  · have hv := valid_made hm hB a (n / u) h0 (by omega) ha
    refine ⟨fun hi => ?_, fun hi => ?_⟩
    · obtain ⟨h1, h2⟩ := hv.2 hi
      rw [if_pos ⟨h1, by omega⟩]
      unfold helper
      rw [if_pos h2, Int.toNat_natCast]
    · by_cases h1 : isValid c a (addU64 a ((n / u : Nat) : Int)) = true
      · rw [if_pos ⟨h1, by omega⟩]
        unfold helper
        rw [if_neg (fun h2 => hi (hv.1 ⟨h1, h2⟩))]
      · rw [if_neg (fun h => h1 h.1)]
  · refine ⟨fun hi => absurd hi.2.2 h0, fun _ => ?_⟩
    rw [if_neg (fun h => h0 (by omega))]

/-! ## Vector accesses -/

theorem elemAddress_eq (addrs : List Nat) (size i m : Nat) (hi : i < m) (h0 : addrs ≠ []) (h1 : 1 < addrs.length → m ≤ addrs.length)
    (hs : m * size < 4294967296) : elemAddress addrs size i = .ok (elemAt addrs size i) := by
  unfold elemAddress elemAt
  have hp : 0 < addrs.length := List.length_pos_iff.2 h0
  split
  · next h =>
    have := h1 h
    rw [List.getElem?_eq_getElem (by omega : i < addrs.length)]
    simp [List.getD, List.getElem?_eq_getElem (by omega : i < addrs.length)]
  · rw [List.getElem?_eq_getElem hp]
    have e : (((i : Int) * (size : Int)) % 4294967296).toNat = i * size := by
      have : i * size ≤ m * size := Nat.mul_le_mul_right _ (by omega)
      rw [show (i : Int) * (size : Int) = ((i * size : Nat) : Int) by push_cast; rfl]
      omega
    simp only [e]
    simp [List.getD, List.getElem?_eq_getElem hp]

/-- One enabled element. -/
theorem elem_step {c : Cfg} {B u lo hi : Nat} (hm : Made c B u lo hi) (hu : 2 ≤ u) (hBu : B * u < 2147483648)
    (len : Nat → Nat) (hlen : ∀ i < c.nblk, len i = B * u) (buflen a pos k : Nat) (isLoad : Bool) (buf : Buf) (heap : Heap)
    (ha : a < 18446744073709551616) (hk : 0 < k) (hk' : k < 2147483648) (hbuf : pos + k * 2 ^ Nat.log2 u ≤ buflen) :
    (Good B u lo hi k a → isValid c a (addU64 a k) = true ∧ helper c len buflen isLoad a pos k buf heap =
      .ok (bufOne (2 ^ Nat.log2 u) B isLoad a pos k buf heap, heapOne (2 ^ Nat.log2 u) B isLoad a pos k buf heap)) ∧
    (¬ Good B u lo hi k a → isValid c a (addU64 a k) = false ∨ helper c len buflen isLoad a pos k buf heap = .abort ∨
      helper c len buflen isLoad a pos k buf heap = .ub) := by
  have hBle : B ≤ B * u := Nat.le_mul_of_pos_right _ (by omega)
  have hv := valid_made hm (by omega) a k hk hk' ha
  unfold helper
  refine ⟨fun ⟨g1, g2⟩ => ?_, fun hg => ?_⟩
  · obtain ⟨h1, h2⟩ := hv.2 g1
    refine ⟨h1, ?_⟩
    rw [if_pos h2]
    rw [hm.max] at h2
    have hidx := (blk hm a h2).1
    exact loop_fits hm (by omega) hBu len buflen _ a pos k isLoad buf heap h2 g2 (hlen _ (by omega)) hbuf
  · by_cases h1 : isValid c a (addU64 a k) = true
    · by_cases h2 : a < c.max
      · rw [if_pos h2]
        rw [hm.max] at h2
        have hidx := (blk hm a h2).1
        refine Or.inr (Or.inr (loop_over hm hu hBu len buflen _ a pos k isLoad buf heap h2 ?_ (hlen _ (by omega))))
        refine Nat.lt_of_not_le fun hh => hg ⟨hv.1 ⟨h1, by rw [hm.max]; exact h2⟩, hh⟩
      · rw [if_neg h2]; exact Or.inr (Or.inl rfl)
    · exact Or.inl (by simpa using h1)

theorem at_succ {P : Nat → Prop} {e : Bool} {mask : List Bool} (i : Nat) :
    (∀ j < (e :: mask).length, (e :: mask).getD j false = true → P (i + j)) ↔
      (e = true → P i) ∧ ∀ j < mask.length, mask.getD j false = true → P (i + 1 + j) := by
  constructor
  · intro h
    refine ⟨fun he => by simpa using h 0 (by simp) (by simpa using he), fun j hj hje => ?_⟩
    have := h (j + 1) (by simpa using hj) (by simpa using hje)
    rwa [show i + (j + 1) = i + 1 + j by omega] at this
  · rintro ⟨h2, h3⟩ j hj hje
    cases j with
    | zero => simpa using h2 (by simpa using hje)
    | succ j =>
      have := h3 j (by simpa using hj) (by simpa using hje)
      rwa [show i + 1 + j = i + (j + 1) by omega] at this

theorem loaded_cons {B v k size : Nat} {addrs : List Nat} {i : Nat} {e : Bool} {mask : List Bool} {buf : Buf} {heap : Heap}
    {r : Buf × Heap} (hkv : k * v ≤ size)
    (h : Loaded B v k size addrs (i + 1) mask
      (if e then copy buf (i * size) (heap (elemAt addrs size i / B)) (elemAt addrs size i % B * v) (k * v) else buf) heap r) :
    Loaded B v k size addrs i (e :: mask) buf heap r := by
  obtain ⟨h1, h2, h3⟩ := h
  refine ⟨h1, fun q hq => ?_, ?_⟩
  · rw [at_succ (P := fun x => ¬ (x * size ≤ q ∧ q < x * size + k * v))] at hq
    rw [h2 q hq.2]
    split
    · next he =>
      have := hq.1 he
      unfold copy
      rw [if_neg this]
    · rfl
  · rw [at_succ (P := fun x => ∀ t < k * v, r.1 (x * size + t) = heap (elemAt addrs size x / B) (elemAt addrs size x % B * v + t))]
    refine ⟨fun he t ht => ?_, h3⟩
    rw [h2]
    · rw [if_pos he]
      unfold copy
      rw [if_pos ⟨by omega, by omega⟩, Nat.add_sub_cancel_left]
    · intro j hj _ hh
      have : (i + 1) * size ≤ (i + 1 + j) * size := Nat.mul_le_mul_right _ (by omega)
      rw [Nat.add_mul, Nat.one_mul] at this
      omega

theorem stored_cons {B v k size : Nat} {addrs : List Nat} {i : Nat} {e : Bool} {mask : List Bool} {buf : Buf} {heap : Heap}
    {r : Buf × Heap}
    (h : Stored B v k size addrs (i + 1) mask buf
      (if e then (fun b => if b = elemAt addrs size i / B then
        copy (heap (elemAt addrs size i / B)) (elemAt addrs size i % B * v) buf (i * size) (k * v) else heap b) else heap) r) :
    Stored B v k size addrs i (e :: mask) buf heap r := by
  obtain ⟨h1, h2, h3⟩ := h
  refine ⟨h1, fun b o hq => ?_, fun b o => ?_⟩
  · rw [at_succ (P := fun x => ¬ Reaches B v k (elemAt addrs size x) b o)] at hq
    rw [h2 b o hq.2]
    split
    · next he =>
      have := hq.1 he
      show (if _ then _ else _ : Nat → BitVec 8) o = _
      split
      · next hb =>
        unfold copy
        dsimp only
        rw [if_neg (fun hh => this ⟨hb, hh⟩), hb]
      · rfl
    · rfl
  · intro j hj hje hr hlast
    cases j with
    | zero =>
      have he : e = true := by simpa using hje
      simp only [Nat.add_zero] at hr ⊢
      rw [h2 b o]
      · rw [if_pos he]
        show (if _ then _ else _ : Nat → BitVec 8) o = _
        rw [if_pos hr.1]
        unfold copy
        rw [if_pos hr.2]
      · intro j' hj' hje' 
        have := hlast (j' + 1) (by simpa using hj') (by omega) (by simpa using hje')
        rwa [show i + (j' + 1) = i + 1 + j' by omega] at this
    | succ j =>
      rw [show i + (j + 1) = i + 1 + j by omega] at hr ⊢
      refine h3 b o j (by simpa using hj) (by simpa using hje) hr fun j' hj' hlt hje' => ?_
      have := hlast (j' + 1) (by simpa using hj') (by omega) (by simpa using hje')
      rwa [show i + (j' + 1) = i + 1 + j' by omega] at this

theorem elems_spec {c : Cfg} {B u lo hi : Nat} (hm : Made c B u lo hi) (hu : 2 ≤ u) (hBu : B * u < 2147483648)
    (len : Nat → Nat) (hlen : ∀ i < c.nblk, len i = B * u) (buflen size k m : Nat) (isLoad : Bool) (addrs : List Nat)
    (hk : 0 < k) (hku : k * u ≤ size) (hk' : k < 2147483648) (h0 : addrs ≠ []) (h1 : 1 < addrs.length → m ≤ addrs.length)
    (h64 : ∀ a ∈ addrs, a < 18446744073709551616) (hs : m * size < 4294967296) (hb : m * size ≤ buflen) :
    ∀ (mask : List Bool) (i : Nat) (buf : Buf) (heap : Heap), i + mask.length ≤ m →
      ((∀ j < mask.length, mask.getD j false = true → Good B u lo hi k (elemAt addrs size (i + j))) →
        ∃ r, elems c len buflen isLoad addrs size k i mask buf heap = .ok r ∧
          (isLoad = true → Loaded B (2 ^ Nat.log2 u) k size addrs i mask buf heap r) ∧
          (isLoad = false → Stored B (2 ^ Nat.log2 u) k size addrs i mask buf heap r)) ∧
      (¬ (∀ j < mask.length, mask.getD j false = true → Good B u lo hi k (elemAt addrs size (i + j))) →
        ∀ r, elems c len buflen isLoad addrs size k i mask buf heap ≠ .ok r) := by
  have hvu : 2 ^ Nat.log2 u ≤ u := pow_log2_le (by omega)
  generalize hv : 2 ^ Nat.log2 u = v at *
  have hkv : k * v ≤ size := (Nat.mul_le_mul_left _ hvu).trans hku
  intro mask
  induction mask with
  | nil =>
    intro i buf heap _
    refine ⟨fun _ => ⟨(buf, heap), rfl, fun _ => ⟨rfl, fun _ _ => rfl, fun j hj => absurd hj (by simp)⟩,
      fun _ => ⟨rfl, fun _ _ _ => rfl, fun _ _ j hj => absurd hj (by simp)⟩⟩, fun h => absurd (fun j hj => absurd hj (by simp)) h⟩
  | cons e mask ih =>
    intro i buf heap hle
    simp only [List.length_cons] at hle
    rw [at_succ (P := fun x => Good B u lo hi k (elemAt addrs size x))]
    have hei : elemAddress addrs size i = .ok (elemAt addrs size i) := elemAddress_eq addrs size i m (by omega) h0 h1 hs
    cases e with
    | false =>
      obtain ⟨g1, g2⟩ := ih (i + 1) buf heap (by omega)
      refine ⟨fun hg => ?_, fun hg => ?_⟩
      · obtain ⟨r, e1, e2, e3⟩ := g1 hg.2
        exact ⟨r, e1, fun hl => loaded_cons hkv (by simpa using e2 hl), fun hl => stored_cons (by simpa using e3 hl)⟩
      · exact g2 fun hh => hg ⟨fun hf => (by cases hf), hh⟩
    | true =>
      have ha : elemAt addrs size i < 18446744073709551616 := by
        unfold elemAt
        split
        · next hl =>
          have := h1 hl
          have hil : i < addrs.length := by omega
          simp only [List.getD, List.getElem?_eq_getElem hil, Option.getD_some]
          exact h64 _ (List.getElem_mem hil)
        · exact Nat.mod_lt _ (by decide)
      have hpos : ((size : Int) * (i : Int) % 4294967296).toNat = i * size := by
        have : i * size ≤ m * size := Nat.mul_le_mul_right _ (by omega)
        rw [show (size : Int) * (i : Int) = ((i * size : Nat) : Int) by push_cast; exact Int.mul_comm _ _]
        omega
      have hbuf : i * size + k * 2 ^ Nat.log2 u ≤ buflen := by
        have : (i + 1) * size ≤ m * size := Nat.mul_le_mul_right _ (by omega)
        rw [Nat.add_mul, Nat.one_mul] at this
        rw [hv]
        omega
      obtain ⟨s1, s2⟩ := elem_step hm hu hBu len hlen buflen (elemAt addrs size i) (i * size) k isLoad buf heap ha hk hk' hbuf
      simp only [elems, hei, Outcome.ok_bind, hpos]
      refine ⟨fun hg => ?_, fun hg r hr => ?_⟩
      · obtain ⟨t1, t2⟩ := s1 (hg.1 trivial)
        rw [if_pos t1, t2]
        simp only [Outcome.ok_bind]
        obtain ⟨g1, -⟩ := ih (i + 1) (bufOne (2 ^ Nat.log2 u) B isLoad (elemAt addrs size i) (i * size) k buf heap)
          (heapOne (2 ^ Nat.log2 u) B isLoad (elemAt addrs size i) (i * size) k buf heap) (by omega)
        obtain ⟨r, e1, e2, e3⟩ := g1 hg.2
        refine ⟨r, e1, fun hl => loaded_cons hkv ?_, fun hl => stored_cons ?_⟩
        · have := e2 hl
          rw [hv] at this
          subst hl
          simpa [bufOne, heapOne] using this
        · have := e3 hl
          rw [hv] at this
          subst hl
          simpa [bufOne, heapOne] using this
      · by_cases hgi : Good B u lo hi k (elemAt addrs size i)
        · obtain ⟨t1, t2⟩ := s1 hgi
          rw [if_pos t1, t2] at hr
          simp only [Outcome.ok_bind] at hr
          exact (ih (i + 1) _ _ (by omega)).2 (fun hh => hg ⟨fun _ => hgi, hh⟩) r hr
        · rcases s2 hgi with t | t | t
          · rw [if_neg (by rw [t]; exact Bool.false_ne_true)] at hr
            cases hr
          · rw [t] at hr
            split at hr <;> cases hr
          · rw [t] at hr
            split at hr <;> cases hr

end Verif.Proofs.RenodeUnits
