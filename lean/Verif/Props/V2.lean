import Verif.Proofs.V2

/-!
# Properties C51-C54: access checks, misa and mpause of the V2 core
-/

namespace Verif.Props

open Verif Verif.Model.V2 Verif.Spec.V2 Verif.Proofs.V2

/-- The ranges as the property sees them. -/
def asPairs (ranges : List Range) : List (Nat × Nat) := ranges.map fun r => (r.start.toNat, r.length.toNat)

/-- No range reaches the end of the address space. -/
def Fits (ranges : List Range) : Prop := ∀ r ∈ ranges, r.start.toNat + r.length.toNat < 2 ^ 32

/-! ## C51 -/

/-- The instruction manual's table of the scalar loads and stores: whether it loads, the number of bytes, and whether a
loaded value is sign-extended. -/
def manual : Op → Bool × Nat × Bool
  | .lb => (true, 1, true) | .lh => (true, 2, true) | .lw => (true, 4, true)
  | .lbu => (true, 1, false) | .lhu => (true, 2, false)
  | .sb => (false, 1, false) | .sh => (false, 2, false) | .sw => (false, 4, false) | .fsw => (false, 4, false)

/-- The model's own tables agree with the manual. -/
theorem manual_eq (op : Op) : op.isLoad = (manual op).1 ∧ op.size = (manual op).2.1 ∧
    (op.isLoad = true → op.signed = (manual op).2.2) := by cases op <;> decide

/-- C51, the check itself (missing: accesses and ranges that reach the end of the address space, for which it is false,
see `C51_wrapping_access` and `C51_wrapping_range`). -/
theorem C51_check_partial (ranges : List Range) (hr : Fits ranges) (a n : BitVec 32) (hn : 0 < n.toNat)
    (ha : a.toNat + n.toNat < 2 ^ 32) :
    isLsuAccessValid ranges a n = true ↔ Allowed (asPairs ranges) a.toNat n.toNat := by
  rw [valid_iff]
  unfold Allowed asPairs
  constructor
  · rintro ⟨r, h1, h2, h3⟩
    rw [Nat.mod_eq_of_lt ha, Nat.mod_eq_of_lt (hr r h1)] at h3
    exact ⟨_, List.mem_map_of_mem h1, (within_iff _ _ _ _ hn).2 ⟨h2, h3⟩⟩
  · rintro ⟨p, h1, h2⟩
    obtain ⟨r, h3, rfl⟩ := List.mem_map.1 h1
    have := (within_iff _ _ _ _ hn).1 h2
    exact ⟨r, h3, this.1, by rw [Nat.mod_eq_of_lt ha, Nat.mod_eq_of_lt (hr r h3)]; exact this.2⟩

/-- C51 for the integer loads (missing as above): the load is performed iff all its bytes lie in one range, and the
destination then holds the little-endian value, sign- or zero-extended as the instruction says; otherwise the load access
fault is taken at the instruction and neither memory nor the destination changes. -/
theorem C51_load_partial (ranges : List Range) (hr : Fits ranges) (op : Op) (hop : (manual op).1 = true)
    (base offset src : BitVec 32) (pc : BitVec 64) (s : St) (ha : (base + offset).toNat + (manual op).2.1 < 2 ^ 32) :
    (Allowed (asPairs ranges) (base + offset).toNat (manual op).2.1 →
      (exec ranges op base offset src pc s).mem = s.mem ∧ (exec ranges op base offset src pc s).trap = s.trap ∧
      ((manual op).2.2 = true → (exec ranges op base offset src pc s).rd.toInt =
        signedValue (manual op).2.1 (bytesValue s.mem (base + offset).toNat (manual op).2.1)) ∧
      ((manual op).2.2 = false → (exec ranges op base offset src pc s).rd.toNat =
        bytesValue s.mem (base + offset).toNat (manual op).2.1)) ∧
    (¬ Allowed (asPairs ranges) (base + offset).toNat (manual op).2.1 →
      exec ranges op base offset src pc s = { s with trap := some ⟨false, 0, 5, pc⟩ }) := by
  obtain ⟨e1, e2, e3⟩ := manual_eq op
  rw [← e1] at hop
  rw [← e3 hop, ← e2]
  rw [← e2] at ha
  have hsz : op.checked.toNat = op.size ∧ (op.size = 1 ∨ op.size = 2 ∨ op.size = 4) := by
    cases op <;> first | (cases hop; done) | decide
  have hc := C51_check_partial ranges hr (base + offset) op.checked (by omega) (by rw [hsz.1]; exact ha)
  rw [hsz.1] at hc
  unfold exec
  dsimp only
  rw [exec_address]
  constructor
  · intro h
    rw [if_pos (hc.2 h), if_pos hop, loadN_eq]
    have hlt := bytesValue_lt s.mem (base + offset).toNat op.size
    refine ⟨rfl, rfl, fun hs => ?_, fun hs => ?_⟩
    · rw [hs]; exact extend_signed _ _ hsz.2 hlt
    · rw [hs]; exact extend_unsigned _ _ (by omega) hlt
  · intro h
    rw [if_neg (fun h' => h (hc.1 h'))]
    unfold Op.fault
    rw [if_pos hop]

/-- C51 for the integer stores (missing as above): the low bytes of the source are stored little-endian iff all of them
lie in one range, and no other byte changes; otherwise the store access fault is taken and memory does not change. -/
theorem C51_store_partial (ranges : List Range) (hr : Fits ranges) (op : Op) (hop : (manual op).1 = false) (hf : op ≠ .fsw)
    (base offset src : BitVec 32) (pc : BitVec 64) (s : St) (ha : (base + offset).toNat + (manual op).2.1 < 2 ^ 32) :
    (Allowed (asPairs ranges) (base + offset).toNat (manual op).2.1 →
      (exec ranges op base offset src pc s).rd = s.rd ∧ (exec ranges op base offset src pc s).trap = s.trap ∧
      (∀ i, i < (manual op).2.1 → (exec ranges op base offset src pc s).mem ((base + offset).toNat + i) =
        src.extractLsb' (8 * i) 8) ∧
      ∀ q, q < (base + offset).toNat ∨ (base + offset).toNat + (manual op).2.1 ≤ q →
        (exec ranges op base offset src pc s).mem q = s.mem q) ∧
    (¬ Allowed (asPairs ranges) (base + offset).toNat (manual op).2.1 →
      exec ranges op base offset src pc s = { s with trap := some ⟨false, 0, 7, pc⟩ }) := by
  obtain ⟨e1, e2, -⟩ := manual_eq op
  rw [← e1] at hop
  rw [← e2]
  rw [← e2] at ha
  have hsz : op.checked.toNat = op.size ∧ 0 < op.size := by
    cases op <;> first | (cases hop; done) | (exact absurd rfl hf) | decide
  have hc := C51_check_partial ranges hr (base + offset) op.checked (by omega) (by rw [hsz.1]; exact ha)
  rw [hsz.1] at hc
  unfold exec
  dsimp only
  rw [exec_address]
  constructor
  · intro h
    rw [if_pos (hc.2 h), if_neg (by rw [hop]; simp)]
    refine ⟨rfl, rfl, fun i hi => ?_, fun q hq => ?_⟩
    · show storeN _ _ _ _ _ = _
      unfold storeN
      rw [if_pos (by omega), show (base + offset).toNat + i - (base + offset).toNat = i by omega]
    · show storeN _ _ _ _ _ = _
      unfold storeN
      rw [if_neg (by omega)]
  · intro h
    rw [if_neg (fun h' => h (hc.1 h'))]
    unfold Op.fault
    rw [if_neg (by rw [hop]; simp)]

/-- C51 for `fsw`, as far as it holds: it demands that eight bytes lie in the range, and then stores four. -/
theorem C51_fsw_partial (ranges : List Range) (hr : Fits ranges) (base offset src : BitVec 32) (pc : BitVec 64) (s : St)
    (ha : (base + offset).toNat + 8 < 2 ^ 32) :
    (Allowed (asPairs ranges) (base + offset).toNat 8 →
      exec ranges .fsw base offset src pc s = { s with mem := storeN s.mem (base + offset).toNat 4 src }) ∧
    (¬ Allowed (asPairs ranges) (base + offset).toNat 8 →
      exec ranges .fsw base offset src pc s = { s with trap := some ⟨false, 0, 7, pc⟩ }) := by
  have hc := C51_check_partial ranges hr (base + offset) 8 (by decide) ha
  have h8 : (8 : BitVec 32).toNat = 8 := by decide
  rw [h8, show (8 : BitVec 32) = Op.fsw.checked from rfl] at hc
  unfold exec
  dsimp only
  rw [exec_address]
  constructor
  · intro h
    rw [if_pos (hc.2 h), if_neg (by decide)]
    rfl
  · intro h
    rw [if_neg (fun h' => h (hc.1 h'))]
    rfl

/-- The data memory of the default configuration: 32 KiB from 0x10000. -/
def dtcm : List Range := [⟨0x10000, 0x8000⟩]

def blank : St := ⟨fun q => BitVec.ofNat 8 q, 0, none⟩

/-- A signed halfword load, a word load across the end of the memory, and a byte store. -/
example : (exec dtcm .lh 0x10000 0x80 0 0x40 blank).rd = 0xffff8180#32 ∧
    (exec dtcm .lw 0x18000 0xfffffffe 0 0x40 blank).trap = some ⟨false, 0, 5, 0x40⟩ ∧
    (exec dtcm .sb 0x10000 1 0x12345678 0x40 blank).mem 0x10001 = 0x78#8 ∧
    (exec dtcm .sb 0x8000 1 0x12345678 0x40 blank).trap = some ⟨false, 0, 7, 0x40⟩ := by decide +kernel

example : Fits dtcm := by
  intro r hr
  simp [dtcm] at hr
  subst hr
  decide

/-- C51 is false for an access that reaches the end of the address space: with the default ranges, a word load at
0xfffffffc is performed. -/
theorem C51_wrapping_access :
    (exec dtcm .lw 0 0xfffffffc 0 0x40 blank).trap = none ∧ (exec dtcm .lw 0 0xfffffffc 0 0x40 blank).rd = 0xfffefdfc#32 ∧
    ¬ Allowed (asPairs dtcm) 0xfffffffc 4 := by
  refine ⟨by decide +kernel, by decide +kernel, ?_⟩
  rintro ⟨r, hr, h⟩
  simp [asPairs, dtcm] at hr
  subst hr
  have := h 0 (by omega)
  simp at this

/-- C51 is false for a range that reaches the end of the address space: nothing in it is accessible. -/
theorem C51_wrapping_range :
    (exec [⟨0xffff0000, 0x10000⟩] .lw 0xffff0000 0 0 0x40 blank).trap = some ⟨false, 0, 5, 0x40⟩ ∧
    Allowed (asPairs [⟨0xffff0000, 0x10000⟩]) 0xffff0000 4 := by
  refine ⟨by decide +kernel, _, List.mem_singleton.2 rfl, ?_⟩
  intro i hi
  show 0xffff0000 ≤ 0xffff0000 + i ∧ 0xffff0000 + i < 0xffff0000 + 0x10000
  omega

/-- C51 is false for `fsw` to the last word of the memory: it traps. -/
theorem C51_fsw_last_word :
    (exec dtcm .fsw 0x17ffc 0 0 0x40 blank).trap = some ⟨false, 0, 7, 0x40⟩ ∧ Allowed (asPairs dtcm) 0x17ffc 4 ∧
    (exec dtcm .sw 0x17ffc 0 0 0x40 blank).trap = none := by
  refine ⟨by decide +kernel, ⟨_, List.mem_singleton.2 rfl, ?_⟩, by decide +kernel⟩
  intro i hi
  show 0x10000 ≤ 0x17ffc + i ∧ 0x17ffc + i < 0x10000 + 0x8000
  omega

/-! ## C52 -/

/-- C52 for instruction memories of at least four bytes that end below 2^32 and for 32-bit addresses (missing: the rest,
for which it is false, see below). -/
theorem C52_fetch_partial (start length : BitVec 32) (h4 : 4 ≤ length.toNat) (hf : start.toNat + length.toNat < 2 ^ 32)
    (address : BitVec 64) (ha : address.toNat < 2 ^ 32) :
    (Within start.toNat length.toNat address.toNat 4 → decodeInstruction start length address = .fromMemory address) ∧
    (¬ Within start.toNat length.toNat address.toNat 4 →
      decodeInstruction start length address = .invalid address ∧ invalidTrap address = ⟨false, 0, 1, address⟩) := by
  have hk : isAddressInItcmRange start length (address.truncate 32) = true ↔
      Within start.toNat length.toNat address.toNat 4 := by
    rw [within_iff _ _ _ _ (by omega)]
    unfold isAddressInItcmRange
    have e1 : ((address.truncate 32 : BitVec 32)).toNat = address.toNat := by simp; omega
    have e2 : ((((start + length).zeroExtend 64 : BitVec 64)) - 4#64).toNat = start.toNat + length.toNat - 4 := by
      rw [BitVec.toNat_sub]; simp [BitVec.toNat_add]; omega
    rw [e1, e2]
    simp only [Bool.and_eq_true, decide_eq_true_eq]
    omega
  unfold decodeInstruction
  constructor
  · intro h; rw [if_pos (hk.2 h)]
  · intro h; rw [if_neg (fun h' => h (hk.1 h'))]; exact ⟨rfl, rfl⟩

example : decodeInstruction 0 0x2000 0x1ffc = .fromMemory 0x1ffc ∧ decodeInstruction 0 0x2000 0x1ffd = .invalid 0x1ffd ∧
    decodeInstruction 0x100 0x2000 0xfc = .invalid 0xfc := by decide

/-- C52 is false when no instruction memory is configured: every address is accepted. -/
theorem C52_unconfigured (address : BitVec 64) : decodeInstruction 0 0 address = .fromMemory address := by
  unfold decodeInstruction
  rw [if_pos]
  unfold isAddressInItcmRange
  have := ((address.truncate 32 : BitVec 32)).isLt
  have e : ((((0 : BitVec 32) + 0).zeroExtend 64 : BitVec 64) - 4#64).toNat = 18446744073709551612 := by decide
  rw [e]
  simp only [Bool.and_eq_true, decide_eq_true_eq]
  exact ⟨Nat.zero_le _, by omega⟩

/-- C52 is false for an instruction memory that ends at 2^32: an instruction that sticks out of the address space is
accepted. -/
theorem C52_at_the_end : decodeInstruction 0xffff0000 0x10000 0xffffffff = .fromMemory 0xffffffff ∧
    ¬ Within 0xffff0000 0x10000 0xffffffff 4 := by
  refine ⟨by decide, fun h => ?_⟩
  have := h 3 (by omega)
  omega

/-- C52 is false for addresses above 2^32: they are checked modulo 2^32 but decoded as they are. -/
theorem C52_truncated : decodeInstruction 0 0x2000 0x100000010 = .fromMemory 0x100000010 ∧
    ¬ Within 0 0x2000 0x100000010 4 := by
  refine ⟨by decide, fun h => ?_⟩
  have := h 0 (by omega)
  omega

/-! ## C53 -/

/-- C53: bits 25 to 0 are preserved, bits 31 and 30 move to 63 and 62, all others are zero. -/
theorem C53_stretch (v : BitVec 32) :
    (∀ i, i < 26 → (stretchMisa32 v).getLsbD i = v.getLsbD i) ∧
    (stretchMisa32 v).getLsbD 63 = v.getLsbD 31 ∧ (stretchMisa32 v).getLsbD 62 = v.getLsbD 30 ∧
    ∀ i, 26 ≤ i → i < 62 → (stretchMisa32 v).getLsbD i = false := by
  have key : ∀ i, i < 64 → (stretchMisa32 v).getLsbD i =
      (decide (32 ≤ i) && ((0xc0000000#64).getLsbD (i - 32) && v.getLsbD (i - 32)) ||
        ((0x03ffffff#64).getLsbD i && v.getLsbD i)) := by
    intro i hi
    have h1 : i - 32 < 64 := by omega
    simp only [stretchMisa32, BitVec.getLsbD_or, BitVec.getLsbD_shiftLeft, BitVec.getLsbD_and,
      BitVec.getLsbD_setWidth, BitVec.zeroExtend, hi, h1, decide_true, Bool.true_and]
    by_cases h : i < 32
    · simp [h, show ¬ 32 ≤ i by omega, Bool.and_comm]
    · simp [h, show 32 ≤ i by omega, Bool.and_comm]
  have hm : ∀ i, i < 64 → ((0x03ffffff#64).getLsbD i = decide (i < 26)) ∧
      ((0xc0000000#64).getLsbD i = decide (i = 30 ∨ i = 31)) := by decide
  refine ⟨fun i hi => ?_, ?_, ?_, fun i h1 h2 => ?_⟩
  · rw [key i (by omega), (hm i (by omega)).1]
    simp [show ¬ 32 ≤ i by omega, hi]
  · rw [key 63 (by omega)]; simp
  · rw [key 62 (by omega)]; simp
  · rw [key i (by omega), (hm i (by omega)).1, (hm (i - 32) (by omega)).2]
    simp [show ¬ i < 26 by omega, show ¬ (i - 32 = 30 ∨ i - 32 = 31) by omega]

/-- C53: the extensions and the MXL field are recovered, and so the original is, if its reserved bits are zero. -/
theorem C53_recover (v : BitVec 32) :
    (stretchMisa32 v).toNat % 2 ^ 26 = v.toNat % 2 ^ 26 ∧ (stretchMisa32 v).toNat / 2 ^ 62 = v.toNat / 2 ^ 30 := by
  obtain ⟨h1, h2, h3, h4⟩ := C53_stretch v
  constructor
  · apply Nat.eq_of_testBit_eq
    intro i
    rw [Nat.testBit_mod_two_pow, Nat.testBit_mod_two_pow]
    by_cases hi : i < 26
    · have := h1 i hi
      simp only [BitVec.getLsbD] at this
      rw [this]
    · simp [hi]
  · apply Nat.eq_of_testBit_eq
    intro i
    rw [Nat.testBit_div_two_pow, Nat.testBit_div_two_pow]
    simp only [BitVec.getLsbD] at h2 h3
    match i with
    | 0 => exact h3
    | 1 => exact h2
    | i + 2 =>
      rw [Nat.testBit_lt_two_pow, Nat.testBit_lt_two_pow]
      · exact Nat.lt_of_lt_of_le v.isLt (Nat.pow_le_pow_right (by omega) (by omega))
      · exact Nat.lt_of_lt_of_le (stretchMisa32 v).isLt (Nat.pow_le_pow_right (by omega) (by omega))

example : stretchMisa32 0x40201120#32 = 0x4000000000201120#64 := by decide

/-! ## C54 -/

/-- C54: some number `k` of the handlers, the first `k` in registration order, have been called, each once and on the
state its predecessor left; either the last of them accepted, the others refused and no trap is raised, or all handlers
were called, all refused, and trap 3 is raised at the instruction's address. -/
theorem C54_dispatch {S : Type} (inst : Option (BitVec 64)) (hs : List (Handler S)) (s : S) :
    ∃ k, k ≤ hs.length ∧ (mpauseV2 inst hs s).2 = effects hs k s ∧
      (((mpauseV2 inst hs s).1 = none ∧ 0 < k ∧ (∃ h, hs[k - 1]? = some h ∧ (h (effects hs (k - 1) s)).1 = true) ∧
          ∀ (i : Nat) (h : Handler S), i < k - 1 → hs[i]? = some h → (h (effects hs i s)).1 = false) ∨
       ((mpauseV2 inst hs s).1 = some ⟨false, 0, 3, inst.getD 0⟩ ∧ k = hs.length ∧
          ∀ (i : Nat) (h : Handler S), hs[i]? = some h → (h (effects hs i s)).1 = false)) := by
  induction hs generalizing s with
  | nil => exact ⟨0, Nat.le_refl _, rfl, Or.inr ⟨rfl, rfl, fun i h hi => by simp at hi⟩⟩
  | cons h t ih =>
    cases hh : h s with
    | mk b s' =>
      cases b with
      | true =>
        refine ⟨1, by simp, ?_, Or.inl ⟨?_, by omega, ⟨h, rfl, ?_⟩, fun i _ hi => by omega⟩⟩
        · simp [mpauseV2, hh, effects]
        · simp [mpauseV2, hh]
        · simp [effects, hh]
      | false =>
        obtain ⟨k, h1, h2, h3⟩ := ih s'
        have he : ∀ j, effects (h :: t) (j + 1) s = effects t j s' := by intro j; simp [effects, hh]
        have hm : mpauseV2 inst (h :: t) s = mpauseV2 inst t s' := by rw [mpauseV2, hh]
        refine ⟨k + 1, by simp [h1], by rw [hm, h2, he], ?_⟩
        rw [hm]
        rcases h3 with ⟨g1, g2, ⟨g, g3, g4⟩, g5⟩ | ⟨g1, g2, g3⟩
        · refine Or.inl ⟨g1, by omega, ⟨g, ?_, ?_⟩, fun i f hi hf => ?_⟩
          · rw [show k + 1 - 1 = (k - 1) + 1 by omega, List.getElem?_cons_succ, g3]
          · rw [show k + 1 - 1 = (k - 1) + 1 by omega, he]; exact g4
          · cases i with
            | zero => simp at hf; subst hf; simp [effects, hh]
            | succ i => rw [he]; exact g5 i f (by omega) (by simpa using hf)
        · refine Or.inr ⟨g1, by simp [g2], fun i f hf => ?_⟩
          cases i with
          | zero => simp at hf; subst hf; simp [effects, hh]
          | succ i => rw [he]; exact g3 i f (by simpa using hf)

/-- C54: the V1 dispatcher does the same. -/
theorem C54_same {S : Type} (inst : Option (BitVec 64)) (hs : List (Handler S)) (s : S) :
    mpauseV1 inst hs s = mpauseV2 inst hs s := by
  induction hs generalizing s with
  | nil => rfl
  | cons h t ih =>
    unfold mpauseV1 mpauseV2
    cases hh : h s with
    | mk b s' => cases b <;> simp [ih]

/-- Handlers that log their number: the second accepts, the third is not called; without it all are called and the trap
is raised at the instruction. -/
example : mpauseV2 (some 0x80) [fun l => (false, l ++ [1]), fun l => (true, l ++ [2]), fun l => (true, l ++ [3])] [] =
      (none, [1, 2]) ∧
    mpauseV1 (some 0x80) [fun l => (false, l ++ [1]), fun l => (false, l ++ [3])] [] =
      (some ⟨false, 0, 3, 0x80⟩, [1, 3]) := by
  decide

end Verif.Props
