import Verif.Props.V2

/-! # C102: exactly the accesses and fetches of the second core that pass -/

namespace Verif.Props

open Verif Verif.Model.V2 Verif.Spec.V2 Verif.Proofs.V2

/-- What the check of the core asks of a range, in integers: the start is compared as it is, the ends after the address space has
been folded. -/
def Passes (start len a n : Nat) : Prop :=
  start ≤ a ∧
    ((a + n < 2 ^ 32 ∧ start + len < 2 ^ 32 ∧ a + n ≤ start + len) ∨
     (2 ^ 32 ≤ a + n ∧ start + len < 2 ^ 32 ∧ a + n ≤ start + len + 2 ^ 32) ∨
     (a + n < 2 ^ 32 ∧ 2 ^ 32 ≤ start + len ∧ a + n + 2 ^ 32 ≤ start + len) ∨
     (2 ^ 32 ≤ a + n ∧ 2 ^ 32 ≤ start + len ∧ a + n ≤ start + len))

theorem passes_iff (s l a n : BitVec 32) :
    Passes s.toNat l.toNat a.toNat n.toNat ↔
      s.toNat ≤ a.toNat ∧ (a.toNat + n.toNat) % 2 ^ 32 ≤ (s.toNat + l.toNat) % 2 ^ 32 := by
  have := s.isLt
  have := l.isLt
  have := a.isLt
  have := n.isLt
  unfold Passes
  omega

/-- C102: the check passes exactly when some range passes, for all ranges, addresses and sizes. -/
theorem C102_check (ranges : List Range) (a n : BitVec 32) :
    isLsuAccessValid ranges a n = true ↔ ∃ p ∈ asPairs ranges, Passes p.1 p.2 a.toNat n.toNat := by
  rw [valid_iff]
  constructor
  · rintro ⟨r, h1, h2⟩
    exact ⟨_, List.mem_map_of_mem h1, (passes_iff ..).2 h2⟩
  · rintro ⟨p, h1, h2⟩
    obtain ⟨r, h3, rfl⟩ := List.mem_map.1 h1
    exact ⟨r, h3, (passes_iff ..).1 h2⟩

/-- C102: with ranges that end below 2^32 no allowed access is refused, and an access that passes without being allowed is one that
runs over the end of the address space and whose folded end is not above the end of a range that starts below it. -/
theorem C102_wrongly_passed (ranges : List Range) (hr : Fits ranges) (a n : BitVec 32) (hn : 0 < n.toNat) :
    (Allowed (asPairs ranges) a.toNat n.toNat → isLsuAccessValid ranges a n = true) ∧
    ((isLsuAccessValid ranges a n = true ∧ ¬ Allowed (asPairs ranges) a.toNat n.toNat) ↔
      2 ^ 32 ≤ a.toNat + n.toNat ∧ ∃ r ∈ ranges, r.start.toNat ≤ a.toNat ∧
        a.toNat + n.toNat ≤ r.start.toNat + r.length.toNat + 2 ^ 32) := by
  by_cases hw : a.toNat + n.toNat < 2 ^ 32
  · have h := C51_check_partial ranges hr a n hn hw
    refine ⟨h.2, fun hh => absurd (h.1 hh.1) hh.2, fun hh => absurd hh.1 (by omega)⟩
  · have hna : ¬ Allowed (asPairs ranges) a.toNat n.toNat := by
      rintro ⟨p, h1, h2⟩
      obtain ⟨r, h3, rfl⟩ := List.mem_map.1 h1
      have := (within_iff _ _ _ _ hn).1 h2
      have := hr r h3
      have : a.toNat + n.toNat ≤ r.start.toNat + r.length.toNat := by omega
      omega
    refine ⟨fun h => absurd h hna, fun ⟨h, _⟩ => ⟨by omega, ?_⟩, fun ⟨_, r, h1, h2, h3⟩ => ⟨?_, hna⟩⟩
    · obtain ⟨p, h1, h2⟩ := (C102_check ..).1 h
      obtain ⟨r, h3, rfl⟩ := List.mem_map.1 h1
      have := hr r h3
      refine ⟨r, h3, h2.1, ?_⟩
      have h2 := h2.2
      simp only at h2
      omega
    · refine (C102_check ..).2 ⟨_, List.mem_map_of_mem h1, h2, ?_⟩
      have := hr r h1
      simp only
      omega

/-- C102: whatever the ranges, an access that is allowed and refused lies in ranges that reach the end of the address space only, and
does not itself reach it. -/
theorem C102_wrongly_refused (ranges : List Range) (a n : BitVec 32) (hn : 0 < n.toNat)
    (ha : Allowed (asPairs ranges) a.toNat n.toNat) (hv : isLsuAccessValid ranges a n = false) :
    a.toNat + n.toNat < 2 ^ 32 ∧ ∀ p ∈ asPairs ranges, Within p.1 p.2 a.toNat n.toNat → 2 ^ 32 ≤ p.1 + p.2 := by
  have hv : ∀ p ∈ asPairs ranges, ¬ Passes p.1 p.2 a.toNat n.toNat := by
    intro p hp h
    rw [(C102_check ..).2 ⟨p, hp, h⟩] at hv
    cases hv
  have key : ∀ p ∈ asPairs ranges, Within p.1 p.2 a.toNat n.toNat →
      a.toNat + n.toNat < 2 ^ 32 ∧ 2 ^ 32 ≤ p.1 + p.2 := by
    intro p hp h
    have h1 := (within_iff _ _ _ _ hn).1 h
    have h2 := hv p hp
    unfold Passes at h2
    omega
  obtain ⟨p, hp, h⟩ := ha
  exact ⟨(key p hp h).1, fun p hp h => (key p hp h).2⟩

/-- The bytes `AccessCheck` asks for: those of the access, but eight for `fsw`. -/
def askedFor (op : Op) : Nat := if op = .fsw then 8 else (manual op).2.1

/-- C102: every scalar load or store, whatever the ranges and operands: it is carried out, with the value of the manual, exactly when
the bytes asked for pass, and otherwise leaves the access fault of its kind and nothing else. -/
theorem C102_exec (ranges : List Range) (op : Op) (base offset src : BitVec 32) (pc : BitVec 64) (s : St) :
    ((∃ p ∈ asPairs ranges, Passes p.1 p.2 (base + offset).toNat (askedFor op)) →
      (exec ranges op base offset src pc s).trap = s.trap ∧
      ((manual op).1 = true → (exec ranges op base offset src pc s).mem = s.mem ∧
        ((manual op).2.2 = true → (exec ranges op base offset src pc s).rd.toInt =
          signedValue (manual op).2.1 (bytesValue s.mem (base + offset).toNat (manual op).2.1)) ∧
        ((manual op).2.2 = false → (exec ranges op base offset src pc s).rd.toNat =
          bytesValue s.mem (base + offset).toNat (manual op).2.1)) ∧
      ((manual op).1 = false → (exec ranges op base offset src pc s).rd = s.rd ∧
        (∀ i, i < (manual op).2.1 → (exec ranges op base offset src pc s).mem ((base + offset).toNat + i) =
          src.extractLsb' (8 * i) 8) ∧
        ∀ q, q < (base + offset).toNat ∨ (base + offset).toNat + (manual op).2.1 ≤ q →
          (exec ranges op base offset src pc s).mem q = s.mem q)) ∧
    ((¬ ∃ p ∈ asPairs ranges, Passes p.1 p.2 (base + offset).toNat (askedFor op)) →
      exec ranges op base offset src pc s = { s with trap := some ⟨false, 0, if (manual op).1 then 5 else 7, pc⟩ }) := by
  have hs : op.checked.toNat = askedFor op := by cases op <;> rfl
  have hc := C102_check ranges (base + offset) op.checked
  rw [hs] at hc
  have hf : op.fault = if (manual op).1 then 5 else 7 := by cases op <;> rfl
  obtain ⟨e1, e2, e3⟩ := manual_eq op
  have hsz : op.size = 1 ∨ op.size = 2 ∨ op.size = 4 := by cases op <;> decide
  rw [← e2, ← e1]
  rw [← e1] at hf
  unfold exec
  dsimp only
  rw [exec_address]
  constructor
  · intro h
    rw [if_pos (hc.2 h)]
    refine ⟨?_, fun hop => ?_, fun hop => ?_⟩
    · split <;> rfl
    · rw [if_pos hop, loadN_eq, ← e3 hop]
      have hlt := bytesValue_lt s.mem (base + offset).toNat op.size
      refine ⟨rfl, fun hs => ?_, fun hs => ?_⟩
      · rw [hs]; exact extend_signed _ _ hsz hlt
      · rw [hs]; exact extend_unsigned _ _ (by omega) hlt
    · rw [if_neg (by rw [hop]; simp)]
      refine ⟨rfl, fun i hi => ?_, fun q hq => ?_⟩
      · show storeN _ _ _ _ _ = _
        unfold storeN
        rw [if_pos (by omega), show (base + offset).toNat + i - (base + offset).toNat = i by omega]
      · show storeN _ _ _ _ _ = _
        unfold storeN
        rw [if_neg (by omega)]
  · intro h
    rw [if_neg (fun h' => h (hc.1 h')), hf]

/-- C102: an instruction is fetched exactly when the low half of its address is not below the start, and four bytes from it end by the
folded end of the instruction memory or that end is below four; otherwise the instruction access fault is raised. -/
theorem C102_fetch (start length : BitVec 32) (a : BitVec 64) :
    ((start.toNat ≤ a.toNat % 2 ^ 32 ∧ ((start.toNat + length.toNat) % 2 ^ 32 < 4 ∨
        a.toNat % 2 ^ 32 + 4 ≤ (start.toNat + length.toNat) % 2 ^ 32)) → decodeInstruction start length a = .fromMemory a) ∧
    (¬ (start.toNat ≤ a.toNat % 2 ^ 32 ∧ ((start.toNat + length.toNat) % 2 ^ 32 < 4 ∨
        a.toNat % 2 ^ 32 + 4 ≤ (start.toNat + length.toNat) % 2 ^ 32)) →
      decodeInstruction start length a = .invalid a ∧ invalidTrap a = ⟨false, 0, 1, a⟩) := by
  have hk : isAddressInItcmRange start length (a.truncate 32) = true ↔
      (start.toNat ≤ a.toNat % 2 ^ 32 ∧ ((start.toNat + length.toNat) % 2 ^ 32 < 4 ∨
        a.toNat % 2 ^ 32 + 4 ≤ (start.toNat + length.toNat) % 2 ^ 32)) := by
    unfold isAddressInItcmRange
    have e1 : ((a.truncate 32 : BitVec 32)).toNat = a.toNat % 2 ^ 32 := by simp
    have e2 : ((((start + length).zeroExtend 64 : BitVec 64)) - 4#64).toNat =
        ((start.toNat + length.toNat) % 2 ^ 32 + (2 ^ 64 - 4)) % 2 ^ 64 := by
      rw [BitVec.toNat_sub]; simp [BitVec.toNat_add]; omega
    rw [e1, e2]
    simp only [Bool.and_eq_true, decide_eq_true_eq]
    omega
  unfold decodeInstruction
  exact ⟨fun h => by rw [if_pos (hk.2 h)], fun h => by rw [if_neg (fun h' => h (hk.1 h'))]; exact ⟨rfl, rfl⟩⟩

/-- C102: with an instruction memory of four bytes or more that ends below 2^32, an instruction is fetched from outside it exactly when
the low half of its address alone would be inside. -/
theorem C102_fetched_outside (start length : BitVec 32) (h4 : 4 ≤ length.toNat) (hf : start.toNat + length.toNat < 2 ^ 32)
    (a : BitVec 64) :
    (decodeInstruction start length a = .fromMemory a ∧ ¬ Within start.toNat length.toNat a.toNat 4) ↔
      2 ^ 32 ≤ a.toNat ∧ Within start.toNat length.toNat (a.toNat % 2 ^ 32) 4 := by
  obtain ⟨h1, h2⟩ := C102_fetch start length a
  rw [within_iff _ _ _ _ (by omega), within_iff _ _ _ _ (by omega)]
  constructor
  · rintro ⟨h, hn⟩
    have : start.toNat ≤ a.toNat % 2 ^ 32 ∧ ((start.toNat + length.toNat) % 2 ^ 32 < 4 ∨
        a.toNat % 2 ^ 32 + 4 ≤ (start.toNat + length.toNat) % 2 ^ 32) := by
      refine Classical.byContradiction fun hc => ?_
      rw [(h2 hc).1] at h
      cases h
    omega
  · rintro ⟨h, hw⟩
    exact ⟨h1 (by omega), by omega⟩

/-- A word load at the last byte passes with the default data memory, since it ends at 3 after folding; one from below the memory does
not; `fsw` asks for eight bytes. -/
example : Passes 0x10000 0x8000 0xffffffff 4 ∧ ¬ Passes 0x10000 0x8000 0xfffe 4 ∧ askedFor .fsw = 8 ∧ askedFor .sw = 4 ∧
    ¬ Passes 0xffff0000 0x10000 0xffff0000 4 := by
  simp [Passes, askedFor, manual]

example : decodeInstruction 0 0x2000 0x100000010 = .fromMemory 0x100000010 ∧ decodeInstruction 0 0x2000 0x100002000 = .invalid 0x100002000 ∧
    decodeInstruction 0xfffffffe 4 0xffffffff = .fromMemory 0xffffffff := by decide

end Verif.Props
