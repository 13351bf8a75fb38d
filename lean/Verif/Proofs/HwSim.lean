import Verif.Model.HwSim
import Verif.Spec.HwSim

/-! # Lemmas for scalar stores and the hardware-simulator wrapper -/

namespace Verif.Proofs.HwSim

open Verif Verif.Model.HwSim Verif.Spec.HwSim

theorem shift_byte (v : BitVec 32) (i : Nat) : ((v >>> (8 * i)).truncate 8 : BitVec 8).toNat = v.toNat / 256 ^ i % 256 := by
  rw [BitVec.truncate_eq_setWidth, BitVec.toNat_setWidth, BitVec.toNat_ushiftRight, Nat.shiftRight_eq_div_pow, Nat.pow_mul]

theorem storeMemory_stored (mem : Mem) (a n : Nat) (v : BitVec 32) : Stored a n v mem (storeMemory mem a n v) := by
  constructor
  · intro i hi
    unfold storeMemory
    rw [if_pos ⟨by omega, by omega⟩, show a + i - a = i by omega, shift_byte]
  · intro q hq
    unfold storeMemory
    rw [if_neg (by omega)]

theorem stored_unique {a n : Nat} {v : BitVec 32} {m m1 m2 : Mem} (h1 : Stored a n v m m1) (h2 : Stored a n v m m2) :
    m1 = m2 := by
  funext q
  by_cases hq : q < a ∨ a + n ≤ q
  · rw [h1.2 q hq, h2.2 q hq]
  · apply BitVec.eq_of_toNat_eq
    have e1 := h1.1 (q - a) (by omega)
    have e2 := h2.1 (q - a) (by omega)
    rw [show a + (q - a) = q by omega] at e1 e2
    rw [e1, e2]

theorem mask_toNat (a : BitVec 32) : ((a.zeroExtend 64 &&& memMask).truncate 32 : BitVec 32).toNat = a.toNat % 2 ^ 31 := by
  have h : memMask.toNat = 2 ^ 31 - 1 := by decide
  have := a.isLt
  simp only [BitVec.toNat_and, h, BitVec.truncate_eq_setWidth, BitVec.toNat_setWidth]
  rw [Nat.and_two_pow_sub_one_eq_mod]
  omega

theorem wordAt_iff (m : Mem) (a : Nat) (v : BitVec 32) : wordAt m a = v ↔ WordIs m a v := by
  have h0 := (m a).isLt
  have h1 := (m (a + 1)).isLt
  have h2 := (m (a + 2)).isLt
  have h3 := (m (a + 3)).isLt
  have hv := v.isLt
  have ht : (wordAt m a).toNat = (m a).toNat + 256 * (m (a + 1)).toNat + 65536 * (m (a + 2)).toNat +
      16777216 * (m (a + 3)).toNat := by
    unfold wordAt
    rw [BitVec.toNat_ofNat]
    exact Nat.mod_eq_of_lt (by omega)
  constructor
  · rintro rfl i hi
    rw [ht]
    match i, hi with
    | 0, _ => show (m a).toNat = _; omega
    | 1, _ => show (m (a + 1)).toNat = _; omega
    | 2, _ => show (m (a + 2)).toNat = _; omega
    | 3, _ => show (m (a + 3)).toNat = _; omega
  · intro h
    have e0 : (m a).toNat = v.toNat / 256 ^ 0 % 256 := h 0 (by omega)
    have e1 := h 1 (by omega)
    have e2 := h 2 (by omega)
    have e3 := h 3 (by omega)
    apply BitVec.eq_of_toNat_eq
    rw [ht]
    omega

variable {ρ : Type}

theorem mailboxBytes_get (m : Mailbox) (k : Fin 4) (i : Nat) (hi : i < 4) :
    ((mailboxBytes m)[4 * k.val + i]?).getD 0 = (m k >>> (8 * i)).truncate 8 := by
  unfold mailboxBytes
  rw [List.getElem?_map, List.getElem?_range (by omega)]
  simp only [Option.map_some, Option.getD_some]
  have e1 : (4 * k.val + i) % 4 = i := by omega
  have e2 : (4 * k.val + i) / 4 % 4 = k.val := by omega
  rw [e1]
  congr 3
  exact Fin.ext e2

theorem writeMailbox_word (m : Mailbox) (s : St ρ) (k : Fin 4) :
    WordIs (writeMailbox m s).mem (addrMailbox + 4 * k.val) (m k) := by
  intro i hi
  have hl : (mailboxBytes m).length = 16 := by simp [mailboxBytes]
  have ha : (0x401fc000 : BitVec 32).toNat = addrMailbox := by decide
  unfold writeMailbox writeTcm
  dsimp only
  rw [ha, hl, if_pos ⟨by omega, by omega⟩, show addrMailbox + 4 * k.val + i - addrMailbox = 4 * k.val + i by omega,
    mailboxBytes_get m k i hi, shift_byte]

theorem writeTcm_outside (a : BitVec 32) (d : List (BitVec 8)) (s : St ρ) (q : Nat)
    (h : q < a.toNat ∨ a.toNat + d.length ≤ q) : (writeTcm a d s).mem q = s.mem q := by
  unfold writeTcm
  dsimp only
  rw [if_neg (by omega)]

theorem fetchMailbox_of_words (s : St ρ) (m : Mailbox)
    (h : ∀ k : Fin 4, WordIs s.mem (addrMailbox + 4 * k.val) (m k)) : (fetchMailbox s).mailbox = m := by
  funext k
  exact (wordAt_iff _ _ _).2 (h k)

theorem fetchMailbox_words (s : St ρ) (i : Fin 4) :
    WordIs (fetchMailbox s).mem (0x401fc000 + 4 * i.val) ((fetchMailbox s).mailbox i) := by
  unfold fetchMailbox
  dsimp only
  rw [show addrMailbox = 0x401fc000 from rfl]
  exact (wordAt_iff _ _ _).1 rfl

end Verif.Proofs.HwSim
