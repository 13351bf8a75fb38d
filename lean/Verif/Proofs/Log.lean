import Verif.Model.Log
import Mathlib.Data.List.Induction

/-! # Lemmas for the log instructions -/

namespace Verif.Proofs.Log

open Verif Verif.Model.Log Verif.Spec.Log

/-! ## Numerals -/

theorem digitChar_value (d : Nat) (h : d < 16) : digitValue (digitChar d) = some d := by
  have key : ∀ d : Fin 16, digitValue (digitChar d.val) = some d.val := by decide
  exact key ⟨d, h⟩

theorem digitChar_of_value (b : BitVec 8) (d : Nat) (h : digitValue b = some d) : b = digitChar d ∧ d < 16 := by
  have key : ∀ b : BitVec 8, ∀ d, digitValue b = some d → b = digitChar d ∧ d < 16 := by
    intro b d h
    unfold digitValue at h
    split at h
    · injection h with h
      subst h
      refine ⟨?_, by omega⟩
      unfold digitChar
      rw [if_pos (by omega)]
      apply BitVec.eq_of_toNat_eq
      rw [BitVec.toNat_ofNat]
      omega
    · split at h
      · injection h with h
        subst h
        refine ⟨?_, by omega⟩
        unfold digitChar
        rw [if_neg (by omega)]
        apply BitVec.eq_of_toNat_eq
        rw [BitVec.toNat_ofNat]
        omega
      · cases h
  exact key b d h

theorem value_append (base : Nat) (s : List (BitVec 8)) (b : BitVec 8) :
    value base (s ++ [b]) = value base s * base + (digitValue b).getD 0 := by
  unfold value
  rw [List.foldl_append]
  rfl

theorem value_pos (base : Nat) (hb : 2 ≤ base) (s : List (BitVec 8)) :
    s ≠ [] → (∀ b ∈ s, ∃ d, digitValue b = some d ∧ d < base) → s.head? ≠ some 0x30 → 0 < value base s := by
  induction s using List.reverseRecOn with
  | nil => exact fun h => absurd rfl h
  | append_singleton t b ih =>
    intro _ hd hh
    rw [value_append]
    cases t with
    | nil =>
      obtain ⟨d, h1, h2⟩ := hd b (by simp)
      rw [h1]
      obtain ⟨h3, -⟩ := digitChar_of_value b d h1
      have : d ≠ 0 := by
        rintro rfl
        exact hh (by rw [h3]; rfl)
      simp only [Option.getD_some]
      omega
    | cons c t =>
      have := ih (by simp) (fun x hx => hd x (List.mem_append_left _ hx)) (by simpa using hh)
      have := Nat.mul_pos this (show 0 < base by omega)
      omega

theorem formatNat_small (base n : Nat) (h : n < base) : formatNat base n = [digitChar n] := by
  rw [formatNat, dif_pos (Or.inl h)]

theorem formatNat_large (base n : Nat) (hb : 2 ≤ base) (h : base ≤ n) :
    formatNat base n = formatNat base (n / base) ++ [digitChar (n % base)] := by
  rw [formatNat, dif_neg (by omega)]

/-- There is one way to write a number. -/
theorem numeral_unique (base : Nat) (hb : 2 ≤ base) (s : List (BitVec 8)) :
    ∀ n, Numeral base s n → s = formatNat base n := by
  induction s using List.reverseRecOn with
  | nil => exact fun n h => absurd rfl h.nonempty
  | append_singleton t b ih =>
    intro n h
    obtain ⟨d, h1, h2⟩ := h.digits b (by simp)
    have hv := h.value
    rw [value_append, h1] at hv
    simp only [Option.getD_some] at hv
    obtain ⟨h3, -⟩ := digitChar_of_value b d h1
    cases t with
    | nil =>
      simp only [Verif.Spec.Log.value, List.foldl_nil, Nat.zero_mul, Nat.zero_add] at hv
      subst hv
      rw [formatNat_small _ _ h2, h3]; rfl
    | cons c t =>
      have hne : (c :: t).head? ≠ some 0x30 := by
        intro hx
        have := h.lead (by simpa using hx)
        simp at this
      have hdig : ∀ x ∈ c :: t, ∃ d, digitValue x = some d ∧ d < base :=
        fun x hx => h.digits x (List.mem_append_left _ hx)
      have hpos := value_pos base hb (c :: t) (by simp) hdig hne
      have ht := ih _ ⟨by simp, hdig, rfl, fun hx => absurd hx hne⟩
      have hn : base ≤ n := by
        have := Nat.mul_le_mul_right base hpos
        omega
      have hdiv : n / base = value base (c :: t) := by
        rw [← hv, Nat.mul_comm, Nat.mul_add_div (by omega), Nat.div_eq_of_lt h2, Nat.add_zero]
      have hmod : n % base = d := by
        rw [← hv, Nat.mul_comm, Nat.mul_add_mod, Nat.mod_eq_of_lt h2]
      rw [formatNat_large base n hb hn, hdiv, hmod, ← ht, h3]

theorem formatNat_head (base : Nat) (hb : 2 ≤ base) (hb' : base ≤ 16) (n : Nat) :
    (formatNat base n).head? = some 0x30 → n = 0 := by
  induction n using Nat.strongRecOn with
  | _ n ih =>
    by_cases h : n < base
    · rw [formatNat_small _ _ h]
      intro hx
      have hx : digitChar n = 0x30 := by simpa using hx
      have := digitChar_value n (by omega)
      rw [hx] at this
      have : some 0 = some n := this
      injection this with this
      exact this.symm
    · rw [formatNat_large _ _ hb (by omega)]
      intro hx
      have hlt : n / base < n := Nat.div_lt_self (by omega) (by omega)
      have hne : formatNat base (n / base) ≠ [] := by
        rw [formatNat]; split <;> simp
      have hx : (formatNat base (n / base)).head? = some 0x30 := by
        cases hf : formatNat base (n / base) with
        | nil => exact absurd hf hne
        | cons c t => rw [hf] at hx; simpa using hx
      have := ih _ hlt hx
      have : 0 < n / base := Nat.div_pos (by omega) (by omega)
      omega

theorem formatNat_numeral (base : Nat) (hb : 2 ≤ base) (hb' : base ≤ 16) (n : Nat) :
    Numeral base (formatNat base n) n := by
  induction n using Nat.strongRecOn with
  | _ n ih =>
    by_cases h : n < base
    · rw [formatNat_small _ _ h]
      have hv := digitChar_value n (by omega)
      refine ⟨by simp, ?_, ?_, fun _ => rfl⟩
      · intro b hb
        rw [List.mem_singleton] at hb
        subst hb
        exact ⟨n, hv, h⟩
      · simp [Verif.Spec.Log.value, hv]
    · have hlt : n / base < n := Nat.div_lt_self (by omega) (by omega)
      have hi := ih _ hlt
      have hm : n % base < base := Nat.mod_lt _ (by omega)
      have hv := digitChar_value (n % base) (by omega)
      have hhead := formatNat_head base hb hb' n
      rw [formatNat_large _ _ hb (by omega)] at hhead ⊢
      refine ⟨by simp, ?_, ?_, ?_⟩
      · intro b hb
        rw [List.mem_append, List.mem_singleton] at hb
        rcases hb with hb | rfl
        · exact hi.digits b hb
        · exact ⟨_, hv, hm⟩
      · rw [value_append, hi.value, hv]
        simp only [Option.getD_some]
        rw [Nat.mul_comm]
        exact Nat.div_add_mod n base
      · intro hx
        have := hhead hx
        omega

/-! ## Printing -/

theorem shows_format (d : BitVec 8) (a : Arg) (h : Suits d a) : Shows d a (formatArg a d) := by
  cases a with
  | text s => unfold Suits at h; subst h; exact ⟨rfl, rfl⟩
  | word v =>
    unfold Shows formatArg
    rcases h with rfl | rfl | rfl
    · exact Or.inl ⟨rfl, formatNat_numeral 10 (by decide) (by decide) _⟩
    · dsimp only
      rw [if_neg (by decide), if_pos rfl]
      unfold formatInt
      by_cases hn : v.toInt < 0
      · rw [if_pos hn]
        exact Or.inr (Or.inr (Or.inr ⟨rfl, hn, _, rfl, formatNat_numeral 10 (by decide) (by decide) _⟩))
      · rw [if_neg hn]
        exact Or.inr (Or.inr (Or.inl ⟨rfl, by omega, formatNat_numeral 10 (by decide) (by decide) _⟩))
    · exact Or.inr (Or.inl ⟨rfl, formatNat_numeral 16 (by decide) (by decide) _⟩)

theorem shows_unique (d : BitVec 8) (a : Arg) (s : List (BitVec 8)) (h : Shows d a s) : s = formatArg a d := by
  cases a with
  | text t => obtain ⟨rfl, rfl⟩ := h; rfl
  | word v =>
    unfold Shows at h
    unfold formatArg
    rcases h with ⟨rfl, h⟩ | ⟨rfl, h⟩ | ⟨rfl, hn, h⟩ | ⟨rfl, hn, t, rfl, h⟩
    · exact numeral_unique 10 (by decide) s _ h
    · exact numeral_unique 16 (by decide) s _ h
    · dsimp only
      rw [if_neg (by decide), if_pos rfl, formatInt, if_neg (by omega)]
      exact numeral_unique 10 (by decide) s _ h
    · dsimp only
      rw [if_neg (by decide), if_pos rfl, formatInt, if_pos hn]
      rw [numeral_unique 10 (by decide) t _ h]

theorem printLoop_char (b c : BitVec 8) (t : List (BitVec 8)) (args : List Arg) (log : List (BitVec 8)) (h1 : b ≠ 0)
    (h2 : b ≠ 0x25) : printLoop (b :: c :: t) args log = printLoop (c :: t) args (log ++ [b]) := by
  conv => lhs; unfold printLoop
  rw [if_neg h1, if_neg h2]

/-- A plain text is copied. -/
theorem printLoop_text (s rest : List (BitVec 8)) (args : List Arg) : ∀ (log : List (BitVec 8)), rest ≠ [] →
    (∀ b ∈ s, b ≠ 0 ∧ b ≠ 0x25) → printLoop (s ++ rest) args log = printLoop rest args (log ++ s) := by
  induction s with
  | nil => intro log _ _; simp
  | cons b s ih =>
    intro log hr hs
    obtain ⟨h1, h2⟩ := hs b (by simp)
    have hs' : ∀ x ∈ s, x ≠ 0 ∧ x ≠ 0x25 := fun x hx => hs x (List.mem_cons_of_mem _ hx)
    obtain ⟨c, t, hc⟩ : ∃ c t, s ++ rest = c :: t := by
      cases hq : s ++ rest with
      | nil => rw [List.append_eq_nil_iff] at hq; exact absurd hq.2 hr
      | cons c t => exact ⟨c, t, rfl⟩
    rw [List.cons_append, hc]
    rw [printLoop_char b c t args log h1 h2, ← hc, ih _ hr hs', List.append_assoc]
    rfl

theorem printLoop_prints {ps : List Piece} {args : List Arg} {out : List (BitVec 8)} (h : Prints ps args out) :
    (∀ p ∈ ps, p.Plain) → ∀ log, printLoop (source ps ++ [0]) args log = .ok (log ++ out) := by
  induction h with
  | nil args => intro _ log; simp [source, printLoop]
  | text s ps args out _ ih =>
    intro hp log
    have : source (.text s :: ps) = s ++ source ps := by simp [source, Piece.source]
    rw [this, List.append_assoc, printLoop_text s _ args log (by simp) (hp (.text s) (by simp)),
      ih (fun p hx => hp p (List.mem_cons_of_mem _ hx)), List.append_assoc]
  | dir d a s ps args out hs _ ih =>
    intro hp log
    have : source (.dir d :: ps) = 0x25 :: d :: source ps := by simp [source, Piece.source]
    rw [this, List.cons_append, List.cons_append]
    unfold printLoop
    rw [if_neg (by decide), if_pos rfl]
    dsimp only
    rw [ih (fun p hx => hp p (List.mem_cons_of_mem _ hx)), ← shows_unique d a s hs, List.append_assoc]

theorem prints_of_supplied (ps : List Piece) : ∀ args, Supplied ps args → ∃ out, Prints ps args out := by
  induction ps with
  | nil => exact fun args _ => ⟨[], .nil args⟩
  | cons p ps ih =>
    intro args h
    cases p with
    | text s =>
      obtain ⟨out, ho⟩ := ih args h
      exact ⟨_, .text s ps args out ho⟩
    | dir d =>
      cases args with
      | nil => exact absurd h id
      | cons a args =>
        obtain ⟨out, ho⟩ := ih args h.2
        exact ⟨_, .dir d a _ ps args out (shows_format d a h.1) ho⟩

/-! ## Words and strings -/

theorem byte_zero (w : BitVec 32) (k : Nat) : (((w >>> k) &&& 0xff == 0) = true) ↔ w.extractLsb' k 8 = 0 := by
  rw [beq_iff_eq]
  constructor
  · intro h
    apply BitVec.eq_of_getLsbD_eq
    intro i hi
    have := congrArg (fun x => BitVec.getLsbD x i) h
    simp only [BitVec.getLsbD_and, BitVec.getLsbD_ushiftRight] at this
    rw [BitVec.getLsbD_extractLsb']
    have e : (0xff#32).getLsbD i = true := by
      have : ∀ i : Fin 8, (0xff#32).getLsbD i.val = true := by decide
      exact this ⟨i, hi⟩
    rw [show ((255 : BitVec 32)).getLsbD i = true from e] at this
    simpa [hi] using this
  · intro h
    apply BitVec.eq_of_getLsbD_eq
    intro i hi
    by_cases h8 : i < 8
    · have := congrArg (fun x => BitVec.getLsbD x i) h
      simp only [BitVec.getLsbD_extractLsb'] at this
      simp [h8] at this
      simp [this]
    · have e : ((255 : BitVec 32)).getLsbD i = false := by
        have : ∀ i : Fin 32, ¬ i.val < 8 → ((255 : BitVec 32)).getLsbD i.val = false := by decide
        exact this ⟨i, hi⟩ h8
      rw [BitVec.getLsbD_and, e]
      simp

theorem chars_eq (w : BitVec 32) : chars w = wordBytes w := by
  have key : ∀ k, (w >>> k).truncate 8 = w.extractLsb' k 8 := by
    intro k
    apply BitVec.eq_of_getLsbD_eq
    intro i hi
    simp [hi]
  unfold chars wordBytes
  rw [← key 8, ← key 16, ← key 24, ← key 0]
  simp

theorem wordHasZero_iff (w : BitVec 32) : wordHasZero w = true ↔ (0 : BitVec 8) ∈ wordBytes w := by
  have h0 : ((w &&& 0xff == 0) = true) ↔ w.extractLsb' 0 8 = 0 := by
    have := byte_zero w 0
    rwa [BitVec.ushiftRight_zero] at this
  unfold wordHasZero wordBytes
  simp only [Bool.or_eq_true, byte_zero, h0, List.mem_cons, List.not_mem_nil, or_false]
  constructor
  · rintro (((h | h) | h) | h) <;> simp [h]
  · rintro (h | h | h | h) <;> simp [← h]

theorem loadWord_bytes (mem : Nat → BitVec 8) (a : Nat) :
    wordBytes (loadWord mem a) = [mem a, mem (a + 1), mem (a + 2), mem (a + 3)] := by
  have h0 := (mem a).isLt
  have h1 := (mem (a + 1)).isLt
  have h2 := (mem (a + 2)).isLt
  have h3 := (mem (a + 3)).isLt
  have hm : ((mem a).toNat + 256 * (mem (a + 1)).toNat + 65536 * (mem (a + 2)).toNat +
      16777216 * (mem (a + 3)).toNat) % 2 ^ 32 = (mem a).toNat + 256 * (mem (a + 1)).toNat +
      65536 * (mem (a + 2)).toNat + 16777216 * (mem (a + 3)).toNat := Nat.mod_eq_of_lt (by omega)
  have key : ∀ k, (loadWord mem a).extractLsb' k 8 = BitVec.ofNat 8 (((mem a).toNat + 256 * (mem (a + 1)).toNat +
      65536 * (mem (a + 2)).toNat + 16777216 * (mem (a + 3)).toNat) / 2 ^ k) := by
    intro k
    apply BitVec.eq_of_toNat_eq
    unfold loadWord
    rw [BitVec.extractLsb'_toNat, BitVec.toNat_ofNat, BitVec.toNat_ofNat, Nat.shiftRight_eq_div_pow,
      hm]
  unfold wordBytes
  rw [key, key, key, key]
  congr 1
  · apply BitVec.eq_of_toNat_eq; rw [BitVec.toNat_ofNat]; omega
  congr 1
  · apply BitVec.eq_of_toNat_eq; rw [BitVec.toNat_ofNat]; omega
  congr 1
  · apply BitVec.eq_of_toNat_eq; rw [BitVec.toNat_ofNat]; omega
  congr 1
  · apply BitVec.eq_of_toNat_eq; rw [BitVec.toNat_ofNat]; omega

theorem trim_append (s t : List (BitVec 8)) (hs : ∀ b ∈ s, b ≠ 0) (ht : 0 ∈ t) :
    trim (s ++ t) = .ok (s ++ t.takeWhile (· ≠ 0)) := by
  unfold trim
  rw [if_pos (List.mem_append_right _ ht), List.takeWhile_append_of_pos (by simpa using hs)]

/-! ## Strings in memory -/

theorem takeWhile_nonzero (s t : List (BitVec 8)) (hs : ∀ b ∈ s, b ≠ 0) : (s ++ 0 :: t).takeWhile (· ≠ 0) = s := by
  rw [List.takeWhile_append_of_pos (by simpa using hs)]
  simp

/-- The first word of a text of fewer than four bytes. -/
theorem short_word {mem : Nat → BitVec 8} {a : Nat} {s : List (BitVec 8)} (h : TextAt mem a s) (hl : s.length < 4) :
    ∃ t, [mem a, mem (a + 1), mem (a + 2), mem (a + 3)] = s ++ 0 :: t := by
  obtain ⟨h1, h2, -⟩ := h
  match s, hl, h1, h2 with
  | [], _, _, h2 =>
    have h2 : mem a = 0 := h2
    exact ⟨_, by rw [h2]; rfl⟩
  | [b0], _, h1, h2 =>
    have e0 : mem a = b0 := h1 0 (by simp)
    have h2 : mem (a + 1) = 0 := h2
    exact ⟨_, by rw [e0, h2]; rfl⟩
  | [b0, b1], _, h1, h2 =>
    have e0 : mem a = b0 := h1 0 (by simp)
    have e1 : mem (a + 1) = b1 := h1 1 (by simp)
    have h2 : mem (a + 2) = 0 := h2
    exact ⟨_, by rw [e0, e1, h2]; rfl⟩
  | [b0, b1, b2], _, h1, h2 =>
    have e0 : mem a = b0 := h1 0 (by simp)
    have e1 : mem (a + 1) = b1 := h1 1 (by simp)
    have e2 : mem (a + 2) = b2 := h1 2 (by simp)
    have h2 : mem (a + 3) = 0 := h2
    exact ⟨[], by rw [e0, e1, e2, h2]; rfl⟩
  | _ :: _ :: _ :: _ :: _, hl, _, _ => simp at hl; omega

/-- The first word and the rest of a longer text. -/
theorem long_word {mem : Nat → BitVec 8} {a : Nat} {s : List (BitVec 8)} (h : TextAt mem a s) (hl : 4 ≤ s.length) :
    ∃ t, s = [mem a, mem (a + 1), mem (a + 2), mem (a + 3)] ++ t ∧ TextAt mem (a + 4) t ∧
      (0 : BitVec 8) ∉ [mem a, mem (a + 1), mem (a + 2), mem (a + 3)] := by
  obtain ⟨h1, h2, h3⟩ := h
  match s, hl, h1, h2, h3 with
  | b0 :: b1 :: b2 :: b3 :: t, _, h1, h2, h3 =>
    have e0 : mem a = b0 := h1 0 (by simp)
    have e1 : mem (a + 1) = b1 := h1 1 (by simp)
    have e2 : mem (a + 2) = b2 := h1 2 (by simp)
    have e3 : mem (a + 3) = b3 := h1 3 (by simp)
    refine ⟨t, by rw [e0, e1, e2, e3]; rfl, ⟨?_, ?_, ?_⟩, ?_⟩
    · intro i hi
      have := h1 (i + 4) (by simpa using hi)
      rw [show a + 4 + i = a + (i + 4) by omega, this]
      rfl
    · rw [← h2]
      congr 1
      simp only [List.length_cons]
      omega
    · exact fun b hb => h3 b (by simp [hb])
    · rw [e0, e1, e2, e3]
      intro hx
      have : (0 : BitVec 8) ∈ b0 :: b1 :: b2 :: b3 :: t := by
        simp only [List.mem_cons, List.not_mem_nil, or_false] at hx ⊢
        tauto
      exact h3 0 this rfl
  | [], hl, _, _, _ => simp at hl
  | [_], hl, _, _, _ => simp at hl
  | [_, _], hl, _, _, _ => simp at hl
  | [_, _, _], hl, _, _, _ => simp at hl

theorem addr_next (addr : BitVec 32) (h : addr.toNat + 4 < 2 ^ 32) : (addr + 4).toNat = addr.toNat + 4 := by
  rw [BitVec.toNat_add]
  exact Nat.mod_eq_of_lt h

/-- One round of the loop. -/
theorem loadLoop_round (mem : Nat → BitVec 8) (maxPhys : BitVec 64) (f : Nat) (addr : BitVec 32) (acc w : List (BitVec 8))
    (hw : w = [mem addr.toNat, mem (addr.toNat + 1), mem (addr.toNat + 2), mem (addr.toNat + 3)]) :
    loadLoop mem maxPhys (f + 1) addr acc =
      if 0 ∉ w ∧ (addr + 4).toNat < maxPhys.toNat then loadLoop mem maxPhys f (addr + 4) (acc ++ w)
      else some (acc ++ w) := by
  have hb := loadWord_bytes mem addr.toNat
  rw [← hw] at hb
  have hz := wordHasZero_iff (loadWord mem addr.toNat)
  rw [hb] at hz
  unfold loadLoop
  dsimp only
  rw [chars_eq, hb]
  have : ((!wordHasZero (loadWord mem addr.toNat) && decide ((addr + 4).toNat < maxPhys.toNat)) = true) ↔
      0 ∉ w ∧ (addr + 4).toNat < maxPhys.toNat := by
    rw [Bool.and_eq_true, decide_eq_true_eq, Bool.not_eq_true', ← Bool.not_eq_true, hz]
  by_cases hc : 0 ∉ w ∧ (addr + 4).toNat < maxPhys.toNat
  · rw [if_pos hc, if_pos (this.2 hc)]
    cases f <;> rfl
  · rw [if_neg hc, if_neg (fun h => hc (this.1 h))]

theorem loadLoop_text (mem : Nat → BitVec 8) (maxPhys : BitVec 64) : ∀ (f : Nat) (addr : BitVec 32)
    (acc s : List (BitVec 8)), TextAt mem addr.toNat s → s.length / 4 < f → addr.toNat + s.length < 2 ^ 32 →
    (s.length < 4 ∨ addr.toNat + 4 * (s.length / 4) < maxPhys.toNat) →
    ∃ t, loadLoop mem maxPhys f addr acc = some (acc ++ (s ++ 0 :: t)) := by
  intro f
  induction f with
  | zero => intro addr acc s _ h; omega
  | succ f ih =>
    intro addr acc s h hf hw hm
    rw [loadLoop_round mem maxPhys f addr acc _ rfl]
    by_cases hl : s.length < 4
    · obtain ⟨t, ht⟩ := short_word h hl
      refine ⟨t, ?_⟩
      rw [ht, if_neg]
      rintro ⟨h1, -⟩
      exact h1 (by simp)
    · obtain ⟨t, ht, h', hz⟩ := long_word h (by omega)
      have hlen : s.length = t.length + 4 := by
        have := congrArg List.length ht
        simp only [List.length_append, List.length_cons, List.length_nil] at this
        omega
      have hn := addr_next addr (by omega)
      rw [if_pos ⟨hz, by rw [hn]; omega⟩]
      obtain ⟨t', e⟩ := ih (addr + 4) (acc ++ _) t (by rw [hn]; exact h') (by omega) (by omega)
        (by rw [hn]; omega)
      refine ⟨t', ?_⟩
      rw [e]
      conv => rhs; rw [ht]
      simp only [List.append_assoc]

theorem loadLoop_cut (mem : Nat → BitVec 8) (maxPhys : BitVec 64) : ∀ (f : Nat) (addr : BitVec 32)
    (acc s : List (BitVec 8)), TextAt mem addr.toNat s → s.length / 4 < f → addr.toNat + s.length < 2 ^ 32 →
    4 ≤ s.length → maxPhys.toNat ≤ addr.toNat + 4 * (s.length / 4) → 0 ∉ acc →
    ∃ t, loadLoop mem maxPhys f addr acc = some t ∧ 0 ∉ t := by
  intro f
  induction f with
  | zero => intro addr acc s _ h; omega
  | succ f ih =>
    intro addr acc s h hf hw hl hm ha
    rw [loadLoop_round mem maxPhys f addr acc _ rfl]
    obtain ⟨t, ht, h', hz⟩ := long_word h hl
    have hlen : s.length = t.length + 4 := by
      have := congrArg List.length ht
      simp only [List.length_append, List.length_cons, List.length_nil] at this
      omega
    have hn := addr_next addr (by omega)
    have hacc : ∀ w : List (BitVec 8), 0 ∉ w → 0 ∉ acc ++ w := by
      intro w hw hx
      rcases List.mem_append.1 hx with hx | hx
      · exact ha hx
      · exact hw hx
    by_cases hc : (addr + 4).toNat < maxPhys.toNat
    · rw [if_pos ⟨hz, hc⟩]
      rw [hn] at hc
      exact ih (addr + 4) _ t (by rw [hn]; exact h') (by omega) (by omega) (by omega) (by omega) (hacc _ hz)
    · rw [if_neg (fun hx => hc hx.2)]
      exact ⟨_, rfl, hacc _ hz⟩

end Verif.Proofs.Log
