import Verif.Model.Shell
import Verif.Spec.Shell
import Verif.Proofs.RegNames

/-!
# The commands of the shell: proofs
-/

namespace Verif.Proofs.Shell
open Verif Verif.Model.RegNames Verif.Model.Shell Verif.Spec.Shell Verif.Proofs.RegNames

/-! ### The patterns -/

theorem isBlank_eq (c : Char) : isBlank c = blank c := by
  unfold isBlank blank
  simp only [List.contains_cons, List.contains_nil, Bool.or_false, Bool.or_assoc]

theorem isBlank_fun : isBlank = blank := funext isBlank_eq

theorem after_some : ∀ (p t r : List Char), after p t = some r ↔ t = p ++ r
  | [], t, r => by simp [after]
  | a :: p, [], r => by simp [after]
  | a :: p, b :: t, r => by
    unfold after
    by_cases e : a = b
    · subst e; simp [after_some p t r]
    · rw [if_neg e]
      simp only [reduceCtorEq, List.cons_append, List.cons.injEq, false_iff, not_and]
      intro h; exact absurd h.symm e

theorem dropBlank (a t : List Char) (h : a.all blank = true) : (a ++ t).dropWhile blank = t.dropWhile blank := by
  induction a with
  | nil => rfl
  | cons x a ih =>
    simp only [List.all_cons, Bool.and_eq_true] at h
    rw [List.cons_append, List.dropWhile_cons, if_pos h.1, ih h.2]

theorem takeBlank_all (t : List Char) : (t.takeWhile blank).all blank = true := by
  induction t with
  | nil => rfl
  | cons x t ih =>
    rw [List.takeWhile_cons]
    split
    · simp_all
    · rfl

theorem isInfo_iff (x : Char) (w input : List Char) (hx : blank x = false) : isInfo (x :: w) input = true ↔ Command (x :: w) input := by
  unfold isInfo Command
  rw [isBlank_fun]
  constructor
  · intro h
    split at h
    · rename_i c t e
      rw [Bool.and_eq_true] at h
      obtain ⟨h1, h2⟩ := h
      split at h2
      · rename_i r e2
        rw [after_some] at e e2
        refine ⟨input.takeWhile blank, c :: t.takeWhile blank, r, ?_, takeBlank_all _, ?_, by simp, h2⟩
        · have a1 : input = input.takeWhile blank ++ input.dropWhile blank := List.takeWhile_append_dropWhile.symm
          have a2 : t = t.takeWhile blank ++ t.dropWhile blank := List.takeWhile_append_dropWhile.symm
          rw [e2] at a2
          refine a1.trans ?_
          rw [e]
          refine (congrArg (fun z => input.takeWhile blank ++ (x :: w ++ c :: z)) a2).trans ?_
          simp [List.append_assoc]
        · simp [h1, takeBlank_all]
      · cases h2
    · cases h
  · rintro ⟨a, b, c, rfl, ha, hb, hne, hc⟩
    have e1 : after (x :: w) ((a ++ (x :: w) ++ b ++ "info".toList ++ c).dropWhile blank) = some (b ++ "info".toList ++ c) := by
      rw [after_some]
      have : a ++ (x :: w) ++ b ++ "info".toList ++ c = a ++ (x :: (w ++ b ++ "info".toList ++ c)) := by simp [List.append_assoc]
      rw [this, dropBlank _ _ ha, List.dropWhile_cons, if_neg (by simp [hx])]
      simp [List.append_assoc]
    rw [e1]
    cases b with
    | nil => exact absurd rfl hne
    | cons y b =>
      simp only [List.all_cons, Bool.and_eq_true] at hb
      have e2 : after "info".toList ((b ++ "info".toList ++ c).dropWhile blank) = some c := by
        rw [after_some, List.append_assoc, dropBlank _ _ hb.2]
        rfl
      simp only [List.cons_append, e2, hb.1, hc, Bool.and_self]

/-! ### Digits -/

theorem digitChar_eq : ∀ d < 16, Nat.digitChar d = hexDigit d := by decide

theorem hexDigit_inj : ∀ d < 16, ∀ e < 16, hexDigit d = hexDigit e → d = e := by decide +kernel

/-- The last `k` digits of a number. -/
def fixed : Nat → Nat → List Char
  | 0, _ => []
  | k + 1, n => fixed k (n / 16) ++ [hexDigit (n % 16)]

theorem fixed_zero : ∀ k, fixed k 0 = List.replicate k '0'
  | 0 => rfl
  | k + 1 => by
    show fixed k 0 ++ ['0'] = _
    rw [fixed_zero k, List.replicate_succ']

theorem hexDigits_pad : ∀ (k n : Nat), n < 16 ^ (k + 1) → (hexDigits n).length ≤ k + 1 ∧
    List.replicate (k + 1 - (hexDigits n).length) '0' ++ hexDigits n = fixed (k + 1) n := by
  intro k
  induction k with
  | zero =>
    intro n hn
    have h : n < 16 := by simpa using hn
    rw [hexDigits, dif_pos h]
    refine ⟨by simp, ?_⟩
    simp [fixed, Nat.mod_eq_of_lt h, digitChar_eq n h]
  | succ k ih =>
    intro n hn
    by_cases h : n < 16
    · rw [hexDigits, dif_pos h]
      refine ⟨by simp, ?_⟩
      show List.replicate (k + 2 - 1) '0' ++ _ = fixed (k + 1) (n / 16) ++ [hexDigit (n % 16)]
      rw [Nat.div_eq_of_lt h, Nat.mod_eq_of_lt h, fixed_zero, digitChar_eq n h]
      rfl
    · rw [hexDigits, dif_neg h]
      obtain ⟨h1, h2⟩ := ih (n / 16) (by rw [Nat.pow_succ] at hn; omega)
      refine ⟨by simp; omega, ?_⟩
      show _ = fixed (k + 1) (n / 16) ++ [hexDigit (n % 16)]
      rw [← h2, digitChar_eq _ (Nat.mod_lt _ (by decide)), ← List.append_assoc]
      simp

theorem hex8_word (v : BitVec 32) : hex8 v.toNat = word v := by
  unfold hex8 word
  rw [(hexDigits_pad 7 v.toNat v.isLt).2]
  simp [fixed, List.range_succ, Nat.div_div_eq_div_mul]

theorem word_length (v : BitVec 32) : (word v).length = 8 := by simp [word]

theorem word_inj {v w : BitVec 32} (h : word v = word w) : v = w := by
  have key : ∀ i < 8, v.toNat / 16 ^ (7 - i) % 16 = w.toNat / 16 ^ (7 - i) % 16 := fun i hi =>
    hexDigit_inj _ (Nat.mod_lt _ (by decide)) _ (Nat.mod_lt _ (by decide))
      ((List.map_inj_left.1 h) i (List.mem_range.2 hi))
  have h0 := key 0 (by decide); have h1 := key 1 (by decide); have h2 := key 2 (by decide); have h3 := key 3 (by decide)
  have h4 := key 4 (by decide); have h5 := key 5 (by decide); have h6 := key 6 (by decide); have h7 := key 7 (by decide)
  have hv := v.isLt; have hw := w.isLt
  apply BitVec.eq_of_toNat_eq
  simp only [Nat.reduceSub, Nat.reducePow] at h0 h1 h2 h3 h4 h5 h6 h7
  omega

/-! ### Texts determine what they show -/

theorem flatMap_inj {α : Type} (f g : α → List Char) : ∀ l : List α, (∀ i ∈ l, (f i).length = (g i).length) →
    l.flatMap f = l.flatMap g → ∀ i ∈ l, f i = g i
  | [], _, _ => by simp
  | a :: l, hl, h => by
    rw [List.flatMap_cons, List.flatMap_cons] at h
    obtain ⟨h1, h2⟩ := List.append_inj h (hl a (by simp))
    intro i hi
    rcases List.mem_cons.1 hi with rfl | hi
    · exact h1
    · exact flatMap_inj f g l (fun j hj => hl j (by simp [hj])) h2 i hi

theorem scalars_inj {alias : Nat → String} {x y : Nat → BitVec 32} (h : scalars alias x = scalars alias y) :
    ∀ i < 32, x i = y i := by
  intro i hi
  have h1 := flatMap_inj _ _ _ (fun j _ => by simp [word_length]) h i (List.mem_range.2 hi)
  exact word_inj (List.append_cancel_left (List.append_cancel_right h1))

theorem lanes_inj {v w : BitVec 256} (h : lanes v = lanes w) : v = w := by
  have h1 : ∀ j < 8, v.extractLsb' (32 * j) 32 = w.extractLsb' (32 * j) 32 := fun j hj =>
    word_inj (List.append_cancel_left (flatMap_inj _ _ _ (fun j _ => by simp [word_length]) h j (List.mem_range.2 hj)))
  apply BitVec.eq_of_getLsbD_eq
  intro i hi
  have h2 := congrArg (fun x => x.getLsbD (i % 32)) (h1 (i / 32) (by omega))
  simpa [BitVec.getLsbD_extractLsb', Nat.mod_lt, Nat.div_add_mod] using h2

theorem lanes_length (v : BitVec 256) : (lanes v).length = 71 := by
  simp [lanes, List.range_succ, word_length]

/-- The line of a vector register. -/
def vline (i : Nat) (v : BitVec 256) : List Char := 'v' :: (toString i).toList ++ "\t = [".toList ++ lanes v ++ "]\n".toList

theorem noTab : ∀ i < 64, (toString i).toList.all (· ≠ '\t') = true := by decide +kernel

theorem str_inj : ∀ i < 64, ∀ j < 64, (toString i).toList = (toString j).toList → i = j := by decide +kernel

theorem cut : ∀ (a b r t : List Char), a.all (· ≠ '\t') = true → b.all (· ≠ '\t') = true → a ++ '\t' :: r = b ++ '\t' :: t → a = b
  | [], [], _, _, _, _, _ => rfl
  | [], y :: b, r, t, _, hb, h => by
    simp only [List.nil_append, List.cons_append, List.cons.injEq] at h
    simp [← h.1] at hb
  | x :: a, [], r, t, ha, _, h => by
    simp only [List.nil_append, List.cons_append, List.cons.injEq] at h
    simp [h.1] at ha
  | x :: a, y :: b, r, t, ha, hb, h => by
    simp only [List.cons_append, List.cons.injEq] at h
    simp only [List.all_cons, Bool.and_eq_true] at ha hb
    rw [h.1, cut a b r t ha.2 hb.2 h.2]

theorem vline_head {i j : Nat} (hi : i < 64) (hj : j < 64) {v w : BitVec 256} {r t : List Char}
    (h : vline i v ++ r = vline j w ++ t) : i = j := by
  apply str_inj i hi j hj
  refine cut _ _ (" = [".toList ++ lanes v ++ "]\n".toList ++ r) (" = [".toList ++ lanes w ++ "]\n".toList ++ t) (noTab i hi)
    (noTab j hj) ?_
  have := (List.cons.inj h).2
  simpa [List.append_assoc] using this

/-- The lines of a list of registers. -/
def vtext (f : Nat → Option (BitVec 256)) (l : List Nat) : List Char :=
  l.flatMap fun i => match f i with
    | none => []
    | some v => vline i v

theorem vtext_cons (f : Nat → Option (BitVec 256)) (i : Nat) (l : List Nat) :
    vtext f (i :: l) = (match f i with | none => [] | some v => vline i v) ++ vtext f l := List.flatMap_cons

theorem vtext_head (f : Nat → Option (BitVec 256)) : ∀ l, vtext f l = [] ∨ ∃ j ∈ l, ∃ v r, vtext f l = vline j v ++ r
  | [] => .inl rfl
  | i :: l => by
    rw [vtext_cons]
    cases e : f i with
    | none =>
      rcases vtext_head f l with h | ⟨j, hj, v, r, h⟩
      · exact .inl (by simpa using h)
      · exact .inr ⟨j, by simp [hj], v, r, by simpa using h⟩
    | some v => exact .inr ⟨i, by simp, v, _, rfl⟩

theorem vtext_inj (f g : Nat → Option (BitVec 256)) : ∀ l : List Nat, l.Nodup → (∀ i ∈ l, i < 64) → vtext f l = vtext g l →
    ∀ i ∈ l, f i = g i
  | [], _, _, _ => by simp
  | i :: l, hn, hl, h => by
    have ih := vtext_inj f g l (List.nodup_cons.1 hn).2 (fun j hj => hl j (by simp [hj]))
    have hi := (List.nodup_cons.1 hn).1
    have clash : ∀ (f' : Nat → Option (BitVec 256)) v r, vtext f' l = vline i v ++ r → False := by
      intro f' v r e
      rcases vtext_head f' l with h0 | ⟨j, hj, w, t, h0⟩
      · rw [h0] at e; simp [vline] at e
      · rw [h0] at e
        have := vline_head (hl j (by simp [hj])) (hl i (by simp)) e
        exact hi (this ▸ hj)
    rw [vtext_cons, vtext_cons] at h
    cases ef : f i with
    | none =>
      cases eg : g i with
      | none =>
        rw [ef, eg] at h
        intro j hj
        rcases List.mem_cons.1 hj with rfl | hj
        · rw [ef, eg]
        · exact ih h j hj
      | some w => rw [ef, eg] at h; exact (clash f w _ h).elim
    | some v =>
      cases eg : g i with
      | none => rw [ef, eg] at h; exact (clash g v _ h.symm).elim
      | some w =>
        rw [ef, eg] at h
        obtain ⟨h1, h2⟩ := List.append_inj h (by simp [vline, lanes_length])
        intro j hj
        rcases List.mem_cons.1 hj with rfl | hj
        · rw [ef, eg, lanes_inj (List.append_cancel_left (List.append_cancel_right h1))]
        · exact ih h2 j hj

theorem vectors_vtext (f : Nat → Option (BitVec 256)) : vectors f = vtext f (List.range 64) := rfl

theorem vectors_inj {f g : Nat → Option (BitVec 256)} (h : vectors f = vectors g) : ∀ i < 64, f i = g i := fun i hi =>
  vtext_inj f g (List.range 64) List.nodup_range (fun _ hj => List.mem_range.1 hj) h i (List.mem_range.2 hi)

/-! ### Buffers -/

theorem leNum_drop : ∀ (d : List (BitVec 8)) (n : Nat), leNum (d.drop n) = leNum d / 256 ^ n
  | d, 0 => by simp
  | [], n + 1 => by simp [leNum]
  | b :: d, n + 1 => by
    rw [List.drop_succ_cons, leNum_drop d n, leNum, Nat.pow_succ, Nat.mul_comm (256 ^ n), ← Nat.div_div_eq_div_mul]
    have := b.isLt
    congr 1
    omega

theorem leNum_take : ∀ (d : List (BitVec 8)) (n : Nat), leNum (d.take n) = leNum d % 256 ^ n
  | d, 0 => by simp [leNum, Nat.mod_one]
  | [], n + 1 => by simp [leNum]
  | b :: d, n + 1 => by
    rw [List.take_succ_cons, leNum, leNum_take d n, leNum, Nat.pow_succ, Nat.mul_comm (256 ^ n), Nat.mod_mul]
    have := b.isLt
    have h1 : (b.toNat + 256 * leNum d) % 256 = b.toNat := by omega
    have h2 : (b.toNat + 256 * leNum d) / 256 = leNum d := by omega
    rw [h1, h2]

/-- The contents of a buffer of 32 bytes. -/
def vec (d : List (BitVec 8)) : BitVec 256 := BitVec.ofNat 256 (leNum d)

theorem vec_inj {d e : List (BitVec 8)} (hd : d.length = 32) (he : e.length = 32) (h : vec d = vec e) : d = e := by
  have h1 := congrArg BitVec.toNat h
  simp only [vec, BitVec.toNat_ofNat] at h1
  have a := leNum_lt d; have b := leNum_lt e
  rw [hd] at a; rw [he] at b
  have p : (256 : Nat) ^ 32 = 2 ^ 256 := by decide
  rw [p] at a b
  rw [Nat.mod_eq_of_lt a, Nat.mod_eq_of_lt b] at h1
  clear h a b p
  rw [← he] at hd
  clear he
  induction d generalizing e with
  | nil => cases e with
    | nil => rfl
    | cons _ _ => cases hd
  | cons x d ih => cases e with
    | nil => cases hd
    | cons y e =>
      simp only [leNum] at h1
      have hx := x.isLt; have hy := y.isLt
      have e1 : x = y := BitVec.eq_of_toNat_eq (by omega)
      subst e1
      rw [ih (e := e) (by simpa using hd) (by omega)]

theorem getWord_eq {d : List (BitVec 8)} (h : d.length = 32) {j : Nat} (hj : j < 8) :
    getWord d j = .ok ((vec d).extractLsb' (32 * j) 32).toNat := by
  unfold getWord
  rw [if_pos (by omega), leNum_take, leNum_drop]
  congr 1
  have a := leNum_lt d
  rw [h] at a
  have p : (256 : Nat) ^ 32 = 2 ^ 256 := by decide
  rw [p] at a
  rw [BitVec.extractLsb'_toNat, vec, BitVec.toNat_ofNat, Nat.mod_eq_of_lt a, Nat.shiftRight_eq_div_pow]
  have q : (256 : Nat) ^ (4 * j) = 2 ^ (32 * j) := by
    rw [show (256 : Nat) = 2 ^ 8 from rfl, ← Nat.pow_mul]; congr 1; omega
  rw [q]

theorem dataText_eq {d : List (BitVec 8)} (h : d.length = 32) : dataText d = .ok (lanes (vec d)) := by
  have w : ∀ j < 8, getWord d j = .ok ((vec d).extractLsb' (32 * j) 32).toNat := fun j hj => getWord_eq h hj
  unfold dataText lanes
  simp only [show List.range 8 = [0, 1, 2, 3, 4, 5, 6, 7] from rfl, List.foldlM_cons, List.foldlM_nil, w 0 (by decide), w 1 (by decide),
    w 2 (by decide), w 3 (by decide), w 4 (by decide), w 5 (by decide), w 6 (by decide), w 7 (by decide), hex8_word,
    Outcome.ok_bind, Outcome.pure_def, List.flatMap_cons, List.flatMap_nil]
  simp [List.append_assoc]

theorem foldl_append_flatMap {α β : Type} (f : α → List β) : ∀ (l : List α) (out : List β),
    l.foldl (fun out i => out ++ f i) out = out ++ l.flatMap f
  | [], out => by simp
  | a :: l, out => by rw [List.foldl_cons, foldl_append_flatMap f l, List.flatMap_cons, List.append_assoc]

theorem foldl_congr_mem {α β : Type} (f g : β → α → β) : ∀ (l : List α), (∀ o, ∀ i ∈ l, f o i = g o i) → ∀ o, l.foldl f o = l.foldl g o
  | [], _, _ => rfl
  | a :: l, h, o => by
    rw [List.foldl_cons, List.foldl_cons, h o a (by simp)]
    exact foldl_congr_mem f g l (fun o i hi => h o i (by simp [hi])) _

theorem flatMap_congr_mem {α β : Type} (f g : α → List β) : ∀ (l : List α), (∀ i ∈ l, f i = g i) → l.flatMap f = l.flatMap g
  | [], _ => rfl
  | a :: l, h => by
    rw [List.flatMap_cons, List.flatMap_cons, h a (by simp), flatMap_congr_mem f g l fun i hi => h i (by simp [hi])]

theorem standard_x {alias : Nat → String} (hd : Spec.RegNames.Distinct alias) (i : Nat) (hi : i < 32) :
    Spec.RegNames.standard alias ("x" ++ toString i) = some (i + 1) := by
  unfold Spec.RegNames.standard
  rw [if_neg (show ("x" ++ toString i : String) ≠ "pc" from xName_pc i hi)]
  have : (List.range 32).find? (fun j => "x" ++ toString i == "x" ++ toString j || "x" ++ toString i == alias j) = some i := by
    rw [List.find?_eq_some_iff_getElem]
    refine ⟨by simp, i, by simpa using hi, by simp, fun j hj => ?_⟩
    have h1 : "x" ++ toString i ≠ "x" ++ toString j := fun h => by have := xName_inj i hi j (by omega) h; omega
    have h2 : "x" ++ toString i ≠ alias j := fun h => (hd.1 j (by omega)).2 i hi h.symm
    simp only [List.getElem_range, Bool.not_eq_true', Bool.or_eq_false_iff, beq_eq_false_iff_ne]
    exact ⟨h1, h2⟩
  rw [this]
  rfl

end Verif.Proofs.Shell
