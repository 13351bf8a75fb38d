import Verif.Proofs.Log

/-!
# C107: exactly what the log instructions do

C56 and C57 say what is printed for well-formed formats and strings; here is what happens for all others. `source`, `Output`,
`directives` and `TextAt` are from `Verif.Spec.Log`.
-/

namespace Verif.Props

open Verif Verif.Model.Log Verif.Spec.Log Verif.Proofs.Log

/-- What a directive writes is determined. -/
theorem writes_unique {d : BitVec 8} {a : Arg} {s : List (BitVec 8)} (h1 : Suits d a → Shows d a s) (h2 : ¬ Suits d a → s = []) :
    s = formatArg a d := by
  by_cases h : Suits d a
  · exact shows_unique d a s (h1 h)
  · rw [h2 h]
    cases a with
    | text t => exact (if_neg h).symm
    | word v =>
      simp only [Suits, not_or] at h
      simp only [formatArg, if_neg h.1, if_neg h.2.1, if_neg h.2.2]

theorem writes_format (d : BitVec 8) (a : Arg) : (Suits d a → Shows d a (formatArg a d)) ∧ (¬ Suits d a → formatArg a d = []) := by
  refine ⟨shows_format d a, fun h => ?_⟩
  cases a with
  | text t => exact if_neg h
  | word v =>
    simp only [Suits, not_or] at h
    simp only [formatArg, if_neg h.1, if_neg h.2.1, if_neg h.2.2]

theorem printLoop_output {ps : List Piece} {args : List Arg} {out : List (BitVec 8)} (h : Output ps args out) :
    (∀ p ∈ ps, p.Plain) → ∀ (rest log : List (BitVec 8)), rest ≠ [] →
      printLoop (source ps ++ rest) args log = printLoop rest (args.drop (directives ps)) (log ++ out) := by
  induction h with
  | nil args => intro _ rest log _; simp [source, directives]
  | text s ps args out _ ih =>
    intro hp rest log hr
    have : source (.text s :: ps) = s ++ source ps := by simp [source, Piece.source]
    rw [this, List.append_assoc, printLoop_text s _ args log (by simp [hr]) (hp (.text s) (by simp)),
      ih (fun p hx => hp p (List.mem_cons_of_mem _ hx)) rest _ hr, List.append_assoc]
    rfl
  | dir d a s ps args out h1 h2 _ ih =>
    intro hp rest log hr
    have : source (.dir d :: ps) = 0x25 :: d :: source ps := by simp [source, Piece.source]
    rw [this, List.cons_append, List.cons_append]
    conv => lhs; unfold printLoop
    rw [if_neg (by decide), if_pos rfl]
    dsimp only
    rw [ih (fun p hx => hp p (List.mem_cons_of_mem _ hx)) rest _ hr, ← writes_unique h1 h2, List.append_assoc]
    rfl

/-- Every format is read in one of three ways. -/
theorem read_format : ∀ (n : Nat) (fmt : List (BitVec 8)) (args : List Arg), fmt.length ≤ n → 0 ∉ fmt →
    ∃ ps out, (∀ p ∈ ps, Piece.Plain p) ∧ Output ps args out ∧ (fmt = source ps ∨
      (directives ps = args.length ∧ ∃ rest, fmt = source ps ++ 0x25 :: rest) ∨
      (directives ps < args.length ∧ fmt = source ps ++ [0x25])) := by
  intro n
  induction n with
  | zero =>
    intro fmt args hn _
    have : fmt = [] := List.length_eq_zero_iff.1 (by omega)
    exact ⟨[], [], by simp, .nil _, .inl (by rw [this]; rfl)⟩
  | succ n ih =>
    intro fmt args hn h0
    cases fmt with
    | nil => exact ⟨[], [], by simp, .nil _, .inl rfl⟩
    | cons c fmt =>
      simp only [List.mem_cons, not_or] at h0
      by_cases hc : c = 0x25
      · subst hc
        cases args with
        | nil => exact ⟨[], [], by simp, .nil _, .inr (.inl ⟨rfl, fmt, rfl⟩)⟩
        | cons a args =>
          cases fmt with
          | nil => exact ⟨[], [], by simp, .nil _, .inr (.inr ⟨by simp [directives], rfl⟩)⟩
          | cons d fmt =>
            simp only [List.mem_cons, not_or] at h0
            obtain ⟨ps, out, hp, ho, h⟩ := ih fmt args (by simp only [List.length_cons] at hn; omega) h0.2.2
            refine ⟨.dir d :: ps, _, ?_, .dir d a _ ps args out (writes_format d a).1 (writes_format d a).2 ho, ?_⟩
            · intro p hx
              rcases List.mem_cons.1 hx with rfl | hx
              · exact fun e => h0.2.1 e.symm
              · exact hp p hx
            · have e : source (.dir d :: ps) = 0x25 :: d :: source ps := by simp [source, Piece.source]
              rw [e]
              rcases h with h | ⟨h, r, hr⟩ | ⟨h, hr⟩
              · exact .inl (by rw [h])
              · exact .inr (.inl ⟨by simp [directives, h], r, by rw [hr]; rfl⟩)
              · exact .inr (.inr ⟨by simp [directives, h], by rw [hr]; rfl⟩)
      · obtain ⟨ps, out, hp, ho, h⟩ := ih fmt args (by simp only [List.length_cons] at hn; omega) h0.2
        refine ⟨.text [c] :: ps, _, ?_, .text [c] ps args out ho, ?_⟩
        · intro p hx
          rcases List.mem_cons.1 hx with rfl | hx
          · intro b hb
            rw [List.mem_singleton.1 hb]
            exact ⟨fun e => h0.1 e.symm, hc⟩
          · exact hp p hx
        · have e : source (.text [c] :: ps) = c :: source ps := by simp [source, Piece.source]
          rw [e]
          rcases h with h | ⟨h, r, hr⟩ | ⟨h, hr⟩
          · exact .inl (by rw [h])
          · exact .inr (.inl ⟨h, r, by rw [hr]; rfl⟩)
          · exact .inr (.inr ⟨h, by rw [hr]; rfl⟩)

/-- There is an output whenever there are enough arguments. -/
theorem output_of_enough : ∀ (ps : List Piece) (args : List Arg), directives ps ≤ args.length → ∃ out, Output ps args out := by
  intro ps
  induction ps with
  | nil => exact fun args _ => ⟨[], .nil _⟩
  | cons p ps ih =>
    intro args h
    cases p with
    | text s => obtain ⟨out, ho⟩ := ih args h; exact ⟨_, .text s ps args out ho⟩
    | dir d =>
      cases args with
      | nil => simp [directives] at h
      | cons a args =>
        obtain ⟨out, ho⟩ := ih args (by simpa [directives] using h)
        exact ⟨_, .dir d a _ ps args out (writes_format d a).1 (writes_format d a).2 ho⟩

theorem print_ok {ps : List Piece} (hp : ∀ p ∈ ps, p.Plain) {s : St} {out : List (BitVec 8)} (h : Output ps s.args out) :
    printLog (source ps) s = .ok { s with args := [], out := s.out ++ out } := by
  unfold printLog
  rw [printLoop_output h hp [0] [] (by simp)]
  rfl

theorem print_abort {ps : List Piece} (hp : ∀ p ∈ ps, p.Plain) {s : St} (h : directives ps = s.args.length) (rest : List (BitVec 8)) :
    printLog (source ps ++ 0x25 :: rest) s = .abort := by
  obtain ⟨out, ho⟩ := output_of_enough ps s.args (by omega)
  unfold printLog
  rw [List.append_assoc, printLoop_output ho hp _ [] (by simp), List.drop_of_length_le (by omega)]
  cases rest with
  | nil => rfl
  | cons d rest => rfl

theorem print_ub {ps : List Piece} (hp : ∀ p ∈ ps, p.Plain) {s : St} (h : directives ps < s.args.length) :
    printLog (source ps ++ [0x25]) s = .ub := by
  obtain ⟨out, ho⟩ := output_of_enough ps s.args (by omega)
  unfold printLog
  rw [List.append_assoc, printLoop_output ho hp _ [] (by simp)]
  cases hd : s.args.drop (directives ps) with
  | nil =>
    have := congrArg List.length hd
    simp at this
    omega
  | cons a as => rfl

/-- C107, printing: for every format and all pending arguments, `PrintLog` returns exactly if the format consists of texts and of
directives, a percent sign with any character after it, of which there are at most as many as arguments. Then it adds the
texts and the written arguments to the output and leaves no argument; a directive that does not suit its argument uses it up. It ends
the simulation exactly if some percent sign finds no argument left, and reads past the string exactly if a last percent sign does. -/
theorem C107_print (fmt : List (BitVec 8)) (h0 : 0 ∉ fmt) (s : St) :
    (∀ s', printLog fmt s = .ok s' ↔ ∃ ps out, (∀ p ∈ ps, Piece.Plain p) ∧ fmt = source ps ∧ Output ps s.args out ∧
      s' = { s with args := [], out := s.out ++ out }) ∧
    (printLog fmt s = .abort ↔ ∃ ps rest, (∀ p ∈ ps, Piece.Plain p) ∧ fmt = source ps ++ 0x25 :: rest ∧
      directives ps = s.args.length) ∧
    (printLog fmt s = .ub ↔ ∃ ps, (∀ p ∈ ps, Piece.Plain p) ∧ fmt = source ps ++ [0x25] ∧ directives ps < s.args.length) := by
  obtain ⟨ps, out, hp, ho, h⟩ := read_format _ fmt s.args (Nat.le_refl _) h0
  refine ⟨fun s' => ⟨fun e => ?_, ?_⟩, ⟨fun e => ?_, ?_⟩, ⟨fun e => ?_, ?_⟩⟩
  · rcases h with h | ⟨h, r, hr⟩ | ⟨h, hr⟩
    · refine ⟨ps, out, hp, h, ho, ?_⟩
      rw [h, print_ok hp ho] at e
      injection e with e
      exact e.symm
    · rw [hr, print_abort hp h] at e; cases e
    · rw [hr, print_ub hp h] at e; cases e
  · rintro ⟨ps', out', hp', rfl, ho', rfl⟩
    exact print_ok hp' ho'
  · rcases h with h | ⟨h, r, hr⟩ | ⟨h, hr⟩
    · rw [h, print_ok hp ho] at e; cases e
    · exact ⟨ps, r, hp, hr, h⟩
    · rw [hr, print_ub hp h] at e; cases e
  · rintro ⟨ps', r', hp', rfl, h'⟩
    exact print_abort hp' h' r'
  · rcases h with h | ⟨h, r, hr⟩ | ⟨h, hr⟩
    · rw [h, print_ok hp ho] at e; cases e
    · rw [hr, print_abort hp h] at e; cases e
    · exact ⟨ps, hp, hr, h⟩
  · rintro ⟨ps', hp', rfl, h'⟩
    exact print_ub hp' h'

/-- C107: a format and its arguments have at most one output, however it is cut into pieces. -/
theorem C107_one_output (ps ps' : List Piece) (hp : ∀ p ∈ ps, p.Plain) (hp' : ∀ p ∈ ps', p.Plain) (hs : source ps = source ps')
    (args : List Arg) (out out' : List (BitVec 8)) (h : Output ps args out) (h' : Output ps' args out') : out = out' := by
  have e1 := printLoop_output h hp [0] [] (by simp)
  have e2 := printLoop_output h' hp' [0] [] (by simp)
  rw [hs, e2] at e1
  injection e1 with e1
  simpa using e1.symm

/-- `"50%% of %d%"`: the first percent sign takes the only argument, the next one ends the simulation; with two more arguments the
last percent sign reads past the string. -/
example : printLog [0x35, 0x25, 0x25, 0x20, 0x25, 0x64] ⟨[.word 7, .word 8], [], []⟩ = .ok ⟨[], [], [0x35, 0x20, 0x38]⟩ ∧
    printLog [0x35, 0x25, 0x25, 0x20, 0x25, 0x64] ⟨[.word 7], [], []⟩ = .abort ∧
    printLog [0x35, 0x25, 0x25, 0x25] ⟨[.word 7, .word 8], [], []⟩ = .ub := by
  refine ⟨?_, ?_, ?_⟩
  · refine ((C107_print _ (by decide) _).1 _).2
      ⟨[.text [0x35], .dir 0x25, .text [0x20], .dir 0x64], [0x35, 0x20, 0x38], ?_, rfl, ?_, rfl⟩
    · intro p hp
      simp only [List.mem_cons, List.not_mem_nil, or_false] at hp
      rcases hp with rfl | rfl | rfl | rfl <;> simp [Piece.Plain]
    · refine .text [0x35] _ _ _ (.dir 0x25 _ [] _ _ _ (fun h => ?_) (fun _ => rfl) (.text [0x20] _ _ _ (.dir 0x64 _ [0x38] _ _ []
        (fun _ => ?_) (fun h => absurd (Or.inr (Or.inl rfl)) h) (.nil []))))
      · simp [Suits] at h
      · refine Or.inr (Or.inr (Or.inl ⟨rfl, by decide, by decide, fun b hb => ⟨8, ?_, by decide⟩, rfl, by decide⟩))
        rw [List.mem_singleton.1 hb]; rfl
  · refine (C107_print _ (by decide) _).2.1.2 ⟨[.text [0x35], .dir 0x25, .text [0x20]], [0x64], ?_, rfl, rfl⟩
    intro p hp
    simp only [List.mem_cons, List.not_mem_nil, or_false] at hp
    rcases hp with rfl | rfl | rfl <;> simp [Piece.Plain]
  · refine (C107_print _ (by decide) _).2.2.2 ⟨[.text [0x35], .dir 0x25], ?_, rfl, by decide⟩
    intro p hp
    simp only [List.mem_cons, List.not_mem_nil, or_false] at hp
    rcases hp with rfl | rfl <;> simp [Piece.Plain]

/-! ## Strings in memory -/

/-- The text at `a` is found: it ends in the first group of four bytes, or in a group that starts below `top`. -/
def Found (mem : Nat → BitVec 8) (top a : Nat) (s : List (BitVec 8)) : Prop :=
  TextAt mem a s ∧ (s.length < 4 ∨ a + 4 * (s.length / 4) < top)

theorem text_short {mem : Nat → BitVec 8} {a : Nat} (h : 0 ∈ [mem a, mem (a + 1), mem (a + 2), mem (a + 3)]) :
    ∃ s, TextAt mem a s ∧ s.length < 4 := by
  by_cases h0 : mem a = 0
  · exact ⟨[], ⟨fun i hi => by simp at hi, h0, by simp⟩, by simp⟩
  by_cases h1 : mem (a + 1) = 0
  · refine ⟨[mem a], ⟨fun i hi => ?_, h1, by simpa using h0⟩, by simp⟩
    obtain rfl : i = 0 := by simpa using hi
    rfl
  by_cases h2 : mem (a + 2) = 0
  · refine ⟨[mem a, mem (a + 1)], ⟨fun i hi => ?_, h2, by simp; exact ⟨h0, h1⟩⟩, by simp⟩
    simp only [List.length_cons, List.length_nil] at hi
    obtain rfl | rfl : i = 0 ∨ i = 1 := by omega
    all_goals rfl
  · have h3 : mem (a + 3) = 0 := by
      simp only [List.mem_cons, List.not_mem_nil, or_false] at h
      rcases h with h | h | h | h
      · exact absurd h.symm h0
      · exact absurd h.symm h1
      · exact absurd h.symm h2
      · exact h.symm
    refine ⟨[mem a, mem (a + 1), mem (a + 2)], ⟨fun i hi => ?_, h3, by simp; exact ⟨h0, h1, h2⟩⟩, by simp⟩
    simp only [List.length_cons, List.length_nil] at hi
    obtain rfl | rfl | rfl : i = 0 ∨ i = 1 ∨ i = 2 := by omega
    all_goals rfl

theorem text_longer {mem : Nat → BitVec 8} {a : Nat} (h : 0 ∉ [mem a, mem (a + 1), mem (a + 2), mem (a + 3)]) {s : List (BitVec 8)}
    (hs : TextAt mem (a + 4) s) : TextAt mem a ([mem a, mem (a + 1), mem (a + 2), mem (a + 3)] ++ s) := by
  obtain ⟨h1, h2, h3⟩ := hs
  refine ⟨fun i hi => ?_, ?_, fun b hb => ?_⟩
  · match i, hi with
    | 0, _ => rfl
    | 1, _ => rfl
    | 2, _ => rfl
    | 3, _ => rfl
    | i + 4, hi =>
      have hi' : i < s.length := by simpa using hi
      have := h1 i hi'
      rw [show a + (i + 4) = a + 4 + i by omega, this]
      rfl
  · rw [← h2]
    congr 1
    simp only [List.length_append, List.length_cons, List.length_nil]
    omega
  · rcases List.mem_append.1 hb with hb | hb
    · exact fun e => h (e ▸ hb)
    · exact h3 b hb

theorem text_unique {mem : Nat → BitVec 8} {a : Nat} {s t : List (BitVec 8)} (hs : TextAt mem a s) (ht : TextAt mem a t) : s = t := by
  have key : ∀ {s t : List (BitVec 8)}, TextAt mem a s → TextAt mem a t → ¬ s.length < t.length := by
    intro s t hs ht h
    have h1 := ht.1 s.length h
    rw [hs.2.1] at h1
    exact ht.2.2 _ (List.getElem_mem h) h1.symm
  have hl : s.length = t.length := by
    have := key hs ht
    have := key ht hs
    omega
  apply List.ext_getElem hl
  intro i h1 h2
  rw [← hs.1 i h1, ← ht.1 i h2]

theorem loadLoop_none (mem : Nat → BitVec 8) (maxPhys : BitVec 64) (hm : maxPhys.toNat + 4 ≤ 2 ^ 32) : ∀ (f : Nat) (addr : BitVec 32)
    (acc : List (BitVec 8)), 0 ∉ acc → addr.toNat + 4 < 2 ^ 32 → 0 < f → maxPhys.toNat ≤ addr.toNat + 4 * f →
    (¬ ∃ s, Found mem maxPhys.toNat addr.toNat s) → ∃ t, loadLoop mem maxPhys f addr acc = some t ∧ 0 ∉ t := by
  intro f
  induction f with
  | zero => intro addr acc _ _ h; omega
  | succ f ih =>
    intro addr acc ha hw _ hf hn
    rw [loadLoop_round mem maxPhys f addr acc _ rfl]
    by_cases hz : 0 ∈ [mem addr.toNat, mem (addr.toNat + 1), mem (addr.toNat + 2), mem (addr.toNat + 3)]
    · obtain ⟨s, h1, h2⟩ := text_short hz
      exact absurd ⟨s, h1, .inl h2⟩ hn
    · have hacc : 0 ∉ acc ++ [mem addr.toNat, mem (addr.toNat + 1), mem (addr.toNat + 2), mem (addr.toNat + 3)] := by
        intro hx
        rcases List.mem_append.1 hx with hx | hx
        · exact ha hx
        · exact hz hx
      have hnx := addr_next addr hw
      by_cases hc : (addr + 4).toNat < maxPhys.toNat
      · rw [if_pos ⟨hz, hc⟩]
        rw [hnx] at hc
        refine ih (addr + 4) _ hacc (by omega) (by omega) (by omega) ?_
        rw [hnx]
        rintro ⟨s, h1, h2⟩
        refine hn ⟨_, text_longer hz h1, .inr ?_⟩
        simp only [List.length_append, List.length_cons, List.length_nil]
        omega
      · rw [if_neg (fun hx => hc hx.2)]
        exact ⟨_, rfl, hacc⟩

/-- C107, strings: at every address below the top of the address space the instruction either has the text there, in the
case that it ends in the first group or in a group that starts below `max_physical_address`, or ends the simulation. There is no other
outcome, and the search ends after a number of groups that depends on `max_physical_address` only. -/
theorem C107_load (mem : Nat → BitVec 8) (maxPhys : BitVec 64) (hm : maxPhys.toNat + 4 ≤ 2 ^ 32) (addr : BitVec 32)
    (hw : addr.toNat + 4 < 2 ^ 32) (fuel : Nat) (hf : maxPhys.toNat ≤ 4 * fuel) (hf0 : 0 < fuel) :
    (∀ s, loadString mem maxPhys fuel addr = some (.ok s) ↔ Found mem maxPhys.toNat addr.toNat s) ∧
    (loadString mem maxPhys fuel addr = some .abort ↔ ¬ ∃ s, Found mem maxPhys.toNat addr.toNat s) := by
  have ok : ∀ s, Found mem maxPhys.toNat addr.toNat s → loadString mem maxPhys fuel addr = some (.ok s) := by
    rintro s ⟨h1, h2⟩
    have h3 : s.length / 4 < fuel := by omega
    have h4 : addr.toNat + s.length < 2 ^ 32 := by omega
    obtain ⟨t, e⟩ := loadLoop_text mem maxPhys fuel addr [] s h1 h3 h4 h2
    unfold loadString
    rw [e, List.nil_append]
    show some (trim (s ++ 0 :: t)) = _
    rw [trim_append s _ h1.2.2 (by simp)]
    simp
  have no : (¬ ∃ s, Found mem maxPhys.toNat addr.toNat s) → loadString mem maxPhys fuel addr = some .abort := by
    intro h
    obtain ⟨t, e, hz⟩ := loadLoop_none mem maxPhys hm fuel addr [] (by simp) hw hf0 (by omega) h
    unfold loadString
    rw [e]
    show some (trim t) = _
    unfold trim
    rw [if_neg hz]
  by_cases h : ∃ s, Found mem maxPhys.toNat addr.toNat s
  · obtain ⟨t, ht⟩ := h
    refine ⟨fun s => ⟨fun e => ?_, ok s⟩, ⟨fun e => ?_, fun hn => absurd ⟨t, ht⟩ hn⟩⟩
    · rw [ok t ht] at e
      injection e with e; injection e with e
      subst e
      exact ht
    · rw [ok t ht] at e
      injection e with e
      cases e
  · refine ⟨fun s => ⟨fun e => ?_, ok s⟩, ⟨fun _ => h, no⟩⟩
    rw [no h] at e
    injection e with e
    cases e

/-- C107: at most one text is found. -/
theorem C107_found_unique (mem : Nat → BitVec 8) (top a : Nat) (s t : List (BitVec 8)) (hs : Found mem top a s) (ht : Found mem top a t) :
    s = t := text_unique hs.1 ht.1

/-- C107, the two instructions with a string: every outcome of `flog` and `sslog`. -/
theorem C107_instructions (mem : Nat → BitVec 8) (maxPhys : BitVec 64) (hm : maxPhys.toNat + 4 ≤ 2 ^ 32) (addr : BitVec 32)
    (hw : addr.toNat + 4 < 2 ^ 32) (fuel : Nat) (hf : maxPhys.toNat ≤ 4 * fuel) (hf0 : 0 < fuel) (st : St) :
    (∀ s, Found mem maxPhys.toNat addr.toNat s → exec mem maxPhys fuel .sslog addr st = some (.ok { st with args := st.args ++ [.text s] }) ∧
      exec mem maxPhys fuel .flog addr st = some (printLog s st)) ∧
    ((¬ ∃ s, Found mem maxPhys.toNat addr.toNat s) → exec mem maxPhys fuel .sslog addr st = some .abort ∧
      exec mem maxPhys fuel .flog addr st = some .abort) := by
  obtain ⟨h1, h2⟩ := C107_load mem maxPhys hm addr hw fuel hf hf0
  constructor
  · intro s hs
    have e := (h1 s).2 hs
    constructor <;> (unfold exec; dsimp only; rw [e]; rfl)
  · intro hn
    have e := h2.2 hn
    constructor <;> (unfold exec; dsimp only; rw [e]; rfl)

/-- A memory without a NUL in the first eight bytes: with the top at 8 a string at 0 is not found, at 12 it is. -/
example : (loadString (fun a => if a = 9 then 0 else 0x61) 8 2 0 = some .abort) ∧
    loadString (fun a => if a = 9 then 0 else 0x61) 12 3 0 = some (.ok (List.replicate 9 0x61)) := by
  constructor <;> decide +kernel

/-- C107 needs the bound on the address: at the end of the address space the search goes on at address 0, and the text found there is
none that is in memory at the address. -/
theorem C107_wraps : ∃ s, loadString (fun a => if a = 0 then 0 else 0x61) 0x3fffff 10 0xfffffffc = some (.ok s) ∧
    ¬ TextAt (fun a => if a = 0 then 0 else 0x61) 0xfffffffc s := by
  refine ⟨[0x61, 0x61, 0x61, 0x61], by decide +kernel, fun h => ?_⟩
  have := h.2.1
  simp at this

end Verif.Props
