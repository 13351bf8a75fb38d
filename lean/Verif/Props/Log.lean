import Verif.Proofs.Log

/-!
# C56, C57: log instructions

`source`, `Prints`, `Supplied`, `TextAt` and `wordBytes` are from `Verif.Spec.Log`.
-/

namespace Verif.Props

open Verif Verif.Model.Log Verif.Spec.Log Verif.Proofs.Log

/-! ## C56 -/

/-- C56 (missing: formats with `%%`, with a directive that does not suit its argument, or ending in a percent sign, see
below): whenever `out` is the substitution of the arguments into the format, `PrintLog` adds exactly `out` to the output
and leaves no argument. -/
theorem C56_prints_partial (ps : List Piece) (hp : ∀ p ∈ ps, p.Plain) (s : St) (out : List (BitVec 8))
    (h : Prints ps s.args out) : printLog (source ps) s = .ok { s with args := [], out := s.out ++ out } := by
  unfold printLog
  rw [printLoop_prints h hp]
  rfl

/-- C56: there is such an output, and only one, whenever each directive has a suitable argument. -/
theorem C56_defined_partial (ps : List Piece) (hp : ∀ p ∈ ps, p.Plain) (args : List Arg) (h : Supplied ps args) :
    ∃ out, Prints ps args out ∧ ∀ out', Prints ps args out' → out' = out := by
  obtain ⟨out, ho⟩ := prints_of_supplied ps args h
  refine ⟨out, ho, fun out' ho' => ?_⟩
  have e1 := printLoop_prints ho hp []
  have e2 := printLoop_prints ho' hp []
  rw [e1] at e2
  injection e2 with e2
  simpa using e2.symm

/-- C56: whatever the format, a call that returns leaves no argument behind, only adds to the output and does not touch
the pending `clog` text. -/
theorem C56_clears (fmt : List (BitVec 8)) (s s' : St) (h : printLog fmt s = .ok s') :
    s'.args = [] ∧ s'.clog = s.clog ∧ ∃ out, s'.out = s.out ++ out := by
  unfold printLog at h
  cases hl : printLoop (fmt ++ [0]) s.args [] with
  | ub => rw [hl] at h; cases h
  | abort => rw [hl] at h; cases h
  | ok log =>
    rw [hl] at h
    injection h with h
    subst h
    exact ⟨rfl, rfl, log, rfl⟩

/-- C56: a format that asks for more arguments than there are ends the simulation, whatever follows. -/
theorem C56_too_few (ps : List Piece) (hp : ∀ p ∈ ps, p.Plain) (args : List Arg) (hs : Supplied ps args)
    (hn : (ps.filter fun | .dir _ => true | .text _ => false).length = args.length) (d : BitVec 8)
    (rest : List (BitVec 8)) (s : St) (ha : s.args = args) : printLog (source ps ++ 0x25 :: d :: rest) s = .abort := by
  have key : ∀ (ps : List Piece) (args : List Arg) (log : List (BitVec 8)), (∀ p ∈ ps, p.Plain) → Supplied ps args →
      (ps.filter fun | .dir _ => true | .text _ => false).length = args.length →
      printLoop (source ps ++ 0x25 :: d :: (rest ++ [0])) args log = .abort := by
    intro ps
    induction ps with
    | nil =>
      intro args log _ _ hn
      have : args = [] := List.length_eq_zero_iff.1 hn.symm
      subst this
      rfl
    | cons p ps ih =>
      intro args log hp hs hn
      have hp' : ∀ q ∈ ps, q.Plain := fun q hq => hp q (List.mem_cons_of_mem _ hq)
      cases p with
      | text t =>
        have : source (.text t :: ps) = t ++ source ps := by simp [source, Piece.source]
        rw [this, List.append_assoc, printLoop_text t _ args log (by simp) (hp (.text t) (by simp))]
        exact ih args _ hp' hs (by simpa using hn)
      | dir e =>
        cases args with
        | nil => exact absurd hs id
        | cons a args =>
          have : source (.dir e :: ps) = 0x25 :: e :: source ps := by simp [source, Piece.source]
          rw [this, List.cons_append, List.cons_append]
          unfold printLoop
          rw [if_neg (by decide), if_pos rfl]
          exact ih args _ hp' hs.2 (by simpa using hn)
  unfold printLog
  rw [List.append_assoc, ha]
  have := key ps args [] hp hs hn
  rw [show (0x25 :: d :: rest) ++ [0] = 0x25 :: d :: (rest ++ [0]) from rfl, this]
  rfl

/-- `"a=%d, %s: %x"` with -5, "ok" and 255 prints `a=-5, ok: ff`. -/
example : printLog [0x61, 0x3d, 0x25, 0x64, 0x2c, 0x20, 0x25, 0x73, 0x3a, 0x20, 0x25, 0x78]
      ⟨[.word 0xfffffffb, .text [0x6f, 0x6b], .word 255], [], []⟩ =
    .ok ⟨[], [], [0x61, 0x3d, 0x2d, 0x35, 0x2c, 0x20, 0x6f, 0x6b, 0x3a, 0x20, 0x66, 0x66]⟩ := by
  have h5 : Numeral 10 [0x35] 5 := ⟨by decide, fun b hb => ⟨5, by rw [List.mem_singleton.1 hb]; rfl, by decide⟩, rfl,
    by decide⟩
  have hff : Numeral 16 [0x66, 0x66] 255 := by
    refine ⟨by decide, fun b hb => ⟨15, ?_, by decide⟩, rfl, by decide⟩
    have : b = 0x66 := by simpa using hb
    rw [this]; rfl
  refine C56_prints_partial
    [.text [0x61, 0x3d], .dir 0x64, .text [0x2c, 0x20], .dir 0x73, .text [0x3a, 0x20], .dir 0x78] ?_
    ⟨[.word 0xfffffffb, .text [0x6f, 0x6b], .word 255], [], []⟩ _
    (.text _ _ _ _ (.dir 0x64 (.word 0xfffffffb) [0x2d, 0x35] _ _ _ (Or.inr (Or.inr (Or.inr ⟨rfl, by decide, [0x35], rfl, h5⟩)))
      (.text _ _ _ _ (.dir 0x73 (.text [0x6f, 0x6b]) _ _ _ _ ⟨rfl, rfl⟩ (.text _ _ _ _
        (.dir 0x78 (.word 255) [0x66, 0x66] _ _ [] (Or.inr (Or.inl ⟨rfl, hff⟩)) (.nil [])))))))
  intro p hp
  simp only [List.mem_cons, List.not_mem_nil, or_false] at hp
  rcases hp with rfl | rfl | rfl | rfl | rfl | rfl <;> simp [Piece.Plain]

/-- C56 is false for `%%`, which takes up an argument and prints nothing; without an argument it ends the simulation. -/
theorem C56_percent (v : BitVec 32) (s : List (BitVec 8)) :
    printLog [0x25, 0x25] ⟨[.word v], [], s⟩ = .ok ⟨[], [], s⟩ ∧ printLog [0x25, 0x25] ⟨[], [], s⟩ = .abort := by
  refine ⟨?_, rfl⟩
  show Outcome.ok (St.mk [] [] (s ++ [])) = _
  rw [List.append_nil]

/-- C56 is false for a directive that does not suit its argument: the argument is dropped without a trace. -/
theorem C56_unsuitable (v : BitVec 32) :
    printLog [0x3c, 0x25, 0x73, 0x3e] ⟨[.word v], [], []⟩ = .ok ⟨[], [], [0x3c, 0x3e]⟩ ∧
    printLog [0x3c, 0x25, 0x64, 0x3e] ⟨[.text [0x61]], [], []⟩ = .ok ⟨[], [], [0x3c, 0x3e]⟩ := ⟨rfl, rfl⟩

/-- C56 is false for a format that ends in a percent sign: if there is an argument, the characters after the string's
NUL are read. -/
theorem C56_trailing (a : Arg) (args : List Arg) (c s : List (BitVec 8)) :
    printLog [0x61, 0x25] ⟨a :: args, c, s⟩ = .ub := rfl

/-! ## C57 -/

/-- C57, strings in memory (missing: strings whose last group of four bytes starts at `max_physical_address` or
beyond, see `C57_cut`): the text at the address is found, at any length and alignment. -/
theorem C57_load_partial (mem : Nat → BitVec 8) (maxPhys : BitVec 64) (addr : BitVec 32) (s : List (BitVec 8))
    (h : TextAt mem addr.toNat s) (hw : addr.toNat + s.length < 2 ^ 32)
    (hm : s.length < 4 ∨ addr.toNat + 4 * (s.length / 4) < maxPhys.toNat) (fuel : Nat) (hf : s.length / 4 < fuel) :
    loadString mem maxPhys fuel addr = some (.ok s) := by
  obtain ⟨t, e⟩ := loadLoop_text mem maxPhys fuel addr [] s h hf hw hm
  unfold loadString
  rw [e, List.nil_append]
  show some (trim (s ++ 0 :: t)) = _
  rw [trim_append s _ h.2.2 (by simp)]
  simp

/-- C57 for the string argument and the format: the instruction acts on the text at its address. -/
theorem C57_instructions_partial (mem : Nat → BitVec 8) (maxPhys : BitVec 64) (addr : BitVec 32) (s : List (BitVec 8))
    (h : TextAt mem addr.toNat s) (hw : addr.toNat + s.length < 2 ^ 32)
    (hm : s.length < 4 ∨ addr.toNat + 4 * (s.length / 4) < maxPhys.toNat) (fuel : Nat) (hf : s.length / 4 < fuel)
    (st : St) :
    exec mem maxPhys fuel .sslog addr st = some (.ok { st with args := st.args ++ [.text s] }) ∧
    exec mem maxPhys fuel .flog addr st = some (printLog s st) := by
  have e := C57_load_partial mem maxPhys addr s h hw hm fuel hf
  constructor
  · unfold exec; dsimp only; rw [e]; rfl
  · unfold exec; dsimp only; rw [e]; rfl

/-- C57 is false for the other strings, even where they lie in memory: the search stops too early and the missing
terminator makes `resize` throw. -/
theorem C57_cut (mem : Nat → BitVec 8) (maxPhys : BitVec 64) (addr : BitVec 32) (s : List (BitVec 8))
    (h : TextAt mem addr.toNat s) (hw : addr.toNat + s.length < 2 ^ 32) (hl : 4 ≤ s.length)
    (hm : maxPhys.toNat ≤ addr.toNat + 4 * (s.length / 4)) (fuel : Nat) (hf : s.length / 4 < fuel) :
    loadString mem maxPhys fuel addr = some .abort := by
  obtain ⟨t, e, hz⟩ := loadLoop_cut mem maxPhys fuel addr [] s h hf hw hl hm (by simp)
  unfold loadString
  rw [e]
  show some (trim t) = _
  unfold trim
  rw [if_neg hz]

/-- "abcd" at 0x3ffffb, its NUL at 0x3fffff, which is the last byte of the memory. -/
example : loadString (fun a => if a = 0x3fffff then 0 else BitVec.ofNat 8 (a % 4 + 0x61)) 0x3fffff 10 0x3ffffb =
    some .abort := by decide +kernel

/-- The same text one byte below is found. -/
example : loadString (fun a => if a = 0x3ffffe then 0 else BitVec.ofNat 8 (a % 4 + 0x61)) 0x3fffff 10 0x3ffffa =
    some (.ok [0x63, 0x64, 0x61, 0x62]) := by decide +kernel

/-- C57: the pending `clog` text never contains a NUL, whatever log instructions were executed. -/
theorem C57_pending (mem : Nat → BitVec 8) (maxPhys : BitVec 64) (fuel : Nat) (is : List (Op × BitVec 32)) (s s' : St)
    (hs : 0 ∉ s.clog) (h : execAll mem maxPhys fuel is s = some (.ok s')) : 0 ∉ s'.clog := by
  have one : ∀ (op : Op) (rs : BitVec 32) (s s' : St), 0 ∉ s.clog → exec mem maxPhys fuel op rs s = some (.ok s') →
      0 ∉ s'.clog := by
    intro op rs s s' hs h
    unfold exec at h
    cases op with
    | flog =>
      dsimp only at h
      cases hl : loadString mem maxPhys fuel rs with
      | none => rw [hl] at h; cases h
      | some r =>
        rw [hl] at h
        cases r with
        | ub => cases h
        | abort => cases h
        | ok f =>
          injection h with h
          rw [(C56_clears f s s' h).2.1]
          exact hs
    | slog => injection h with h; injection h with h; subst h; exact hs
    | sslog =>
      dsimp only at h
      cases hl : loadString mem maxPhys fuel rs with
      | none => rw [hl] at h; cases h
      | some r =>
        rw [hl] at h
        cases r with
        | ub => cases h
        | abort => cases h
        | ok f => injection h with h; injection h with h; subst h; exact hs
    | clog =>
      dsimp only at h
      injection h with h
      cases hz : wordHasZero rs with
      | true =>
        rw [hz, if_pos rfl] at h
        cases ht : trim (s.clog ++ chars rs) with
        | ub => rw [ht] at h; cases h
        | abort => rw [ht] at h; cases h
        | ok t => rw [ht] at h; injection h with h; subst h; simp
      | false =>
        rw [hz, if_neg Bool.false_ne_true] at h
        injection h with h
        subst h
        intro hx
        rcases List.mem_append.1 hx with hx | hx
        · exact hs hx
        · rw [chars_eq] at hx
          rw [(wordHasZero_iff rs).2 hx] at hz
          cases hz
  induction is generalizing s with
  | nil => injection h with h; injection h with h; subst h; exact hs
  | cons i is ih =>
    unfold execAll at h
    cases he : exec mem maxPhys fuel i.1 i.2 s with
    | none => rw [he] at h; cases h
    | some r =>
      rw [he] at h
      cases r with
      | ub => cases h
      | abort => cases h
      | ok s1 => exact ih s1 (one i.1 i.2 s s1 hs he) h

/-- C57: only `clog` touches the pending text. -/
theorem C57_pending_frame (mem : Nat → BitVec 8) (maxPhys : BitVec 64) (fuel : Nat) (op : Op) (hop : op ≠ .clog)
    (rs : BitVec 32) (s s' : St) (h : exec mem maxPhys fuel op rs s = some (.ok s')) : s'.clog = s.clog := by
  unfold exec at h
  cases op with
  | clog => exact absurd rfl hop
  | slog => injection h with h; injection h with h; subst h; rfl
  | flog =>
    dsimp only at h
    cases hl : loadString mem maxPhys fuel rs with
    | none => rw [hl] at h; cases h
    | some r =>
      rw [hl] at h
      cases r with
      | ub => cases h
      | abort => cases h
      | ok f => injection h with h; exact (C56_clears f s s' h).2.1
  | sslog =>
    dsimp only at h
    cases hl : loadString mem maxPhys fuel rs with
    | none => rw [hl] at h; cases h
    | some r =>
      rw [hl] at h
      cases r with
      | ub => cases h
      | abort => cases h
      | ok f => injection h with h; injection h with h; subst h; rfl

/-- C57 for `clog`: groups without NUL are collected; the first group with a NUL ends the text before it, the text
becomes one argument and nothing is left pending. -/
theorem C57_clog (mem : Nat → BitVec 8) (maxPhys : BitVec 64) (fuel : Nat) (ws : List (BitVec 32)) (z : BitVec 32)
    (hws : ∀ w ∈ ws, 0 ∉ wordBytes w) (hz : 0 ∈ wordBytes z) (s : St) (hs : 0 ∉ s.clog) :
    execAll mem maxPhys fuel (ws.map (Op.clog, ·) ++ [(.clog, z)]) s =
      some (.ok { s with
        args := s.args ++ [.text (s.clog ++ ws.flatMap wordBytes ++ (wordBytes z).takeWhile (· ≠ 0))]
        clog := [] }) := by
  induction ws generalizing s with
  | nil =>
    have hzz := (wordHasZero_iff z).2 hz
    have hne : ∀ b ∈ s.clog, b ≠ 0 := fun b hb e => hs (e ▸ hb)
    show execAll mem maxPhys fuel [(.clog, z)] s = _
    unfold execAll exec
    dsimp only
    rw [hzz, if_pos rfl, chars_eq, trim_append _ _ hne hz]
    simp [execAll]
  | cons w ws ih =>
    have hw : 0 ∉ wordBytes w := hws w (by simp)
    have hzz : wordHasZero w = false := by
      cases hx : wordHasZero w with
      | false => rfl
      | true => exact absurd ((wordHasZero_iff w).1 hx) hw
    rw [List.map_cons, List.cons_append]
    unfold execAll exec
    dsimp only
    rw [hzz, if_neg Bool.false_ne_true]
    dsimp only
    rw [ih (fun x hx => hws x (List.mem_cons_of_mem _ hx)) _ (by
      intro hx
      rcases List.mem_append.1 hx with hx | hx
      · exact hs hx
      · exact hw (by rwa [chars_eq] at hx))]
    simp [chars_eq, List.flatMap_cons]

/-- What a program logs before it prints: a scalar, a string in memory, or characters in groups of four of which the last
one contains the NUL. -/
inductive Item where
  | word (v : BitVec 32)
  | string (addr : BitVec 32) (s : List (BitVec 8))
  | chars (ws : List (BitVec 32)) (z : BitVec 32)

/-- The instructions that log it. -/
def Item.code : Item → List (Op × BitVec 32)
  | .word v => [(.slog, v)]
  | .string addr _ => [(.sslog, addr)]
  | .chars ws z => ws.map (Op.clog, ·) ++ [(.clog, z)]

/-- The argument it stands for. -/
def Item.arg : Item → Arg
  | .word v => .word v
  | .string _ s => .text s
  | .chars ws z => .text (ws.flatMap wordBytes ++ (wordBytes z).takeWhile (· ≠ 0))

/-- The string is at its address and can be found there; the groups end with the first NUL. -/
def Item.Ok (mem : Nat → BitVec 8) (maxPhys : BitVec 64) (fuel : Nat) : Item → Prop
  | .word _ => True
  | .string addr s => TextAt mem addr.toNat s ∧ addr.toNat + s.length < 2 ^ 32 ∧
      (s.length < 4 ∨ addr.toNat + 4 * (s.length / 4) < maxPhys.toNat) ∧ s.length / 4 < fuel
  | .chars ws z => (∀ w ∈ ws, 0 ∉ wordBytes w) ∧ 0 ∈ wordBytes z

theorem execAll_append (mem : Nat → BitVec 8) (maxPhys : BitVec 64) (fuel : Nat) (is js : List (Op × BitVec 32)) (s s' : St)
    (h : execAll mem maxPhys fuel is s = some (.ok s')) :
    execAll mem maxPhys fuel (is ++ js) s = execAll mem maxPhys fuel js s' := by
  induction is generalizing s with
  | nil =>
    injection h with h
    injection h with h
    subst h
    rfl
  | cons i is ih =>
    rw [List.cons_append]
    unfold execAll at h
    conv => lhs; unfold execAll
    cases he : exec mem maxPhys fuel i.1 i.2 s with
    | none => rw [he] at h; cases h
    | some r =>
      rw [he] at h
      cases r with
      | ub => cases h
      | abort => cases h
      | ok s1 => exact ih s1 h

/-- C56 for the whole sequence of instructions (missing as in `C56_prints_partial` and `C57_load_partial`): logging any
items and then printing the format at an address prints the format with the items substituted in the order in which
they were logged, and leaves no argument. -/
theorem C56_session_partial (mem : Nat → BitVec 8) (maxPhys : BitVec 64) (fuel : Nat) (items : List Item)
    (hi : ∀ x ∈ items, x.Ok mem maxPhys fuel) (ps : List Piece) (hp : ∀ p ∈ ps, p.Plain) (addr : BitVec 32)
    (ha : (Item.string addr (source ps)).Ok mem maxPhys fuel) (s : St) (hs : s.clog = [] ∧ s.args = [])
    (out : List (BitVec 8)) (h : Prints ps (items.map Item.arg) out) :
    execAll mem maxPhys fuel (items.flatMap Item.code ++ [(.flog, addr)]) s =
      some (.ok { s with args := [], out := s.out ++ out }) := by
  have key : ∀ (items : List Item) (s : St), (∀ x ∈ items, x.Ok mem maxPhys fuel) → s.clog = [] →
      execAll mem maxPhys fuel (items.flatMap Item.code) s =
        some (.ok { s with args := s.args ++ items.map Item.arg }) := by
    intro items
    induction items with
    | nil => intro s _ _; simp [execAll]
    | cons x xs ih =>
      intro s hi hc
      have one : execAll mem maxPhys fuel x.code s = some (.ok { s with args := s.args ++ [x.arg] }) := by
        have hx := hi x (by simp)
        cases x with
        | word v => rfl
        | string a t =>
          unfold Item.code execAll
          rw [(C57_instructions_partial mem maxPhys a t hx.1 hx.2.1 hx.2.2.1 fuel hx.2.2.2 s).1]
          rfl
        | chars ws z =>
          unfold Item.code
          rw [C57_clog mem maxPhys fuel ws z hx.1 hx.2 s (by rw [hc]; simp), hc, List.nil_append]
          rfl
      rw [List.flatMap_cons, execAll_append mem maxPhys fuel _ _ _ _ one,
        ih { s with args := s.args ++ [x.arg] } (fun y hy => hi y (List.mem_cons_of_mem _ hy)) hc]
      simp
  rw [execAll_append mem maxPhys fuel _ _ _ _ (key items s hi hs.1)]
  unfold execAll
  rw [(C57_instructions_partial mem maxPhys addr (source ps) ha.1 ha.2.1 ha.2.2.1 fuel ha.2.2.2 _).2,
    C56_prints_partial ps hp _ out (by rw [hs.2, List.nil_append]; exact h)]
  rfl

/-- "hello" in two groups, then "!" in one, with a scalar in between: three arguments, printed by the format at 0x100. -/
example : execAll (fun a => if a = 0x100 ∨ a = 0x104 then 0x25 else if a = 0x101 ∨ a = 0x105 then 0x73 else
      if a = 0x102 then 0x25 else if a = 0x103 then 0x75 else 0) 0x3fffff 10
      [(.clog, 0x6c6c6568), (.clog, 0x6f), (.slog, 7), (.clog, 0x7700_0021), (.flog, 0x100)] ⟨[], [], []⟩ =
    some (.ok ⟨[], [], [0x68, 0x65, 0x6c, 0x6c, 0x6f, 0x37, 0x21]⟩) := by decide +kernel

end Verif.Props
