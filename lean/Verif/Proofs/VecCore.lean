import Verif.Model.VecCore
import Verif.Proofs.DecodeTotal
import Verif.Proofs.Kernel
import Verif.Proofs.TopPlain

/-! # Vector programs in the memory of the core -/

namespace Verif.Proofs

open Verif Verif.Model
open Verif.Spec.Program (Machine Ev word ebreak next run Steady)

/-- The instructions that write memory. -/
def stores (i : Inst) : Bool :=
  match i.row.sem with
  | .vst .. | .vstq .. => true
  | _ => false

/-- The others do not. -/
theorem exec_mem (maxPhys : Nat) (fresh : Nat → VReg) {i : Inst} (hi : stores i = false) (s : Arch)
    (p : Bool × Arch) (he : execRow maxPhys fresh i.row i.word s = some (.ok p)) : p.2.mem = s.mem := by
  cases e : i.row.sem with
  | scalar => simp [execRow, e] at he
  | vec op sc st =>
    simp only [execRow, e, Option.some.injEq] at he
    obtain ⟨v, -, hv⟩ := bind_ok_inv he
    cases hv; rfl
  | vld T a b c d q =>
    simp only [execRow, e, Option.some.injEq] at he
    split at he
    · obtain ⟨m, hm, he⟩ := bind_ok_inv he
      cases he
      unfold VMemInst.vld at hm
      obtain ⟨_, -, hm⟩ := bind_ok_inv hm
      obtain ⟨_, -, hm⟩ := bind_ok_inv hm
      obtain ⟨_, -, hm⟩ := bind_ok_inv hm
      obtain ⟨_, -, hm⟩ := bind_ok_inv hm
      obtain ⟨_, -, hm⟩ := bind_ok_inv hm
      cases hm; rfl
    · cases he
  | vst T a b c d q => simp [stores, e] at hi
  | vstq T c q => simp [stores, e] at hi
  | vdup T a =>
    simp only [execRow, e, Option.some.injEq] at he
    obtain ⟨_, -, he⟩ := bind_ok_inv he
    obtain ⟨_, -, he⟩ := bind_ok_inv he
    cases he; rfl
  | getvl T a b c =>
    simp only [execRow, e, Option.some.injEq] at he
    split at he
    · obtain ⟨_, -, he⟩ := bind_ok_inv he
      split at he <;> (obtain ⟨_, -, he⟩ := bind_ok_inv he; cases he; rfl)
    · obtain ⟨_, -, he⟩ := bind_ok_inv he
      split at he <;> (obtain ⟨_, -, he⟩ := bind_ok_inv he; cases he; rfl)
  | vcget =>
    simp only [execRow, e, Option.some.injEq] at he
    obtain ⟨_, -, he⟩ := bind_ok_inv he
    cases he; rfl
  | acset t =>
    simp only [execRow, e, Option.some.injEq] at he
    obtain ⟨_, -, he⟩ := bind_ok_inv he
    obtain ⟨_, -, he⟩ := bind_ok_inv he
    cases he; rfl
  | adwinit =>
    simp only [execRow, e, Option.some.injEq] at he
    obtain ⟨_, -, he⟩ := bind_ok_inv he
    obtain ⟨_, -, he⟩ := bind_ok_inv he
    cases he; rfl
  | aconv =>
    simp only [execRow, e, Option.some.injEq] at he
    obtain ⟨_, -, he⟩ := bind_ok_inv he
    obtain ⟨_, -, he⟩ := bind_ok_inv he
    obtain ⟨_, -, he⟩ := bind_ok_inv he
    obtain ⟨_, -, he⟩ := bind_ok_inv he
    cases he; rfl
  | dwconv wr =>
    simp only [execRow, e, Option.some.injEq] at he
    obtain ⟨_, -, he⟩ := bind_ok_inv he
    obtain ⟨_, -, he⟩ := bind_ok_inv he
    obtain ⟨_, -, he⟩ := bind_ok_inv he
    obtain ⟨_, -, he⟩ := bind_ok_inv he
    cases he; rfl

theorem run_exec {maxPhys : Nat} {fresh : Nat → VReg} {i : Inst} {s t : Arch} (h : i.run maxPhys fresh s = .ok t) :
    execRow maxPhys fresh i.row i.word s = some (.ok (false, t)) := by
  unfold Inst.run at h
  split at h
  · cases h
  · rename_i o ho
    obtain ⟨p, hp, h⟩ := bind_ok_inv h
    rw [ho, hp]
    obtain ⟨b, t'⟩ := p
    cases b
    · cases h; rfl
    · cases h

/-- `ebreak` is not a vector instruction. -/
theorem ebreak_rows : allRows.all (fun r => !r.matches ebreak || r.sem == .scalar) = true := by decide +kernel

theorem ne_ebreak {i : Inst} (hi : i.Ok) (hs : i.row.sem ≠ .scalar) : i.word ≠ ebreak := by
  intro he
  have h1 := List.all_eq_true.1 ebreak_rows i.row hi.1
  rw [← he, hi.2.1] at h1
  simp [hs] at h1

/-- Nor are the words around a semihosting call. -/
theorem marks_rows : allRows.all (fun r => !(r.matches Spec.Program.semiEntry || r.matches Spec.Program.semiExit) || r.sem == .scalar) =
    true := by decide +kernel

theorem ne_marks {i : Inst} (hi : i.Ok) (hs : i.row.sem ≠ .scalar) : i.word ≠ Spec.Program.semiEntry ∧ i.word ≠ Spec.Program.semiExit := by
  have h1 := List.all_eq_true.1 marks_rows i.row hi.1
  constructor
  · intro h
    rw [← h, hi.2.1] at h1
    simp [hs] at h1
  · intro h
    rw [← h, hi.2.1] at h1
    simp [hs] at h1

theorem exec_ne_ebreak {maxPhys : Nat} {fresh : Nat → VReg} {i : Inst} (hi : i.Ok) {s : Arch} {o : Outcome (Bool × Arch)}
    (h : execRow maxPhys fresh i.row i.word s = some o) : i.word ≠ ebreak := by
  intro e
  have h1 := List.all_eq_true.1 ebreak_rows i.row hi.1
  have h2 := hi.2.1
  rw [e] at h2
  rw [h2] at h1
  have h3 : i.row.sem = .scalar := by simpa using h1
  simp [execRow, h3] at h

/-! ## Executions inside unchanged code -/

/-- For `n` instructions the program asks for nothing, keeps the bytes of the code and stays in it. -/
def Good {σ : Type} (sem : Spec.Program.Sem σ) (C : Nat → Prop) (m : Machine σ) (n : Nat) : Prop :=
  ∀ i < n, (next sem (run sem i m)).2 = [] ∧ (∀ q, C q → (run sem i m).mem q = m.mem q) ∧
    ∀ k < 4, C ((run sem i m).pc.toNat + k)

theorem word_congr {f g : Nat → BitVec 8} {a : Nat} (h : ∀ k < 4, f (a + k) = g (a + k)) : word f a = word g a := by
  unfold word
  rw [h 3 (by omega), h 2 (by omega), h 1 (by omega), show f a = g a from h 0 (by omega)]

theorem Good.append {σ : Type} {sem : Spec.Program.Sem σ} {C : Nat → Prop} {m : Machine σ} {a b : Nat} (h1 : Good sem C m a)
    (hm : ∀ q, C q → (run sem a m).mem q = m.mem q) (h2 : Good sem C (run sem a m) b) : Good sem C m (a + b) := by
  intro i hi
  by_cases h : i < a
  · exact h1 i h
  · obtain ⟨j, rfl⟩ : ∃ j, i = a + j := ⟨i - a, by omega⟩
    obtain ⟨g1, g2, g3⟩ := h2 j (by omega)
    rw [Top.run_add]
    exact ⟨g1, fun q hq => (g2 q hq).trans (hm q hq), g3⟩

/-- One more instruction, which may ask for something. -/
theorem Good.steady {σ : Type} {sem : Spec.Program.Sem σ} {C : Nat → Prop} {m : Machine σ} {n : Nat} (h : Good sem C m n)
    (hm : ∀ q, C q → (run sem n m).mem q = m.mem q) (hp : ∀ k < 4, C ((run sem n m).pc.toNat + k)) :
    Steady sem m (n + 1) := by
  have h1 : ∀ i < n + 1, (∀ q, C q → (run sem i m).mem q = m.mem q) ∧ ∀ k < 4, C ((run sem i m).pc.toNat + k) := by
    intro i hi
    by_cases e : i = n
    · subst e; exact ⟨hm, hp⟩
    · exact (h i (by omega)).2
  intro i j hij hj
  refine word_congr fun k hk => ?_
  have hc := (h1 i (by omega)).2 k hk
  rw [(h1 i (by omega)).1 _ hc, (h1 j hj).1 _ hc]

theorem Good.steady' {σ : Type} {sem : Spec.Program.Sem σ} {C : Nat → Prop} {m : Machine σ} {n : Nat} (h : Good sem C m n) :
    Steady sem m n := by
  intro i j hij hj
  refine word_congr fun k hk => ?_
  have hc := (h i (by omega)).2.2 k hk
  rw [(h i (by omega)).2.1 _ hc, (h j hj).2.1 _ hc]

/-- The instructions are in memory from `a` on. -/
def InMem (ws : List (BitVec 32)) (mem : Nat → BitVec 8) (a : Nat) : Prop :=
  ∀ k, (h : k < ws.length) → word mem (a + 4 * k) = ws[k]

/-- One vector instruction. -/
theorem next_vec (P : VecParams) {i : Inst} (hi : i.Ok) (hd : P.dec i.word = some i.row) {s t : Arch} {b : Bool}
    (h : execRow P.maxPhys P.fresh i.row i.word s = some (.ok (b, t))) (pc : BitVec 32) (hw : word s.mem pc.toNat = i.word) :
    next (vecSem P) (s.machine pc) = (t.machine (pc + 4), if b then [.ev .userRequest] else []) := by
  have hw' : word (s.machine pc).mem (s.machine pc).pc.toNat = i.word := hw
  have hne : word (s.machine pc).mem (s.machine pc).pc.toNat ≠ ebreak := hw' ▸ exec_ne_ebreak hi h
  obtain ⟨h1, h2⟩ := Top.next_inst (sem := vecSem P) hne
  have e : vecSem P i.word (s.machine pc).pc.toNat { s.machine pc with pc := (s.machine pc).pc + 4 } =
      (t.machine (pc + 4), if b then [Ev.userRequest] else []) := by
    generalize (s.machine pc).pc.toNat = a
    have h3 : execRow P.maxPhys P.fresh i.row i.word (archOf { s.machine pc with pc := (s.machine pc).pc + 4 }) =
        some (.ok (b, t)) := h
    unfold vecSem
    dsimp only
    rw [hd, Option.bind_some, h3]
    rfl
  rw [hw', e] at h1 h2
  refine Prod.ext h1 (h2.trans ?_)
  cases b <;> rfl

theorem toNat_add4 {pc : BitVec 32} (h : pc.toNat + 4 < 2 ^ 32) : (pc + 4).toNat = pc.toNat + 4 := by
  rw [BitVec.toNat_add]
  exact Nat.mod_eq_of_lt h

/-- A block of vector instructions. -/
theorem block (P : VecParams) (C : Nat → Prop) (is : List Inst) : ∀ (s t : Arch) (pc : BitVec 32),
    (∀ i ∈ is, i.Ok ∧ P.dec i.word = some i.row) → runAll P.maxPhys P.fresh is s = .ok t →
    (∀ k ≤ is.length, ∀ t', runAll P.maxPhys P.fresh (is.take k) s = .ok t' → ∀ q, C q → t'.mem q = s.mem q) →
    InMem (is.map Inst.word) s.mem pc.toNat → pc.toNat + 4 * is.length < 2 ^ 32 →
    (∀ q, pc.toNat ≤ q → q < pc.toNat + 4 * is.length → C q) →
    Good (vecSem P) C (s.machine pc) is.length ∧
      run (vecSem P) is.length (s.machine pc) = t.machine (pc + BitVec.ofNat 32 (4 * is.length)) ∧
      ∀ q, C q → t.mem q = s.mem q := by
  induction is with
  | nil =>
    intro s t pc _ h _ _ _ _
    cases h
    refine ⟨fun i hi => absurd hi (Nat.not_lt_zero _), ?_, fun _ _ => rfl⟩
    simp [run]
  | cons i is ih =>
    intro s t pc hd h hk hw hpc hC
    rw [List.length_cons] at hpc hC hk ⊢
    rw [runAll] at h
    obtain ⟨s1, h1, h2⟩ := bind_ok_inv h
    have hx := run_exec h1
    have h0 : word s.mem pc.toNat = i.word := hw 0 (by simp)
    have hn := next_vec P (hd i (by simp)).1 (hd i (by simp)).2 hx pc h0
    have hk1 : ∀ q, C q → s1.mem q = s.mem q := hk 1 (by omega) s1 (by simp [runAll, h1])
    have e4 := toNat_add4 (pc := pc) (by omega)
    have hsub : ∀ q, pc.toNat ≤ q → q < pc.toNat + 4 * (is.length + 1) → C q := hC
    obtain ⟨g, r, k⟩ := ih s1 t (pc + 4) (fun j hj => hd j (List.mem_cons_of_mem _ hj)) h2
      (fun k hk' t' ht' q hq => by
        have := hk (k + 1) (by omega) t' (by rw [List.take_succ_cons, runAll, h1]; exact ht') q hq
        rw [this, hk1 q hq])
      (fun k hk' => by
        have hlen : k < is.length := by simpa using hk'
        rw [e4, ← show pc.toNat + 4 * (k + 1) = pc.toNat + 4 + 4 * k from by omega]
        have := hw (k + 1) (by simpa using hlen)
        rw [word_congr (g := s.mem) (fun j hj => hk1 _ (hsub _ (by omega) (by omega))), this]
        simp)
      (by rw [e4]; omega) (fun q h1 h2 => hC q (by rw [e4] at h1; omega) (by rw [e4] at h2; omega))
    have hr1 : run (vecSem P) 1 (s.machine pc) = s1.machine (pc + 4) := by
      show (next (vecSem P) (s.machine pc)).1 = _
      rw [hn]
    have g1 : Good (vecSem P) C (s.machine pc) 1 := by
      intro j hj
      obtain rfl : j = 0 := by omega
      refine ⟨?_, fun _ _ => rfl, fun k hk => hC _ (Nat.le_add_right ..) ?_⟩
      · show (next (vecSem P) (s.machine pc)).2 = []
        rw [hn]; rfl
      · show pc.toNat + k < _
        omega
    refine ⟨?_, ?_, fun q hq => (k q hq).trans (hk1 q hq)⟩
    · rw [Nat.add_comm]
      exact g1.append (by rw [hr1]; exact hk1) (by rw [hr1]; exact g)
    · rw [Nat.add_comm, Top.run_add, hr1, r]
      congr 1
      rw [BitVec.add_assoc]
      congr 1
      apply BitVec.eq_of_toNat_eq
      rw [BitVec.toNat_add, BitVec.toNat_ofNat, BitVec.toNat_ofNat]
      show (4 + _) % _ = _
      omega

/-- No instruction stores. -/
theorem keeps_none (maxPhys : Nat) (fresh : Nat → VReg) : ∀ (is : List Inst) (s t : Arch),
    (∀ j ∈ is, stores j = false) → runAll maxPhys fresh is s = .ok t → t.mem = s.mem
  | [], s, t, _, h => by cases h; rfl
  | j :: is, s, t, hn, h => by
    rw [runAll] at h
    obtain ⟨s1, h1, h2⟩ := bind_ok_inv h
    rw [keeps_none maxPhys fresh is s1 t (fun j hj => hn j (List.mem_cons_of_mem _ hj)) h2]
    exact exec_mem maxPhys fresh (hn j (by simp)) s _ (run_exec h1)

/-- Only the last instruction stores. -/
theorem keeps_last (maxPhys : Nat) (fresh : Nat → VReg) (C : Nat → Prop) : ∀ (is : List Inst) (i : Inst) (s t : Arch),
    (∀ j ∈ is, stores j = false) → runAll maxPhys fresh (is ++ [i]) s = .ok t → (∀ q, C q → t.mem q = s.mem q) →
    ∀ k ≤ (is ++ [i]).length, ∀ t', runAll maxPhys fresh ((is ++ [i]).take k) s = .ok t' → ∀ q, C q → t'.mem q = s.mem q
  | [], i, s, t, _, h, hC, k, hk, t', h', q, hq => by
    match k with
    | 0 => cases h'; rfl
    | 1 => rw [show List.take 1 ([] ++ [i]) = [] ++ [i] from rfl, h] at h'; cases h'; exact hC q hq
    | k + 2 => simp at hk
  | j :: is, i, s, t, hn, h, hC, k, hk, t', h', q, hq => by
    match k with
    | 0 => cases h'; rfl
    | k + 1 =>
      rw [List.cons_append, runAll] at h
      obtain ⟨s1, h1, h2⟩ := bind_ok_inv h
      have hm := exec_mem maxPhys fresh (hn j (by simp)) s _ (run_exec h1)
      simp only at hm
      rw [List.cons_append, List.take_succ_cons, runAll, h1] at h'
      rw [keeps_last maxPhys fresh C is i s1 t (fun j hj => hn j (List.mem_cons_of_mem _ hj)) h2
        (by rw [hm]; exact hC) k (by simpa using hk) t' h' q hq, hm]

/-- One base instruction. -/
theorem next_base (P : VecParams) {w : BitVec 32} (hw : w ≠ ebreak) (hr : ∀ r, P.dec w = some r → r.sem = .scalar) (s : Arch)
    (pc : BitVec 32) (hm : word s.mem pc.toNat = w) :
    next (vecSem P) (s.machine pc) =
      ((P.base w pc.toNat (s.machine (pc + 4))).1, (P.base w pc.toNat (s.machine (pc + 4))).2.map .ev) := by
  have hw' : word (s.machine pc).mem (s.machine pc).pc.toNat = w := hm
  have hne : word (s.machine pc).mem (s.machine pc).pc.toNat ≠ ebreak := hw' ▸ hw
  obtain ⟨h1, h2⟩ := Top.next_inst (sem := vecSem P) hne
  have e : vecSem P w (s.machine pc).pc.toNat { s.machine pc with pc := (s.machine pc).pc + 4 } =
      P.base w pc.toNat (s.machine (pc + 4)) := by
    unfold vecSem
    dsimp only
    cases hd : P.dec w with
    | none => rfl
    | some r =>
      have hs := hr r hd
      rw [Option.bind_some]
      simp only [execRow, hs]
      rfl
  rw [hw', e] at h1 h2
  exact Prod.ext h1 h2

/-- One instruction that asks for nothing and keeps the memory. -/
theorem Good.one {σ : Type} {sem : Spec.Program.Sem σ} {C : Nat → Prop} {m : Machine σ} (h : (next sem m).2 = [])
    (hp : ∀ k < 4, C (m.pc.toNat + k)) : Good sem C m 1 := by
  intro j hj
  obtain rfl : j = 0 := by omega
  exact ⟨h, fun _ _ => rfl, hp⟩

theorem toNat_addOfNat {pc : BitVec 32} {n : Nat} (h : pc.toNat + n < 2 ^ 32) : (pc + BitVec.ofNat 32 n).toNat = pc.toNat + n := by
  rw [BitVec.toNat_add, BitVec.toNat_ofNat]
  omega

theorem addOfNat_add4 (pc : BitVec 32) (n : Nat) : pc + BitVec.ofNat 32 n + 4 = pc + BitVec.ofNat 32 (n + 4) := by
  rw [BitVec.add_assoc]
  congr 1
  apply BitVec.eq_of_toNat_eq
  rw [BitVec.toNat_add, BitVec.toNat_ofNat, BitVec.toNat_ofNat]
  show (_ + 4) % _ = _
  omega

/-- One round of a loop: the vector instructions, `sub` and `bne`; some word follows. -/
theorem round (P : VecParams) (C : Nat → Prop) (js : List Inst) (i : Inst) (rn rl : Nat) (sub bne mp w : BitVec 32)
    (hB : LoopBase P (js ++ [i]).length rn rl sub bne mp) (hd : ∀ j ∈ js ++ [i], j.Ok ∧ P.dec j.word = some j.row)
    (hs : ∀ j ∈ js, stores j = false) (s t : Arch) (h : loopBody P.maxPhys P.fresh (js ++ [i]) rn rl s = .ok t)
    (hC : ∀ q, C q → t.mem q = s.mem q) (pc : BitVec 32)
    (hw : InMem ((js ++ [i]).map Inst.word ++ [sub, bne, w]) s.mem pc.toNat)
    (hpc : pc.toNat + 4 * (js ++ [i]).length + 12 < 2 ^ 32)
    (hcode : ∀ q, pc.toNat ≤ q → q < pc.toNat + 4 * (js ++ [i]).length + 12 → C q) :
    Good (vecSem P) C (s.machine pc) ((js ++ [i]).length + 2) ∧
      run (vecSem P) ((js ++ [i]).length + 2) (s.machine pc) =
        t.machine (if t.x rn = 0 then pc + BitVec.ofNat 32 (4 * (js ++ [i]).length + 8) else pc) := by
  unfold loopBody at h
  obtain ⟨u, hu, ht⟩ := bind_ok_inv h
  simp only [Outcome.ok.injEq] at ht
  have hum : t.mem = u.mem := by rw [← ht]
  have hCu : ∀ q, C q → u.mem q = s.mem q := fun q hq => by rw [← hum]; exact hC q hq
  obtain ⟨l, hl⟩ : ∃ l, l = (js ++ [i]).length := ⟨_, rfl⟩
  have hwl : ((js ++ [i]).map Inst.word).length = l := by rw [List.length_map, hl]
  obtain ⟨g, r, -⟩ := block P C (js ++ [i]) s u pc hd hu
    (keeps_last P.maxPhys P.fresh C js i s u hs hu hCu)
    (fun k hk => by
      rw [hw k (by rw [List.length_append]; omega), List.getElem_append_left hk])
    (by omega) (fun q h1 h2 => hcode q h1 (by omega))
  rw [← hl] at g r hpc hcode hB ⊢
  have e1 : (pc + BitVec.ofNat 32 (4 * l)).toNat = pc.toNat + 4 * l := toNat_addOfNat (by omega)
  have e2 : (pc + BitVec.ofNat 32 (4 * l + 4)).toNat = pc.toNat + 4 * l + 4 := toNat_addOfNat (by omega)
  have ws : word u.mem (pc + BitVec.ofNat 32 (4 * l)).toNat = sub := by
    rw [e1, word_congr (g := s.mem) (fun k hk => hCu _ (hcode _ (by omega) (by omega))), hw l (by simp [hl])]
    rw [List.getElem_append_right (by omega)]
    simp [hl]
  have wb : word t.mem (pc + BitVec.ofNat 32 (4 * l + 4)).toNat = bne := by
    rw [e2, word_congr (g := s.mem) (fun k hk => hC _ (hcode _ (by omega) (by omega))),
      show pc.toNat + 4 * l + 4 = pc.toNat + 4 * (l + 1) from by omega, hw (l + 1) (by simp [hl])]
    rw [List.getElem_append_right (by omega)]
    simp [hl]
  have n1 := next_base P (hB.rows sub (by simp)).1 (hB.rows sub (by simp)).2 u _ ws
  rw [hB.sub, addOfNat_add4] at n1
  have n1' : next (vecSem P) (u.machine (pc + BitVec.ofNat 32 (4 * l))) =
      (t.machine (pc + BitVec.ofNat 32 (4 * l + 4)), []) := by
    rw [n1, ← ht]; rfl
  have n2 := next_base P (hB.rows bne (by simp)).1 (hB.rows bne (by simp)).2 t _ wb
  rw [hB.bne, addOfNat_add4] at n2
  have g1 : Good (vecSem P) C (u.machine (pc + BitVec.ofNat 32 (4 * l))) 1 := by
    refine Good.one (by rw [n1']) (fun k hk => hcode _ ?_ ?_)
    all_goals (simp only [Arch.machine, e1]; omega)
  have g2 : Good (vecSem P) C (t.machine (pc + BitVec.ofNat 32 (4 * l + 4))) 1 := by
    refine Good.one (by rw [n2]; rfl) (fun k hk => hcode _ ?_ ?_)
    all_goals (simp only [Arch.machine, e2]; omega)
  have r1 : run (vecSem P) (l + 1) (s.machine pc) = t.machine (pc + BitVec.ofNat 32 (4 * l + 4)) := by
    rw [Top.run_succ, r, n1']
  have G1 : Good (vecSem P) C (s.machine pc) (l + 1) := g.append (by rw [r]; exact hCu) (by rw [r]; exact g1)
  refine ⟨G1.append (by rw [r1]; exact hC) (by rw [r1]; exact g2), ?_⟩
  rw [Top.run_succ, r1, n2]
  show (if t.x rn = 0 then _ else _) = _
  split
  · rfl
  · have : BitVec.ofNat 32 ((pc + BitVec.ofNat 32 (4 * l + 4)).toNat - 4 * (l + 1)) = pc := by
      rw [e2, show pc.toNat + 4 * l + 4 - 4 * (l + 1) = pc.toNat from by omega]
      simp
    rw [this]
    rfl

/-- A loop: the states after each round, the count being 0 only after round `K`. -/
theorem loop (P : VecParams) (C : Nat → Prop) (js : List Inst) (i : Inst) (rn rl : Nat) (sub bne mp w : BitVec 32)
    (hB : LoopBase P (js ++ [i]).length rn rl sub bne mp) (hd : ∀ j ∈ js ++ [i], j.Ok ∧ P.dec j.word = some j.row)
    (hs : ∀ j ∈ js, stores j = false) (S : Nat → Arch)
    (K : Nat) (hS : ∀ k < K, loopBody P.maxPhys P.fresh (js ++ [i]) rn rl (S k) = .ok (S (k + 1)))
    (hC : ∀ k ≤ K, ∀ q, C q → (S k).mem q = (S 0).mem q) (pc : BitVec 32)
    (hw : InMem ((js ++ [i]).map Inst.word ++ [sub, bne, w]) (S 0).mem pc.toNat)
    (hpc : pc.toNat + 4 * (js ++ [i]).length + 12 < 2 ^ 32)
    (hcode : ∀ q, pc.toNat ≤ q → q < pc.toNat + 4 * (js ++ [i]).length + 12 → C q) (hK : 0 < K)
    (hn : ∀ k, 0 < k → k < K → (S k).x rn ≠ 0) (h0 : (S K).x rn = 0) :
    Good (vecSem P) C ((S 0).machine pc) (((js ++ [i]).length + 2) * K) ∧
      run (vecSem P) (((js ++ [i]).length + 2) * K) ((S 0).machine pc) =
        (S K).machine (pc + BitVec.ofNat 32 (4 * (js ++ [i]).length + 8)) := by
  have hr := fun k (hk : k < K) => round P C js i rn rl sub bne mp w hB hd hs (S k) (S (k + 1)) (hS k hk)
    (fun q hq => (hC _ hk q hq).trans (hC k (by omega) q hq).symm) pc
    (fun j hj => by
      have hj' : j < (js ++ [i]).length + 3 := by simpa using hj
      rw [word_congr (g := (S 0).mem) (fun j' hj' => hC _ (by omega) _ (hcode _ (by omega) (by omega)))]
      exact hw j hj) hpc hcode
  have hall : ∀ k, k < K → Good (vecSem P) C ((S 0).machine pc) (((js ++ [i]).length + 2) * k) ∧
      run (vecSem P) (((js ++ [i]).length + 2) * k) ((S 0).machine pc) = (S k).machine pc := by
    intro k
    induction k with
    | zero => exact fun _ => ⟨fun i hi => absurd hi (Nat.not_lt_zero _), rfl⟩
    | succ k ih =>
      intro hk
      obtain ⟨g, r⟩ := ih (by omega)
      obtain ⟨g1, r1⟩ := hr k (by omega)
      rw [if_neg (hn (k + 1) (by omega) hk)] at r1
      rw [Nat.mul_succ]
      exact ⟨g.append (by rw [r]; exact hC k (by omega)) (by rw [r]; exact g1), by rw [Top.run_add, r, r1]⟩
  obtain ⟨k, rfl⟩ : ∃ k, K = k + 1 := ⟨K - 1, by omega⟩
  obtain ⟨g, r⟩ := hall k (by omega)
  obtain ⟨g1, r1⟩ := hr k (by omega)
  rw [if_pos h0] at r1
  rw [Nat.mul_succ]
  exact ⟨g.append (by rw [r]; exact hC k (by omega)) (by rw [r]; exact g1), by rw [Top.run_add, r, r1]⟩

end Verif.Proofs
