import Verif.Proofs.Counters
import Verif.Props.RunControl
import Mathlib.Algebra.BigOperators.Group.Finset.Piecewise
import Mathlib.Data.Fintype.Basic

/-!
# C98: the performance counters

`execAllC env opc ops s zero` are the counters after the session `ops` on a new simulator: cycles, instructions, and one
counter per opcode. `opc` gives the opcode of a word; it is arbitrary.
-/

namespace Verif.Props
open Verif Verif.Model.Top Verif.Model.Counters Verif.Proofs.Top Verif.Proofs.Counters Verif.Spec.Counters
open Verif.Spec.Program (Machine Sem Ev Stop word ebreak next run TameAt Tame)

variable {σ κ : Type} [DecidableEq κ]

/-- C98 for legal sessions (missing: the calls excluded by `LegalAll`, where the program itself is disturbed, see
`C44_overlap` to `C47_write_pc`). The session executes the first `j` instructions of the undisturbed program; each opcode
counter shows how many of them have that opcode, that of `ebreak` one more for each stop at a breakpoint; instructions and
cycles are the total. -/
theorem C98_counters_partial (env : Env σ) (C : Nat → Bool) (m0 : Machine σ) (ht : Tame env.sem C m0) (ops : List Op)
    (hl : LegalAll env C ops (fresh m0)) (opc : BitVec 32 → κ) :
    ∃ j s hits c, execAll env ops (fresh m0) = .ok (s, hits) ∧ execAllC env opc ops (fresh m0) zero = .ok c ∧
      s.m.pc = (run env.sem j m0).pc ∧ s.m.regs = (run env.sem j m0).regs ∧
      (∀ o, o ≠ opc ebreak → c.ops o = ofKind opc o (words env.sem m0 j)) ∧
      c.ops (opc ebreak) = ofKind opc (opc ebreak) (words env.sem m0 j) + hits ∧
      c.insts = j + hits ∧ c.cycles = j + hits := by
  obtain ⟨j, s, hits, c, e, hg, ec, h⟩ := execAllC_sim opc ops zero (good_fresh ht) hl
  have hlen : (words env.sem m0 j ++ List.replicate hits ebreak).length = j + hits := by
    rw [List.length_append, words_length, List.length_replicate]
  refine ⟨j, s, hits, c, e, ec, hg.rel.pc, hg.rel.regs, fun o ho => ?_, ?_, ?_, ?_⟩
  · rw [h.ops, ofKind_append]
    have : ofKind opc o (List.replicate hits ebreak) = 0 := by
      unfold ofKind
      rw [List.length_eq_zero_iff, List.filter_eq_nil_iff]
      intro w hw
      rw [List.eq_of_mem_replicate hw]
      simpa using fun h => ho h.symm
    rw [this]; simp [zero]
  · rw [h.ops, ofKind_append]
    have : ofKind opc (opc ebreak) (List.replicate hits ebreak) = hits := by
      unfold ofKind
      rw [List.filter_eq_self.2, List.length_replicate]
      intro w hw
      rw [List.eq_of_mem_replicate hw]; simp
    rw [this]; simp [zero]
  · rw [h.insts, hlen]; simp [zero]
  · rw [h.cycles, hlen]; simp [zero]

/-- C98, for any session that has no undefined behaviour, legal or not: cycles and instructions are equal, and the opcode
counters add up to them. -/
theorem C98_sum [Fintype κ] (env : Env σ) (opc : BitVec 32 → κ) (ops : List Op) (m0 : Machine σ) (s : St σ) (hits : Nat)
    (h : execAll env ops (fresh m0) = .ok (s, hits)) :
    ∃ c, execAllC env opc ops (fresh m0) zero = .ok c ∧ c.cycles = c.insts ∧ (∑ o, c.ops o) = c.insts ∧
      c.insts = s.instret := by
  obtain ⟨l, c, e, ha, hi⟩ := execAllC_adds env opc ops (fresh m0) s hits zero h
  refine ⟨c, e, by rw [ha.cycles, ha.insts]; rfl, ?_, by rw [ha.insts, hi]; rfl⟩
  have hs : ∀ l : List (BitVec 32), (∑ o, ofKind opc o l) = l.length := by
    intro l
    induction l with
    | nil => simp [ofKind]
    | cons w l ih =>
      have : ∀ o, ofKind opc o (w :: l) = ofKind opc o [w] + ofKind opc o l := fun o => ofKind_append opc o [w] l
      simp only [this]
      rw [Finset.sum_add_distrib, ih]
      have h1 : ∀ o, ofKind opc o [w] = if o = opc w then 1 else 0 := by
        intro o
        unfold ofKind
        by_cases h : o = opc w
        · subst h; simp
        · rw [if_neg h, List.filter_cons_of_neg (by simpa using fun e => h e.symm)]; rfl
      simp only [h1]
      rw [Finset.sum_ite_eq' Finset.univ (opc w), if_pos (Finset.mem_univ _)]
      simp; omega
  simp only [ha.ops, ha.insts]
  rw [Finset.sum_add_distrib, hs]
  simp [zero]

/-- C98: the counters never go back, and a step or run of a halted core that executes is counted. -/
theorem C98_monotone (env : Env σ) (opc : BitVec 32 → κ) (op : Op) (s s' : St σ) (c : Counters κ)
    (h : exec env op s = .ok s') :
    c.cycles ≤ (execC env opc op s c).cycles ∧ c.insts ≤ (execC env opc op s c).insts ∧
      (∀ o, c.ops o ≤ (execC env opc op s c).ops o) ∧
      (op.executes = false → execC env opc op s c = c) := by
  obtain ⟨l, ha, -⟩ := execC_adds env opc op s s' c h
  refine ⟨by rw [ha.cycles]; omega, by rw [ha.insts]; omega, fun o => by rw [ha.ops]; omega, fun he => ?_⟩
  cases op <;> first | rfl | cases he

/-- C98: `minstret` and `minstreth` together show the counter modulo 2^64. -/
theorem C98_csr (v : Nat) : (csrHigh v ++ csrLow v).toNat = v % 2 ^ 64 := by
  unfold csrHigh csrLow
  rw [BitVec.toNat_append, BitVec.toNat_ofNat, BitVec.toNat_ofNat, ← Nat.shiftLeft_add_eq_or_of_lt (Nat.mod_lt _ (by decide)),
    Nat.shiftLeft_eq]
  omega

/-- C98 for counters of 64 bits that wrap: what they show after any session still adds up modulo 2^64. -/
theorem C98_wrap [Fintype κ] (env : Env σ) (opc : BitVec 32 → κ) (ops : List Op) (m0 : Machine σ) (s : St σ) (hits : Nat)
    (h : execAll env ops (fresh m0) = .ok (s, hits)) :
    ∃ c, execAllC env opc ops (fresh m0) zero = .ok c ∧ c.cycles % 2 ^ 64 = c.insts % 2 ^ 64 ∧
      (∑ o, c.ops o % 2 ^ 64) % 2 ^ 64 = c.insts % 2 ^ 64 ∧ (csrHigh c.insts ++ csrLow c.insts).toNat = s.instret % 2 ^ 64 := by
  obtain ⟨c, e, h1, h2, h3⟩ := C98_sum env opc ops m0 s hits h
  exact ⟨c, e, by rw [h1], by rw [← Finset.sum_nat_mod, h2], by rw [C98_csr, h3]⟩

/-- The kinds of the demonstration program. -/
inductive DemoOp where
  | addi | sb | jal | ebreak | other
deriving DecidableEq

instance : Fintype DemoOp := ⟨{.addi, .sb, .jal, .ebreak, .other}, fun x => by cases x <;> decide⟩

def demoOpc (w : BitVec 32) : DemoOp :=
  if w = 0x00150513#32 then .addi else if w = 0x10a00023#32 then .sb else if w = 0xff9ff06f#32 then .jal
  else if w = 0x00100073#32 then .ebreak else .other

/-- The session of the examples (a breakpoint on the store, a run into it, a run of two more instructions) counts two
`addi`, a store and a jump as executed, and one `ebreak` the program does not contain. -/
example : (match execAllC demoEnv demoOpc demoOps (fresh demo) zero with
    | .ok c => decide (c.ops .addi = 2 ∧ c.ops .sb = 1 ∧ c.ops .jal = 1 ∧ c.ops .ebreak = 1 ∧ c.ops .other = 0 ∧
        c.insts = 5 ∧ c.cycles = 5)
    | _ => false) = true := by decide +kernel

example : ∃ j s hits c, execAll demoEnv demoOps (fresh demo) = .ok (s, hits) ∧
    execAllC demoEnv demoOpc demoOps (fresh demo) zero = .ok c ∧
      s.m.pc = (run demoSem j demo).pc ∧ s.m.regs = (run demoSem j demo).regs ∧
      (∀ o, o ≠ demoOpc ebreak → c.ops o = ofKind demoOpc o (words demoSem demo j)) ∧
      c.ops (demoOpc ebreak) = ofKind demoOpc (demoOpc ebreak) (words demoSem demo j) + hits ∧
      c.insts = j + hits ∧ c.cycles = j + hits :=
  C98_counters_partial demoEnv demoC demo demo_tame demoOps demo_legal demoOpc

example : ∃ c, execAllC demoEnv demoOpc demoOps (fresh demo) zero = .ok c ∧ c.cycles = c.insts ∧
    (∑ o, c.ops o) = c.insts := by
  obtain ⟨_, s, hits, _, e, -⟩ := C98_counters_partial demoEnv demoC demo demo_tame demoOps demo_legal demoOpc
  obtain ⟨c, h1, h2, h3, -⟩ := C98_sum demoEnv demoOpc demoOps demo s hits e
  exact ⟨c, h1, h2, h3⟩

/-- The counters are not those of the undisturbed program: the same four instructions executed without the breakpoint are
counted as four, and a program that reads `minstret` sees the difference. -/
theorem C98_breakpoint_counted :
    (match execAllC demoEnv demoOpc [.setBp 4, .run 10, .run 2] (fresh demo) zero,
        execAllC demoEnv demoOpc [.run 4] (fresh demo) zero with
      | .ok c, .ok c' => decide (csrLow c.insts = 5 ∧ csrLow c'.insts = 4)
      | _, _ => false) = true ∧
    (match execAll demoEnv [.setBp 4, .run 10, .run 2, .clearBp 4] (fresh demo), execAll demoEnv [.run 4] (fresh demo) with
      | .ok (s, _), .ok (s', _) => decide (s.m.pc = s'.m.pc ∧ s.m.regs = s'.m.regs)
      | _, _ => false) = true := by
  constructor <;> decide +kernel

end Verif.Props
