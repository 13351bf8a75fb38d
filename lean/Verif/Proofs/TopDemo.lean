import Verif.Proofs.TopHist

/-!
# A small program for the examples

```
0x00  addi a0, a0, 1
0x04  sb   a0, 0x100(zero)
0x08  j    0x00
```
with the code area below 0x100. The semantics also knows `mpause`, for the counterexamples.
-/

namespace Verif.Proofs.Top

open Verif.Model.Top
open Verif.Spec.Program (Machine Sem Ev Stop word ebreak next run TameAt Tame)

/-- The machine's only register is `a0`. -/
def demoSem : Sem Nat where
  inst w pc m :=
    if w = 0x00150513#32 then ({ m with regs := m.regs + 1 }, [])
    else if w = 0x10a00023#32 then
      ({ m with mem := fun q => if q = 0x100 then BitVec.ofNat 8 m.regs else m.mem q }, [])
    else if w = 0xff9ff06f#32 then ({ m with pc := BitVec.ofNat 32 (pc - 8) }, [])
    else if w = 0x08000073#32 then (m, [.userRequest])
    else (m, [])

def demoBytes : List (BitVec 8) := [0x13, 0x05, 0x15, 0x00, 0x23, 0x00, 0xa0, 0x10, 0x6f, 0xf0, 0x9f, 0xff]

def demoMem : Nat → BitVec 8 := fun q => demoBytes.getD q 0

def demo : Machine Nat := ⟨0, demoMem, 0⟩

def demoEnv : Env Nat := ⟨demoSem, fun _ _ => true⟩

/-- The code area. -/
def demoC : Nat → Bool := fun a => decide (a < 0x100)

/-- The loop in the program: the pc stays on the three instructions and the code does not change. -/
structure DemoInv (m : Machine Nat) : Prop where
  pc : m.pc = 0 ∨ m.pc = 4 ∨ m.pc = 8
  mem : ∀ q, q < 0x100 → m.mem q = demoMem q

theorem DemoInv.word {m : Machine Nat} (h : DemoInv m) (a : Nat) (ha : a < 0xf0) :
    Spec.Program.word m.mem a = Spec.Program.word demoMem a := by
  unfold Spec.Program.word
  rw [h.mem _ (by omega), h.mem _ (by omega), h.mem _ (by omega), h.mem _ (by omega)]

theorem DemoInv.next {m : Machine Nat} (h : DemoInv m) :
    DemoInv (Spec.Program.next demoSem m).1 ∧ (Spec.Program.next demoSem m).2 = [] ∧ TameAt demoSem demoC m := by
  have w0 : Spec.Program.word demoMem 0 = 0x00150513#32 := by decide
  have w4 : Spec.Program.word demoMem 4 = 0x10a00023#32 := by decide
  have w8 : Spec.Program.word demoMem 8 = 0xff9ff06f#32 := by decide
  rcases h.pc with e | e | e
  · have hw : Spec.Program.word m.mem m.pc.toNat = 0x00150513#32 := by rw [e, h.word _ (by decide)]; exact w0
    have hn : Spec.Program.next demoSem m = ({ m with pc := m.pc + 4, regs := m.regs + 1 }, []) := by
      unfold Spec.Program.next
      rw [effect_inst _ _ _ (by rw [hw]; decide)]; simp only [hw]; simp [demoSem]
    refine ⟨?_, by rw [hn], tameAt_inst (by rw [hw]; decide) ?_ ?_ ?_⟩
    · rw [hn]; exact ⟨by simp [e], h.mem⟩
    · rw [e]; decide
    · rw [e]; decide
    · intro mem' hm'
      simp only [hw]
      simp [demoSem]
      funext q
      split
      · rfl
      · next hq => exact hm' q (by simpa using hq)
  · have hw : Spec.Program.word m.mem m.pc.toNat = 0x10a00023#32 := by rw [e, h.word _ (by decide)]; exact w4
    have hn : Spec.Program.next demoSem m = ({ m with
        pc := m.pc + 4, mem := fun q => if q = 0x100 then BitVec.ofNat 8 m.regs else m.mem q }, []) := by
      unfold Spec.Program.next
      rw [effect_inst _ _ _ (by rw [hw]; decide)]; simp only [hw]; simp [demoSem]
    refine ⟨?_, by rw [hn], tameAt_inst (by rw [hw]; decide) ?_ ?_ ?_⟩
    · rw [hn]
      refine ⟨by simp [e], fun q hq => ?_⟩
      dsimp only
      rw [if_neg (by omega)]; exact h.mem q hq
    · rw [e]; decide
    · rw [e]; decide
    · intro mem' hm'
      simp only [hw]
      simp [demoSem]
      funext q
      split
      · next hq => subst hq; rfl
      · split
        · rfl
        · next hq => exact hm' q (by simpa using hq)
  · have hw : Spec.Program.word m.mem m.pc.toNat = 0xff9ff06f#32 := by rw [e, h.word _ (by decide)]; exact w8
    have hn : Spec.Program.next demoSem m = ({ m with pc := 0 }, []) := by
      unfold Spec.Program.next
      rw [effect_inst _ _ _ (by rw [hw]; decide)]; simp only [hw]; simp [demoSem, e]
    refine ⟨?_, by rw [hn], tameAt_inst (by rw [hw]; decide) ?_ ?_ ?_⟩
    · rw [hn]; exact ⟨Or.inl rfl, h.mem⟩
    · rw [e]; decide
    · rw [e]; decide
    · intro mem' hm'
      simp only [hw]
      simp [demoSem]
      funext q
      split
      · rfl
      · next hq => exact hm' q (by simpa using hq)

theorem demo_run (k : Nat) : DemoInv (run demoSem k demo) := by
  induction k with
  | zero => exact ⟨Or.inl rfl, fun _ _ => rfl⟩
  | succ k ih => rw [run_succ]; exact ih.next.1

theorem demo_tame : Tame demoSem demoC demo := fun k => (demo_run k).next.2.2

end Verif.Proofs.Top
