import Verif.Proofs.VecBlock
import Verif.Props.Footprint

/-!
# C99: vector instructions on the Renode block-list memory

`execRow` executes a vector instruction on one array of bytes, `execRowB` on the blocks handed over by Renode
(`Verif.Model.VecBlock`). `s.arch c` is the state `s` with its blocks read as one array. The bytes of a word's elements are
given by `Spec.Reads` and `Spec.Writes` (`Verif.Spec.Footprint`).
-/

namespace Verif.Props
open Verif Verif.Model Verif.Proofs
open Verif.Model.RenodeMem (construct flat)

/-- A memory built by the constructor from enough blocks of less than 2 GiB, each long enough, in units of one byte; it holds
the addresses `base` to `base + memSize - 1`. -/
structure Blocks (blockSize memSize supplied base : Nat) (c : RenodeMem.Cfg) (len : Nat → Nat) : Prop where
  built : construct blockSize memSize supplied base 1 = .ok c
  small : blockSize < 2 ^ 31
  fit : base + memSize + blockSize ≤ 2 ^ 64
  long : ∀ i < supplied, min blockSize (base + memSize - i * blockSize) ≤ len i

/-- C99: if every byte of the elements lies in the memory, a vector instruction on the blocks ends as on one array: the same
trap, registers and accumulators, and the blocks hold the bytes of the array. -/
theorem C99_inside {blockSize memSize supplied base : Nat} {c : RenodeMem.Cfg} {len : Nat → Nat}
    (hb : Blocks blockSize memSize supplied base c len) (maxPhys : Nat) (fresh : Nat → VReg) (junk : RenodeMem.Buf)
    (r : Row) (hr : r ∈ allRows) (w : BitVec 32) (hw : r.matches w = true) (s : BArch)
    (hin : ∀ q, Spec.Reads maxPhys r.sem w s.x q ∨ Spec.Writes maxPhys r.sem w s.x q → base ≤ q ∧ q < base + memSize)
    (t : Bool) (a : Arch) (h : execRow maxPhys fresh r w (s.arch c) = some (.ok (t, a))) :
    ∃ s', execRowB maxPhys fresh c len junk r w s = some (.ok (t, s')) ∧ s'.arch c = a := by
  obtain ⟨wf, e1, e2, -⟩ := RenodeMem.construct_wf hb.built hb.small hb.fit hb.long
  have h1 := (execRowB_eq wf maxPhys fresh junk r hr w hw s).1 (by unfold InBlocks; rw [e1, e2]; exact hin)
  rw [h] at h1
  revert h1
  cases execRowB maxPhys fresh c len junk r w s with
  | none => exact False.elim
  | some o =>
    cases o with
    | ub => exact False.elim
    | abort => exact False.elim
    | ok p => rintro ⟨f1, f2⟩; exact ⟨p.2, by rw [← show p.1 = t from f1], f2⟩

/-- C99: if some byte of the elements lies outside, the process ends. -/
theorem C99_outside {blockSize memSize supplied base : Nat} {c : RenodeMem.Cfg} {len : Nat → Nat}
    (hb : Blocks blockSize memSize supplied base c len) (maxPhys : Nat) (fresh : Nat → VReg) (junk : RenodeMem.Buf)
    (r : Row) (hr : r ∈ allRows) (w : BitVec 32) (hw : r.matches w = true) (s : BArch) (q : Nat)
    (hq : Spec.Reads maxPhys r.sem w s.x q ∨ Spec.Writes maxPhys r.sem w s.x q) (hout : ¬ (base ≤ q ∧ q < base + memSize)) :
    execRowB maxPhys fresh c len junk r w s = some .abort := by
  obtain ⟨wf, e1, e2, -⟩ := RenodeMem.construct_wf hb.built hb.small hb.fit hb.long
  exact (execRowB_eq wf maxPhys fresh junk r hr w hw s).2 (fun h => hout (by have := h q hq; rwa [e1, e2] at this))

/-- C99: what an instruction does on the blocks, it does on one array. -/
theorem C99_sound {blockSize memSize supplied base : Nat} {c : RenodeMem.Cfg} {len : Nat → Nat}
    (hb : Blocks blockSize memSize supplied base c len) (maxPhys : Nat) (fresh : Nat → VReg) (junk : RenodeMem.Buf)
    (r : Row) (hr : r ∈ allRows) (w : BitVec 32) (hw : r.matches w = true) (s s' : BArch) (t : Bool)
    (h : execRowB maxPhys fresh c len junk r w s = some (.ok (t, s'))) :
    execRow maxPhys fresh r w (s.arch c) = some (.ok (t, s'.arch c)) ∧
    ∀ q, Spec.Reads maxPhys r.sem w s.x q ∨ Spec.Writes maxPhys r.sem w s.x q → base ≤ q ∧ q < base + memSize := by
  obtain ⟨wf, e1, e2, -⟩ := RenodeMem.construct_wf hb.built hb.small hb.fit hb.long
  obtain ⟨h1, h2⟩ := execRowB_eq wf maxPhys fresh junk r hr w hw s
  by_cases hin : InBlocks maxPhys c r w s.x
  · refine ⟨?_, fun q hq => by have := hin q hq; rwa [e1, e2] at this⟩
    have h1 := h1 hin
    rw [h] at h1
    revert h1
    cases execRow maxPhys fresh r w (s.arch c) with
    | none => exact False.elim
    | some o =>
      cases o with
      | ub => exact False.elim
      | abort => exact False.elim
      | ok p => rintro ⟨f1, f2⟩; rw [show t = p.1 from f1, show s'.arch c = p.2 from f2]
  · rw [h2 hin] at h; cases h

/-- Executing decoded words one after the other on blocks; each load finds another content in its fresh buffer. -/
inductive RunsB (maxPhys : Nat) (fresh : Nat → VReg) (c : RenodeMem.Cfg) (len : Nat → Nat) : List (BitVec 32) → BArch → BArch → Prop
  | nil (s : BArch) : RunsB maxPhys fresh c len [] s s
  | cons {w : BitVec 32} {ws : List (BitVec 32)} {r : Row} {trap : Bool} {s s1 s2 : BArch} (junk : RenodeMem.Buf) (hd : Decodes w r)
      (he : execRowB maxPhys fresh c len junk r w s = some (.ok (trap, s1))) (h : RunsB maxPhys fresh c len ws s1 s2) :
      RunsB maxPhys fresh c len (w :: ws) s s2

/-- C99, for a sequence of vector instructions: what it does on the blocks, it does on one array. -/
theorem C99_program_sound {blockSize memSize supplied base : Nat} {c : RenodeMem.Cfg} {len : Nat → Nat}
    (hb : Blocks blockSize memSize supplied base c len) (maxPhys : Nat) (fresh : Nat → VReg) (ws : List (BitVec 32)) (s s' : BArch)
    (h : RunsB maxPhys fresh c len ws s s') : Runs maxPhys fresh ws (s.arch c) (s'.arch c) := by
  induction h with
  | nil => exact .nil _
  | cons junk hd he _ ih => exact .cons hd (C99_sound hb maxPhys fresh junk _ hd.1 _ hd.2.1 _ _ _ he).1 ih

/-- C99, for a sequence of vector instructions: if the bytes of its elements lie in the memory, it runs on the blocks as it
does on one array, whatever the fresh buffers hold. -/
theorem C99_program {blockSize memSize supplied base : Nat} {c : RenodeMem.Cfg} {len : Nat → Nat}
    (hb : Blocks blockSize memSize supplied base c len) (maxPhys : Nat) (fresh : Nat → VReg) (ws : List (BitVec 32)) (s : BArch)
    (a : Arch) (h : Runs maxPhys fresh ws (s.arch c) a)
    (hin : ∀ l₁ w l₂ r a1, ws = l₁ ++ w :: l₂ → Runs maxPhys fresh l₁ (s.arch c) a1 → Decodes w r →
      ∀ q, Spec.Reads maxPhys r.sem w a1.x q ∨ Spec.Writes maxPhys r.sem w a1.x q → base ≤ q ∧ q < base + memSize) :
    ∃ s', RunsB maxPhys fresh c len ws s s' ∧ s'.arch c = a := by
  generalize hs : s.arch c = a0 at h
  induction h generalizing s with
  | nil => exact ⟨s, .nil s, hs⟩
  | @cons w ws r trap a0 a1 a2 hd he h ih =>
    subst hs
    obtain ⟨s1, g1, g2⟩ := C99_inside hb maxPhys fresh (fun _ => 0) r hd.1 w hd.2.1 s
      (hin [] w ws r _ rfl (.nil _) hd) trap a1 he
    obtain ⟨s', g3, g4⟩ := ih s1 (fun l₁ w' l₂ r' b1 e hr' hd' q hq => by
      rw [g2] at hr'
      exact hin (w :: l₁) w' l₂ r' b1 (by rw [e]; rfl) (.cons hd he hr') hd' q hq) g2
    exact ⟨s', .cons _ hd g1 g3, g4⟩

/-- A memory of 4 MiB in blocks of 257 bytes. -/
theorem blocks257 : Blocks 0x101 0x400000 0x4000 0 ⟨1, 0x101, 0x101, 0, 0x400000, 0, 16321⟩ fun _ => 0x101 :=
  ⟨by decide +kernel, by decide, by decide, fun _ _ => Nat.min_le_left _ _⟩

/-- `vst.b.l.xx v8, x1, x2` there, on the bytes 0x100 to 0x102, the last two in another block than the first. -/
example (heap : RenodeMem.Heap) : ∃ r ∈ allRows, r.name = [.vst, .b, .l, .xx] ∧ r.matches 0x2420821f#32 = true ∧
    ∀ fresh junk, ∃ s', execRowB 0x3fffff fresh ⟨1, 0x101, 0x101, 0, 0x400000, 0, 16321⟩ (fun _ => 0x101) junk r 0x2420821f#32
      (footArch.blocks heap) = some (.ok (false, s')) := by
  have h1 : (allRows.any fun r => r.name == [.vst, .b, .l, .xx] && r.matches 0x2420821f#32 &&
    r.sem == .vst .i8 true false false true false) = true := by decide +kernel
  simp only [List.any_eq_true, Bool.and_eq_true, beq_iff_eq] at h1
  obtain ⟨r, hr, ⟨hn, hm⟩, hs⟩ := h1
  refine ⟨r, hr, hn, hm, fun fresh junk => ?_⟩
  obtain ⟨⟨hT, k, hk⟩, he⟩ := exec_vst 0x3fffff fresh hr hm hs ((footArch.blocks heap).arch ⟨1, 0x101, 0x101, 0, 0x400000, 0, 16321⟩)
  obtain ⟨m, h1, -⟩ := vst_run _ false hT k hk 0x3fffff (memState ((footArch.blocks heap).arch ⟨1, 0x101, 0x101, 0, 0x400000, 0, 16321⟩))
  rw [show VMemInst.vst _ _ _ = _ from h1] at he
  obtain ⟨s', h, -⟩ := C99_inside blocks257 0x3fffff fresh junk r hr _ hm (footArch.blocks heap) (by
    rw [hs]
    rintro q (hq | hq)
    · exact hq.elim
    · have ha : Spec.accessOf 0x3fffff .i8 true false false 0x2420821f#32 footArch.x = ⟨8, 1, some 3, none, 0x100⟩ := by
        simp only [Spec.accessOf, Spec.argScalar, Spec.addrScalar, Spec.bitsAt, Spec.effBase, footArch]; rfl
      change (Spec.accessOf 0x3fffff .i8 true false false 0x2420821f#32 footArch.x).Touches (Spec.lanes 8) q at hq
      rw [ha] at hq
      obtain ⟨e, he, h1, h2⟩ := hq
      simp only [Spec.Access.count, Spec.Access.cap, Spec.lanes, Spec.Access.addr, Spec.elemAddr, Option.getD] at he h1 h2
      omega) _ _ he
  exact ⟨s', h⟩

/-- The registers: the address 0x3ffffd in x1 and the count 1 in x2. -/
def lastRegs : BArch := ⟨fun n => if n = 1 then 0x3ffffd else if n = 2 then 1 else 0, fun _ => 0, fun _ _ => 0, zeroArch.acc, zeroArch.dw⟩

/-- C99: on a memory of 4 MiB, `vld.w.l.xx v8, x1, x2` with one element at 0x3ffffd ends the process, although the address is
one of the machine's (its largest is 0x3fffff). -/
theorem C99_last_bytes : ∃ c len, Blocks (4 * 2 ^ 20) (4 * 2 ^ 20) 1 0 c len ∧
    ∃ r ∈ allRows, r.name = [.vld, .w, .l, .xx] ∧ r.matches 0x0420a21f#32 = true ∧
      ∀ fresh junk, execRowB 0x3fffff fresh c len junk r 0x0420a21f#32 lastRegs = some .abort := by
  have hb : Blocks (4 * 2 ^ 20) (4 * 2 ^ 20) 1 0 ⟨1, 4 * 2 ^ 20, 4 * 2 ^ 20, 0, 4 * 2 ^ 20, 0, 1⟩ fun _ => 4 * 2 ^ 20 :=
    ⟨by decide +kernel, by decide, by decide, fun _ _ => Nat.min_le_left _ _⟩
  have h1 : (allRows.any fun r => r.name == [.vld, .w, .l, .xx] && r.matches 0x0420a21f#32 &&
    r.sem == .vld .i32 true false false true false) = true := by decide +kernel
  simp only [List.any_eq_true, Bool.and_eq_true, beq_iff_eq] at h1
  obtain ⟨r, hr, ⟨hn, hm⟩, hs⟩ := h1
  refine ⟨_, _, hb, r, hr, hn, hm, fun fresh junk => ?_⟩
  refine C99_outside hb 0x3fffff fresh junk r hr _ hm lastRegs 0x400000 (Or.inl ?_) (by decide)
  rw [hs]
  have ha : Spec.accessOf 0x3fffff .i32 true false false 0x0420a21f#32 lastRegs.x = ⟨32, 1, some 1, none, 0x3ffffd⟩ := by
    simp only [Spec.accessOf, Spec.argScalar, Spec.addrScalar, Spec.bitsAt, Spec.effBase, lastRegs]; rfl
  show (Spec.accessOf 0x3fffff .i32 true false false 0x0420a21f#32 lastRegs.x).Touches (Spec.lanes 32) _
  rw [ha]
  exact ⟨0, by decide, by decide, by decide⟩

end Verif.Props
