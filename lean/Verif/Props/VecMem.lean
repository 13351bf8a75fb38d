import Verif.Proofs.VecMemProp
import Mathlib.Tactic.IntervalCases

/-!
# C25–C30: vector loads and stores, `vdup`, `getvl`
-/

namespace Verif.Props
open Verif Verif.Model Verif.Proofs

/-! ## C25 -/

/-- C25: a vector load transfers exactly `count` elements (all, or the requested length if smaller),
element `e` coming from its row/column address, zeroes the other lanes of the destination group, and
changes neither memory nor any other vector register. -/
theorem C25_vld (i : VMemInst) (k : Spec.PostInc) (hk : Form i k) (maxPhys : Nat) (s : MState) :
    ∃ s', i.vld maxPhys s = .ok s' ∧ s'.mem = s.mem ∧
      (∀ e < (access i maxPhys s).cap, Spec.groupNat i.T.bits s'.v i.vd e =
        if e < (access i maxPhys s).count then
          Spec.loadLE (i.T.bits / 8) s.mem ((access i maxPhys s).addr (Spec.lanes i.T.bits) e) else 0) ∧
      Spec.Frame i.vd (access i maxPhys s).regs s.v s'.v := by
  obtain ⟨s', h1, h2, h3, h4, -⟩ := vld_run i k hk maxPhys s
  exact ⟨s', h1, h2, h3, h4⟩

/-- A state whose memory byte at `a` is `a mod 256`, `x5 = 0x80000100`, `x6 = 3`. -/
def memExample : MState where
  x := fun r => if r = 5 then 0x80000100#32 else if r = 6 then 3#32 else 0
  v := fun _ => BitVec.allOnes 256
  mem := fun a => BitVec.ofNat 8 a

/-- `vld.b.lp.xx v4, x5, x6`. -/
def vldExample : VMemInst :=
  { T := .i8, vd := 4, rs1 := 5, rs2 := some 6, hasLength := true, hasStride := false, strip := false, postInc := true }

example : ∃ s', vldExample.vld 0x3fffff memExample = .ok s' ∧ Spec.groupNat 8 s'.v 4 2 = 2 ∧
    Spec.groupNat 8 s'.v 4 3 = 0 := by
  obtain ⟨s', h1, -, h3, -⟩ := C25_vld vldExample .length ⟨rfl, rfl, rfl⟩ 0x3fffff memExample
  exact ⟨s', h1, (h3 2 (by decide)).trans (by decide), (h3 3 (by decide)).trans (by decide)⟩

/-! ## C26 -/

/-- C26: a vector store writes exactly the first `count` lanes of its group, in order, at their
row/column addresses; every other byte and every register is unchanged. -/
theorem C26_vst (i : VMemInst) (hT : i.T.bits ≤ 32) (k : Spec.PostInc) (hk : Form i k) (maxPhys : Nat) (s : MState) :
    ∃ s', i.vst maxPhys s = .ok s' ∧ s'.v = s.v ∧
      Spec.Stores (access i maxPhys s).count (i.T.bits / 8) ((access i maxPhys s).addr (Spec.lanes i.T.bits))
        (Spec.groupNat i.T.bits s.v i.vd) s.mem s'.mem := by
  obtain ⟨s', h1, h2, h3, -⟩ := vst_run i false hT k hk maxPhys s
  exact ⟨s', h1, h2, h3⟩

/-- C26 for the quad store: each quarter of a register is one row. -/
theorem C26_vstq (i : VMemInst) (hT : i.T.bits ≤ 32) (hk : Form i .stride) (maxPhys : Nat) (s : MState) :
    ∃ s', i.vstq maxPhys s = .ok s' ∧ s'.v = s.v ∧
      Spec.Stores (access i maxPhys s).cap (i.T.bits / 8) ((access i maxPhys s).addr (Spec.lanes i.T.bits / 4))
        (Spec.groupNat i.T.bits s.v i.vd) s.mem s'.mem := by
  obtain ⟨s', h1, h2, h3, -⟩ := vst_run i true hT .stride hk maxPhys s
  refine ⟨s', ?_, h2, ?_⟩
  · rw [VMemInst.vstq, ← h1]
    rw [show ({ i with hasLength := false, hasStride := true } : VMemInst) = i by
      cases i; simp only [Form] at hk; simp [hk.1, hk.2.1]]
  · simpa [Spec.Access.count, access, hk.1] using h3

example : ∃ s', vldExample.vst 0x3fffff memExample = .ok s' ∧ (s'.mem 0x102).toNat = 255 ∧ s'.mem 0x103 = 3#8 := by
  obtain ⟨s', h1, -, h3, h4⟩ := C26_vst vldExample (by decide) .length ⟨rfl, rfl, rfl⟩ 0x3fffff memExample
  refine ⟨s', h1, (h4 2 (by decide) 0 (by decide) ?_).trans (by decide), (h3 0x103 ?_).trans (by decide)⟩
  · intro j h1 h2
    have : j < 3 := h2
    omega
  · intro j hj
    have : j < 3 := hj
    interval_cases j <;> decide

/-- `vstq.w.sp.xx v4, x5, x6`. -/
def vstqExample : VMemInst :=
  { T := .i32, vd := 4, rs1 := 5, rs2 := some 6, hasLength := false, hasStride := true, strip := true, postInc := true }

example : Form vstqExample .stride := ⟨rfl, rfl, rfl⟩

/-! ## C27 -/

/-- C27: storing a group and loading it back with the same shape and address into any group returns
the stored lanes (the others are zero), provided the stored elements do not overlap each other. -/
theorem C27_round_trip (i : VMemInst) (hT : i.T.bits ≤ 32) (k : Spec.PostInc) (hk : Form i k)
    (hp : i.postInc = false) (vd' : Nat) (maxPhys : Nat) (s : MState)
    (hsep : Spec.Separate (access i maxPhys s).count (i.T.bits / 8)
      ((access i maxPhys s).addr (Spec.lanes i.T.bits))) :
    ∃ s1 s2, i.vst maxPhys s = .ok s1 ∧ ({ i with vd := vd' } : VMemInst).vld maxPhys s1 = .ok s2 ∧
      ∀ e < (access i maxPhys s).cap, Spec.groupNat i.T.bits s2.v vd' e =
        if e < (access i maxPhys s).count then Spec.groupNat i.T.bits s.v i.vd e else 0 :=
  round_trip i hT k hk hp vd' maxPhys s hsep

/-- C27: with unit stride the elements never overlap, whatever the address, so a full store followed
by a full load copies the registers bit for bit. -/
theorem C27_copy (i : VMemInst) (hT : i.T.bits ≤ 32) (hk : Form i .unit)
    (hp : i.postInc = false) (vd' : Nat) (maxPhys : Nat) (s : MState) :
    ∃ s1 s2, i.vst maxPhys s = .ok s1 ∧ ({ i with vd := vd' } : VMemInst).vld maxPhys s1 = .ok s2 ∧
      ∀ r < (if i.strip then 4 else 1), s2.v (vd' + r) = s.v (i.vd + r) :=
  round_trip_copy i hT hk hp vd' maxPhys s

/-- `vst.h.s.xx v4, x5, x6`: three elements per row overlap, so stride 3 is outside `Separate`;
stride 16 is inside. -/
def strideExample : VMemInst :=
  { T := .i16, vd := 4, rs1 := 5, rs2 := some 6, hasLength := false, hasStride := true, strip := true, postInc := false }

example : Form strideExample .stride ∧
    Spec.Separate 64 2 ((access strideExample 0x3fffff
      { memExample with x := fun r => if r = 5 then 0x100#32 else 16#32 }).addr 16) := by
  refine ⟨⟨rfl, rfl, rfl⟩, ?_⟩
  intro i j hij hj
  show (256 + i / 16 * (16 * 2)) % 2 ^ 32 + i % 16 * 2 + 2 ≤ (256 + j / 16 * (16 * 2)) % 2 ^ 32 + j % 16 * 2 ∨
    (256 + j / 16 * (16 * 2)) % 2 ^ 32 + j % 16 * 2 + 2 ≤ (256 + i / 16 * (16 * 2)) % 2 ^ 32 + i % 16 * 2
  omega

example : Form { vldExample with rs2 := none, hasLength := false } .unit := ⟨rfl, rfl, rfl⟩

/-! ## C28 -/

/-- C28: a post-incrementing load replaces the base register by the effective base plus the number of
bytes of its form (nothing is added when no element is transferred); no other scalar register changes. -/
theorem C28_vld (i : VMemInst) (k : Spec.PostInc) (hk : Form i k) (maxPhys : Nat) (s : MState) :
    ∃ s', i.vld maxPhys s = .ok s' ∧ ∀ q, s'.x q =
      if i.postInc = true ∧ q = i.rs1 ∧ q ≠ 0 then
        BitVec.ofNat 32 ((access i maxPhys s).base + if 0 < (access i maxPhys s).count then
          k.bytes (access i maxPhys s).count (i.T.bits / 8) (access i maxPhys s).regs 1 (arg2 i s) else 0)
      else s.x q := by
  obtain ⟨s', h1, -, -, -, h5⟩ := vld_run i k hk maxPhys s
  exact ⟨s', h1, h5⟩

/-- C28 for stores. -/
theorem C28_vst (i : VMemInst) (hT : i.T.bits ≤ 32) (k : Spec.PostInc) (hk : Form i k) (maxPhys : Nat) (s : MState) :
    ∃ s', i.vst maxPhys s = .ok s' ∧ ∀ q, s'.x q =
      if i.postInc = true ∧ q = i.rs1 ∧ q ≠ 0 then
        BitVec.ofNat 32 ((access i maxPhys s).base + if 0 < (access i maxPhys s).count then
          k.bytes (access i maxPhys s).count (i.T.bits / 8) (access i maxPhys s).regs 1 (arg2 i s) else 0)
      else s.x q := by
  obtain ⟨s', h1, -, -, h5⟩ := vst_run i false hT k hk maxPhys s
  exact ⟨s', h1, h5⟩

/-- C28 for quad stores: four rows per register. -/
theorem C28_vstq (i : VMemInst) (hT : i.T.bits ≤ 32) (hk : Form i .stride) (maxPhys : Nat) (s : MState) :
    ∃ s', i.vstq maxPhys s = .ok s' ∧ ∀ q, s'.x q =
      if i.postInc = true ∧ q = i.rs1 ∧ q ≠ 0 then
        BitVec.ofNat 32 ((access i maxPhys s).base +
          (access i maxPhys s).regs * 4 * (arg2 i s * (i.T.bits / 8)))
      else s.x q := by
  obtain ⟨s', h1, -, -, h5⟩ := vst_run i true hT .stride hk maxPhys s
  refine ⟨s', ?_, ?_⟩
  · rw [VMemInst.vstq, ← h1]
    rw [show ({ i with hasLength := false, hasStride := true } : VMemInst) = i by
      cases i; simp only [Form] at hk; simp [hk.1, hk.2.1]]
  · intro q
    rw [h5 q]
    have hc : 0 < (access i maxPhys s).count := by
      simp only [access, Spec.Access.count, hk.1]
      cases i.strip <;> cases i.T <;> simp [Spec.Access.cap, Spec.lanes, CTy.bits]
    simp only [hc, if_true, Spec.PostInc.bytes]

/-- C28: after a `.p.x` load or store the base register holds the address just after the last byte of
the (contiguous) access: element `cap` of the old base is element 0 of the new one. -/
theorem C28_next (a : Spec.Access) (ha : a.stride = none) (hw : a.w = 8 ∨ a.w = 16 ∨ a.w = 32) (e : Nat) :
    a.addr (Spec.lanes a.w) (a.cap + e) =
      ({ a with base := (a.base + 32 * a.regs) % 2 ^ 32 } : Spec.Access).addr (Spec.lanes a.w) e := by
  obtain ⟨w, regs, len, st, base⟩ := a
  simp only at ha hw
  subst ha
  rcases hw with rfl | rfl | rfl <;>
    simp only [Spec.Access.addr, Spec.Access.cap, Spec.elemAddr, Spec.lanes, Option.getD_none, Nat.reduceDiv] <;>
    omega

example : ∃ s', vldExample.vld 0x3fffff memExample = .ok s' ∧ s'.x 5 = 0x103#32 ∧ s'.x 6 = 3#32 := by
  obtain ⟨s', h1, h2⟩ := C28_vld vldExample .length ⟨rfl, rfl, rfl⟩ 0x3fffff memExample
  exact ⟨s', h1, (h2 5).trans (by decide), (h2 6).trans (by decide)⟩

/-! ## C29 -/

/-- C29: `getvl` returns the largest number that exceeds neither the capacity of one register (four
when strip-mined) nor any of the requests. -/
theorem C29_getvl (T : CTy) (strip : Bool) (rs1 rs2 : Option (BitVec 32)) (m : Nat) :
    m ≤ (getVl T strip rs1 rs2).toNat ↔
      m ≤ (if strip then 4 else 1) * Spec.lanes T.bits ∧
      (∀ a, rs1 = some a → m ≤ a.toNat) ∧ (∀ a, rs2 = some a → m ≤ a.toNat) :=
  getVl_spec T strip rs1 rs2 m

example : (getVl .i16 true (some 100#32) none).toNat = 64 ∧ (getVl .i16 true (some 9#32) (some 7#32)).toNat = 7 := by
  decide

/-! ## C30 -/

/-- C30: `vdup` writes the scalar truncated to the lane width to every lane of its destination group
and changes nothing else. -/
theorem C30_vdup (T : CTy) (hT : T.bits ≤ 32) (strip : Bool) (vd : Nat) (x : BitVec 32) (rf : VRF) :
    ∃ rf', vdup T strip vd (if strip then 4 else 1) x rf = .ok rf' ∧
      (∀ k < (if strip then 4 else 1), ∀ e < Spec.lanes T.bits,
        Spec.lane T.signed T.bits (rf' (vd + k)) e = Spec.scalarElem T.signed T.bits x) ∧
      Spec.Frame vd (if strip then 4 else 1) rf rf' :=
  vdup_run T hT strip vd x rf

example : ∃ rf', vdup .i8 true 8 4 0x12345680#32 (fun _ => 0) = .ok rf' ∧ Spec.lane true 8 (rf' 11) 31 = -128 := by
  obtain ⟨rf', h1, h2, -⟩ := C30_vdup .i8 (by decide) true 8 0x12345680#32 (fun _ => 0)
  exact ⟨rf', h1, (h2 3 (by decide) 31 (by decide)).trans (by decide)⟩

end Verif.Props
