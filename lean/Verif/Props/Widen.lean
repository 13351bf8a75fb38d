import Verif.Proofs.PropAux

/-!
# C08, C09, C20: widening and packed instructions

`T` is the narrow lane type, `T.wide` the type of twice the width.  Source lane `m` of source
register `k` produces lane `m / 2` of destination register `vd + (m % 2) * n + k`: the results for
even lanes fill the first half of the destination group, those for odd lanes the second half (C20).
-/

namespace Verif.Props
open Verif Verif.Model Verif.Proofs

/-- C20: every widening instruction uses the widening layout. -/
theorem C20_layout (k : WidK) (T : CTy) (hb : T.bits ≤ 16) (i : VInst) (rf : VRF) (g : Int → Int → Int)
    (hel : ∀ a b, T.InRange a → T.InRange b →
      k.fn T.wide ⟨T, a⟩ ⟨T, b⟩ = .ok ⟨T.wide, g a b⟩ ∧ T.wide.InRange (g a b))
    (a1 : ∀ r < 2, Spec.NoOverlap (i.vd + r * i.n) i.vs1 i.n)
    (a2 : ∀ r < 2, i.op2.NoOverlap (i.vd + r * i.n) i.n) :
    ∃ rf', (VOp.wid k T.wide T).run i rf = .ok rf' ∧
      Spec.WideLayout T.signed T.bits i.n i.vd i.vs1 i.op2 g rf rf' := by
  obtain ⟨rf', h1, h2, h3⟩ := wid_run k T hb i rf g hel a1 a2
  refine ⟨rf', h1, ?_, by rw [Nat.mul_comm]; exact h3⟩
  intro j hj e he
  have hl := lanes_wide T hb
  have x0 := h2 j hj (2 * e) (by omega)
  have x1 := h2 j hj (2 * e + 1) (by omega)
  have e0 : 2 * e % 2 = 0 := by omega
  have e1 : (2 * e + 1) % 2 = 1 := by omega
  have e2 : 2 * e / 2 = e := by omega
  have e3 : (2 * e + 1) / 2 = e := by omega
  rw [e0, e2, Nat.zero_mul, Nat.add_zero] at x0
  rw [e1, e3, Nat.one_mul] at x1
  exact ⟨x0, x1⟩

/-- C08: `vaddw` is the exact sum at double width. -/
theorem C08_vaddw (T : CTy) (hb : T.bits ≤ 16) (i : VInst) (rf : VRF)
    (a1 : ∀ r < 2, Spec.NoOverlap (i.vd + r * i.n) i.vs1 i.n)
    (a2 : ∀ r < 2, i.op2.NoOverlap (i.vd + r * i.n) i.n) :
    ∃ rf', (VOp.wid .addw T.wide T).run i rf = .ok rf' ∧
      Spec.WideLayout T.signed T.bits i.n i.vd i.vs1 i.op2 (fun a b => a + b) rf rf' := by
  refine C20_layout .addw T hb i rf _ (fun a b ha hb' => ⟨vAddw_ok T hb a b ha hb', ?_⟩) a1 a2
  cases T <;> first | (exfalso; revert hb; decide) |
    (range_split; omega)

/-- C08: `vsubw` is the exact difference at double width; on unsigned lanes a negative difference is
represented modulo `2^(2*width)`. -/
theorem C08_vsubw (T : CTy) (hb : T.bits ≤ 16) (i : VInst) (rf : VRF)
    (a1 : ∀ r < 2, Spec.NoOverlap (i.vd + r * i.n) i.vs1 i.n)
    (a2 : ∀ r < 2, i.op2.NoOverlap (i.vd + r * i.n) i.n) :
    ∃ rf', (VOp.wid .subw T.wide T).run i rf = .ok rf' ∧
      Spec.WideLayout T.signed T.bits i.n i.vd i.vs1 i.op2
        (fun a b => if T.signed then a - b else (a - b) % 2 ^ (2 * T.bits)) rf rf' := by
  refine C20_layout .subw T hb i rf _ (fun a b ha hb' => ?_) a1 a2
  have h := vsubw_aux T hb a b ha hb'
  have e : Spec.wrap T.signed (2 * T.bits) (a - b) =
      if T.signed then a - b else (a - b) % 2 ^ (2 * T.bits) := by
    by_cases hs : T.signed = true
    · obtain ⟨-, -, hw, hsg⟩ := wide_size T hb
      rw [if_pos hs, ← hw, ← hsg, wrap_spec]
      apply wrap_of_inRange
      clear h
      cases T <;> first | (exfalso; revert hb; decide) | (exfalso; revert hs; decide) |
        (range_split; omega)
    · simp [Spec.wrap, hs]
  rwa [e] at h

/-- C08: `vmulw` is the exact product at double width. -/
theorem C08_vmulw (T : CTy) (hb : T.bits ≤ 16) (i : VInst) (rf : VRF)
    (a1 : ∀ r < 2, Spec.NoOverlap (i.vd + r * i.n) i.vs1 i.n)
    (a2 : ∀ r < 2, i.op2.NoOverlap (i.vd + r * i.n) i.n) :
    ∃ rf', (VOp.wid .mulw T.wide T).run i rf = .ok rf' ∧
      Spec.WideLayout T.signed T.bits i.n i.vd i.vs1 i.op2 (fun a b => a * b) rf rf' :=
  C20_layout .mulw T hb i rf _ (fun a b ha hb' => ⟨vMulw_ok T hb a b ha hb', mul_inRange T (by omega) a b ha hb'⟩) a1 a2

/-- C08: `vacc` adds each narrow element to its wide accumulator lane modulo the wide width; the
accumulators are laid out like a widening destination. -/
theorem C08_vacc (T : CTy) (hb : T.bits ≤ 16) (i : VInst) (rf : VRF)
    (a1 : ∀ r < 2, ∀ s < 2, Spec.NoOverlap (i.vd + r * i.n) (i.vs1 + s * i.n) i.n)
    (a2 : ∀ r < 2, i.op2.NoOverlap (i.vd + r * i.n) i.n) :
    ∃ rf', (VOp.acc T.wide T).run i rf = .ok rf' ∧
      (∀ k < i.n, ∀ e < Spec.lanes (2 * T.bits),
        Spec.lane T.signed (2 * T.bits) (rf' (i.vd + k)) e =
          Spec.wrap T.signed (2 * T.bits) (Spec.lane T.signed (2 * T.bits) (rf (i.vs1 + k)) e +
            i.op2.elem T.signed T.bits rf k (2 * e)) ∧
        Spec.lane T.signed (2 * T.bits) (rf' (i.vd + i.n + k)) e =
          Spec.wrap T.signed (2 * T.bits) (Spec.lane T.signed (2 * T.bits) (rf (i.vs1 + i.n + k)) e +
            i.op2.elem T.signed T.bits rf k (2 * e + 1))) ∧
      Spec.Frame i.vd (2 * i.n) rf rf' := by
  obtain ⟨rf', h1, h2, h3⟩ := acc_run T hb i rf a1 a2
  refine ⟨rf', h1, ?_, by rw [Nat.mul_comm]; exact h3⟩
  intro j hj e he
  have hl := lanes_wide T hb
  have x0 := h2 j hj (2 * e) (by omega)
  have x1 := h2 j hj (2 * e + 1) (by omega)
  have e0 : 2 * e % 2 = 0 := by omega
  have e1 : (2 * e + 1) % 2 = 1 := by omega
  have e2 : 2 * e / 2 = e := by omega
  have e3 : (2 * e + 1) / 2 = e := by omega
  rw [e0, e2, Nat.zero_mul, Nat.add_zero, Nat.add_zero] at x0
  rw [e1, e3, Nat.one_mul] at x1
  exact ⟨x0, x1⟩

/-- C09: `vpadd`: each wide lane is the exact sum of the two narrow lanes at its position. -/
theorem C09_vpadd (T : CTy) (hb : T.bits ≤ 16) (i : VInst) (rf : VRF)
    (a1 : Spec.NoOverlap i.vd i.vs1 i.n) :
    ∃ rf', (VOp.packed .addw T.wide T).run i rf = .ok rf' ∧
      (∀ k < i.n, ∀ e < Spec.lanes (2 * T.bits),
        Spec.lane T.signed (2 * T.bits) (rf' (i.vd + k)) e =
          Spec.lane T.signed T.bits (rf (i.vs1 + k)) (2 * e) +
            Spec.lane T.signed T.bits (rf (i.vs1 + k)) (2 * e + 1)) ∧
      Spec.Frame i.vd i.n rf rf' := by
  refine packed_run .addw T hb i rf (fun a b => a + b) (fun a b ha hb' => ⟨vAddw_ok T hb a b ha hb', ?_⟩) a1
  cases T <;> first | (exfalso; revert hb; decide) |
    (range_split; omega)

/-- C09: `vpsub`: the exact difference of the two narrow lanes (modulo `2^(2*width)` if unsigned). -/
theorem C09_vpsub (T : CTy) (hb : T.bits ≤ 16) (i : VInst) (rf : VRF)
    (a1 : Spec.NoOverlap i.vd i.vs1 i.n) :
    ∃ rf', (VOp.packed .subw T.wide T).run i rf = .ok rf' ∧
      (∀ k < i.n, ∀ e < Spec.lanes (2 * T.bits),
        Spec.lane T.signed (2 * T.bits) (rf' (i.vd + k)) e =
          Spec.wrap T.signed (2 * T.bits) (Spec.lane T.signed T.bits (rf (i.vs1 + k)) (2 * e) -
            Spec.lane T.signed T.bits (rf (i.vs1 + k)) (2 * e + 1))) ∧
      Spec.Frame i.vd i.n rf rf' :=
  packed_run .subw T hb i rf (fun a b => Spec.wrap T.signed (2 * T.bits) (a - b))
    (fun a b ha hb' => vsubw_aux T hb a b ha hb') a1

/-! ## Concrete instances -/

def rf3 : VRF := fun q => BitVec.ofNat 256 (q * 0x0123456789abcdef0123456789abcdef0123456789abcdef0123456789abcdef)

/-- A strip-mined `vmulw.h`: the odd lane 3 of source register 1 ends in lane 1 of register `vd+4+1`. -/
example : ∃ rf', (VOp.wid .mulw .i16 .i8).run ⟨16, 0, .vreg 4, true⟩ rf3 = .ok rf' ∧
    Spec.lane true 16 (rf' 21) 1 = 9520 := by
  obtain ⟨rf', h1, h2, h3⟩ := C08_vmulw .i8 (by decide) ⟨16, 0, .vreg 4, true⟩ rf3 (by decide)
    (by intro r hr; show Spec.NoOverlap _ _ _; revert r; decide)
  exact ⟨rf', h1, (h2 1 (by decide) 1 (by decide)).2.trans (by decide)⟩

/-- The hypotheses of `C08_vacc` hold for an in-place accumulation. -/
example : ∃ rf', (VOp.acc .u32 .u16).run ⟨8, 8, .vreg 16, true⟩ rf3 = .ok rf' ∧ rf' 16 = rf3 16 := by
  obtain ⟨rf', h1, h2, h3⟩ := C08_vacc .u16 (by decide) ⟨8, 8, .vreg 16, true⟩ rf3
    (by decide)
    (by intro r hr; show Spec.NoOverlap _ _ _; revert r; decide)
  exact ⟨rf', h1, h3 16 (by decide)⟩

end Verif.Props
