import Verif.Proofs.SpecRange

/-!
# C12–C16: shifts and multiplications

See `Verif/Props/Arith.lean` for the reading of the statements.
-/

namespace Verif.Props
open Verif Verif.Model Verif.Proofs

/-- C12: `vsll` multiplies by `2^(amount mod width)`, modulo `2^width`. -/
theorem C12_vsll (T : CTy) (hs : T.signed = false) (hb : T.bits ≤ 32) (i : VInst) (rf : VRF)
    (a1 : Spec.NoOverlap i.vd i.vs1 i.n) (a2 : i.op2.NoOverlap i.vd i.n) :
    ∃ rf', (VOp.bin .sll T).run i rf = .ok rf' ∧
      Spec.Lanewise false T.bits false T.bits i.n i.vd i.vs1 i.op2
        (fun a b => (a * 2 ^ (b % T.bits).toNat) % 2 ^ T.bits) rf rf' := by
  have h := bin_run_fn .sll T hb i rf _ (fun a b ha hb' => vSll_ok T hs hb a b ha)
    (fun a b ha hb' => by have := specWrap_inRange T (a * 2 ^ (b % T.bits).toNat); rwa [hs] at this) a1 a2
  simp only [BinK.dstTy, hs] at h
  simpa only [Spec.wrap, Bool.false_eq_true, if_false] using h

/-- C12: `vsra` (signed lanes) is the floor quotient by `2^(amount mod width)`. -/
theorem C12_vsra (T : CTy) (hs : T.signed = true) (hb : T.bits ≤ 32) (i : VInst) (rf : VRF)
    (a1 : Spec.NoOverlap i.vd i.vs1 i.n) (a2 : i.op2.NoOverlap i.vd i.n) :
    ∃ rf', (VOp.bin .sra T).run i rf = .ok rf' ∧
      Spec.Lanewise true T.bits true T.bits i.n i.vd i.vs1 i.op2
        (fun a b => Int.fdiv a (2 ^ (b % T.bits).toNat)) rf rf' := by
  have h := bin_run_fn .sra T hb i rf _ (fun a b ha hb' => vSrx_ok T hb a b ha)
    (fun a b ha hb' => srx_inRange T a _ ha) a1 a2
  simp only [BinK.dstTy, hs] at h
  exact h

/-- C12: `vsrl` (unsigned lanes) is the floor quotient by `2^(amount mod width)`. -/
theorem C12_vsrl (T : CTy) (hs : T.signed = false) (hb : T.bits ≤ 32) (i : VInst) (rf : VRF)
    (a1 : Spec.NoOverlap i.vd i.vs1 i.n) (a2 : i.op2.NoOverlap i.vd i.n) :
    ∃ rf', (VOp.bin .srl T).run i rf = .ok rf' ∧
      Spec.Lanewise false T.bits false T.bits i.n i.vd i.vs1 i.op2
        (fun a b => Int.fdiv a (2 ^ (b % T.bits).toNat)) rf rf' := by
  have h := bin_run_fn .srl T hb i rf _ (fun a b ha hb' => vSrx_ok T hb a b ha)
    (fun a b ha hb' => srx_inRange T a _ ha) a1 a2
  simp only [BinK.dstTy, hs] at h
  exact h

/-- C13, for 8 and 16 bit lanes (complete): `vshift` shifts by the signed amount in the second
operand: right with optional rounding, or left with saturation. -/
theorem C13_vshift_narrow (round : Bool) (T : CTy) (hb : T.bits ≤ 16) (i : VInst) (rf : VRF)
    (a1 : Spec.NoOverlap i.vd i.vs1 i.n) (a2 : i.op2.NoOverlap i.vd i.n) :
    ∃ rf', (VOp.bin (.shift round) T).run i rf = .ok rf' ∧
      Spec.Lanewise T.signed T.bits T.signed T.bits i.n i.vd i.vs1 i.op2
        (fun a b => Spec.sat T.signed T.bits (Spec.shiftBoth round (Spec.wrap true T.bits b) a)) rf rf' := by
  have hw : ∀ b : Int, Spec.wrap true T.bits b ≠ -2147483648 := by
    intro b h
    have := specWrap_inRange T.toS b
    have e1 : T.toS.signed = true := by cases T <;> rfl
    have e2 : T.toS.bits = T.bits := by cases T <;> rfl
    rw [e1, e2, h] at this
    revert this
    cases T <;> first | decide | (exfalso; revert hb; decide)
  exact bin_run_fn (.shift round) T (by omega) i rf _
    (fun a b ha hb' => vShift_ok round T (by omega) a b ha hb' (fun h => hw b h.2))
    (fun a b ha hb' => sat_inRange T _) a1 a2

/-- C13, all widths.  The full statement (without `hub`) is false for 32-bit lanes, see
`C13_vshift_ub`: missing is exactly the amount `-2^31` in a lane whose value is not 0. -/
theorem C13_vshift_partial (round : Bool) (T : CTy) (hb : T.bits ≤ 32) (i : VInst) (rf : VRF)
    (a1 : Spec.NoOverlap i.vd i.vs1 i.n) (a2 : i.op2.NoOverlap i.vd i.n)
    (hub : ∀ k < i.n, ∀ e < Spec.lanes T.bits,
      ¬ (Spec.lane T.signed T.bits (rf (i.vs1 + k)) e ≠ 0 ∧
        Spec.wrap true T.bits (i.op2.elem T.signed T.bits rf k e) = -2147483648)) :
    ∃ rf', (VOp.bin (.shift round) T).run i rf = .ok rf' ∧
      Spec.Lanewise T.signed T.bits T.signed T.bits i.n i.vd i.vs1 i.op2
        (fun a b => Spec.sat T.signed T.bits (Spec.shiftBoth round (Spec.wrap true T.bits b) a)) rf rf' := by
  have hk : regsPerOpOf false false T T = 1 := by simp [regsPerOpOf]
  obtain ⟨rf', h1, h2, h3⟩ := gen_run T T T (i.operands (.bin (.shift round) T)) i.n 1
    (commonArg1 T T T (i.operands (.bin (.shift round) T)) i.n)
    (commonArg2 T T (i.operands (.bin (.shift round) T)) i.scalar) (vShift round T) rf
    (fun op _ e => Spec.lane T.signed T.bits (rf (i.vs1 + op)) e)
    (fun op _ e => i.op2.elem T.signed T.bits rf op e)
    (fun op _ e => Spec.sat T.signed T.bits (Spec.shiftBoth round
      (Spec.wrap true T.bits (i.op2.elem T.signed T.bits rf op e)) (Spec.lane T.signed T.bits (rf (i.vs1 + op)) e)))
    (by simp [VInst.operands, VOp.dstFactor])
    (by
      intro op hop rf1 hrf r hr e he
      have : r = 0 := by omega
      subst this
      rw [commonArg1_eq T T rfl _ i.vs1 (i.n * 1) _ rfl rf1 op e he (by omega),
        hrf _ (untouched_of_noOverlap a1 hop)])
    (by
      intro op hop rf1 hrf r hr e he
      have : r = 0 := by omega
      subst this
      rw [commonArg2_eq T T rfl hb i _ rf1 op e he hop, elem_congr _ _ _ _ _ _ _ _ _ _ hrf]
      intro b hb'
      rw [hb'] at a2
      exact untouched_of_noOverlap a2 hop)
    (by
      intro op hop r _ e he
      exact ⟨vShift_ok round T hb _ _ (lane_inRange T _ _) (elem_inRange T _ _ _ _)
        (hub op hop e (by rw [← lanesOf_eq]; exact he)), sat_inRange T _⟩)
  refine ⟨rf', ?_, ?_, fun q hq => h3 q (untouched_frame (numOps_pos _) hq)⟩
  · simp only [VOp.run, VOp.exec, BinK.dstTy, hk]; exact h1
  · intro k hk e he
    have := h2 k hk 0 (by omega) e (by rw [lanesOf_eq]; exact he)
    simpa [dreg, VInst.operands] using this

/-- C13 fails for 32-bit lanes with amount `-2^31`: the C++ code negates `INT32_MIN` (undefined
behaviour), for every non-zero lane value, signed or unsigned. -/
theorem C13_vshift_ub (round : Bool) (T : CTy) (hb : T.bits = 32) (a b : Int) (ha : T.InRange a)
    (ha0 : a ≠ 0) (h : Spec.wrap true T.bits b = -2147483648) :
    BinK.fn (.shift round) T ⟨T, a⟩ ⟨T, b⟩ = .ub :=
  vShift_ub round T hb a b ha ha0 h

/-- C14: `vsrans`/`vsraqs`: shift right by `amount mod source width`, round, clamp to the narrow
lane.  `f = 2` (vsrans) or `4` (vsraqs) source groups are interleaved into one (`Spec.narrowGroup`). -/
theorem C14_vsrans (round : Bool) (Td Ts : CTy) (f : Nat) (hsg : Td.signed = Ts.signed) (hd : Td.bits ≤ 16)
    (hf : (f = 2 ∨ f = 4) ∧ Ts.bits = f * Td.bits) (hTs : Ts.bits ≤ 32) (i : VInst) (rf : VRF)
    (a1 : ∀ c < f, Spec.NoOverlap i.vd (i.vs1 + c * i.n) i.n) (a2 : i.op2.NoOverlap i.vd i.n) :
    ∃ rf', (VOp.srans round Td Ts).run i rf = .ok rf' ∧
      (∀ k < i.n, ∀ e < Spec.lanes Td.bits,
        Spec.lane Td.signed Td.bits (rf' (i.vd + k)) e =
          Spec.sat Td.signed Td.bits (Spec.shiftRight round ((i.op2.elem Td.signed Td.bits rf k e) % Ts.bits).toNat
            (Spec.lane Ts.signed Ts.bits (rf (i.vs1 + Spec.narrowGroup f e * i.n + k)) (e / f)))) ∧
      Spec.Frame i.vd i.n rf rf' :=
  srans_run round Td Ts f hsg hd hf hTs i rf a1 a2

/-- C15: `vmulh`: the high half of the exact product (plus one half when rounding). -/
theorem C15_vmulh (round : Bool) (T : CTy) (hb : T.bits ≤ 32) (i : VInst) (rf : VRF)
    (a1 : Spec.NoOverlap i.vd i.vs1 i.n) (a2 : i.op2.NoOverlap i.vd i.n) :
    ∃ rf', (VOp.bin (.mulh round) T).run i rf = .ok rf' ∧
      Spec.Lanewise T.signed T.bits T.signed T.bits i.n i.vd i.vs1 i.op2
        (fun a b => Int.fdiv (a * b + if round then 2 ^ (T.bits - 1) else 0) (2 ^ T.bits)) rf rf' :=
  bin_run_fn (.mulh round) T hb i rf _ (fun a b ha hb' => vMulh_ok round T hb a b ha hb')
    (fun a b ha hb' => mulh_inRange round T hb a b ha hb') a1 a2

/-- C15: `vdmulh`: the high half of the doubled exact product, rounded as selected, saturated. -/
theorem C15_vdmulh (round roundNeg : Bool) (T : CTy) (hs : T.signed = true) (hb : T.bits ≤ 32) (i : VInst) (rf : VRF)
    (a1 : Spec.NoOverlap i.vd i.vs1 i.n) (a2 : i.op2.NoOverlap i.vd i.n) :
    ∃ rf', (VOp.bin (.dmulh round roundNeg) T).run i rf = .ok rf' ∧
      Spec.Lanewise true T.bits true T.bits i.n i.vd i.vs1 i.op2
        (fun a b => Spec.sat true T.bits (Spec.dmulh round roundNeg T.bits a b)) rf rf' := by
  have h := bin_run_fn (.dmulh round roundNeg) T hb i rf _
    (fun a b ha hb' => vDmulh_ok round roundNeg T hs hb a b ha hb')
    (fun a b ha hb' => by have := sat_inRange T (Spec.dmulh round roundNeg T.bits a b); rwa [hs] at this) a1 a2
  simp only [BinK.dstTy, hs] at h
  exact h

/-- C15: saturation of `vdmulh` without rounding happens only for `min * min`. -/
theorem C15_vdmulh_saturates_only_min (T : CTy) (hs : T.signed = true) (hb : T.bits ≤ 32) (a b : Int)
    (ha : T.InRange a) (hb' : T.InRange b) (h : ¬ (a = Spec.lo true T.bits ∧ b = Spec.lo true T.bits)) :
    Spec.sat true T.bits (Spec.dmulh false false T.bits a b) = Spec.dmulh false false T.bits a b := by
  have key : ∀ M : Int, 0 < M → -M ≤ a → a ≤ M - 1 → -M ≤ b → b ≤ M - 1 → ¬ (a = -M ∧ b = -M) →
      -(M * M) ≤ a * b ∧ a * b < M * M := by
    intro M hM h1 h2 h3 h4 h5
    constructor
    · nlinarith
    · by_cases hA : a = -M
      · have : b ≠ -M := fun hB => h5 ⟨hA, hB⟩
        have : -M + 1 ≤ b := by omega
        subst hA; nlinarith
      · have : -M + 1 ≤ a := by omega
        nlinarith
  unfold Spec.dmulh Spec.sat
  simp only [Bool.false_eq_true, if_false, Int.add_zero]
  rw [Int.fdiv_eq_ediv_of_nonneg _ (by positivity)]
  generalize hp : a * b = p at *
  cases T <;> simp only [CTy.signed, CTy.bits, CTy.size, Spec.lo, Spec.hi, Bool.false_eq_true, if_true, if_false] at * <;>
    range_split
  · have := key 128 (by omega) (by omega) (by omega) (by omega) (by omega) (by omega); omega
  · have := key 32768 (by omega) (by omega) (by omega) (by omega) (by omega) (by omega); omega
  · have := key 2147483648 (by omega) (by omega) (by omega) (by omega) (by omega) (by omega); omega
  all_goals first | contradiction | omega

/-- C16: `vmul` is the product modulo `2^width`. -/
theorem C16_vmul (T : CTy) (hb : T.bits ≤ 32) (i : VInst) (rf : VRF)
    (a1 : Spec.NoOverlap i.vd i.vs1 i.n) (a2 : i.op2.NoOverlap i.vd i.n) :
    ∃ rf', (VOp.bin .mul T).run i rf = .ok rf' ∧
      Spec.Lanewise T.signed T.bits T.signed T.bits i.n i.vd i.vs1 i.op2
        (fun a b => Spec.wrap T.signed T.bits (a * b)) rf rf' :=
  bin_run_fn .mul T hb i rf _ (fun a b ha hb' => vMul_ok T hb a b ha hb')
    (fun a b ha hb' => specWrap_inRange T _) a1 a2

/-- C16: `vmuls` is the product clamped to the lane. -/
theorem C16_vmuls (T : CTy) (hb : T.bits ≤ 32) (i : VInst) (rf : VRF)
    (a1 : Spec.NoOverlap i.vd i.vs1 i.n) (a2 : i.op2.NoOverlap i.vd i.n) :
    ∃ rf', (VOp.bin .muls T).run i rf = .ok rf' ∧
      Spec.Lanewise T.signed T.bits T.signed T.bits i.n i.vd i.vs1 i.op2
        (fun a b => Spec.sat T.signed T.bits (a * b)) rf rf' :=
  bin_run_fn .muls T hb i rf _ (fun a b ha hb' => vMuls_ok T hb a b ha hb')
    (fun a b ha hb' => sat_inRange T _) a1 a2

/-! ## Concrete instances -/

def rf2 : VRF := fun q => BitVec.ofNat 256 (q * 0x0123456789abcdef0123456789abcdef0123456789abcdef0123456789abcdef + 0x8000)

/-- A 16-bit rounding `vshift` to the left saturates. -/
example : ∃ rf', (VOp.bin (.shift true) .i16).run ⟨4, 1, .scalar 0xFFFFFFFC, false⟩ rf2 = .ok rf' ∧
    Spec.lane true 16 (rf' 4) 0 = 32767 ∧ Spec.lane true 16 (rf' 4) 3 = 0x1230 := by
  obtain ⟨rf', h1, h2, h3⟩ := C13_vshift_narrow true .i16 (by decide) ⟨4, 1, .scalar 0xFFFFFFFC, false⟩ rf2
    (by decide) trivial
  refine ⟨rf', h1, (h2 0 (by decide) 0 (by decide)).trans (by decide), (h2 0 (by decide) 3 (by decide)).trans (by decide)⟩

/-- The hypothesis of `C13_vshift_partial` is met by ordinary amounts on 32-bit lanes. -/
example : ∀ k < (VInst.n ⟨4, 1, .scalar 3, true⟩), ∀ e < Spec.lanes 32,
      ¬ (Spec.lane true 32 (rf2 (1 + k)) e ≠ 0 ∧
        Spec.wrap true 32 ((Spec.Operand.scalar 3).elem true 32 rf2 k e) = -2147483648) := by
  intro k _ e _ h
  revert h
  simp only [Spec.Operand.elem]
  intro h
  exact absurd h.2 (by decide)

/-- `vsraqs`: four 32-bit groups into one 8-bit group. -/
example : ∃ rf', (VOp.srans true .i8 .i32).run ⟨0, 4, .scalar 24, false⟩ rf2 = .ok rf' ∧
    Spec.lane true 8 (rf' 0) 1 = 58 := by
  obtain ⟨rf', h1, h2, h3⟩ := C14_vsrans true .i8 .i32 4 rfl (by decide) (by decide) (by decide)
    ⟨0, 4, .scalar 24, false⟩ rf2 (by decide) trivial
  exact ⟨rf', h1, (h2 0 (by decide) 1 (by decide)).trans (by decide)⟩

end Verif.Props
