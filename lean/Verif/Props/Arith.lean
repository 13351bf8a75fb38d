import Verif.Proofs.SpecRange

/-!
# C01–C07: lane arithmetic, as executed by the vector instructions

Every theorem says: the instruction, decoded with the operand registers `i` and run on any register
file `rf`, terminates without undefined behaviour, every destination lane is the stated mathematical
function of the corresponding source lanes, and no other register changes (`Spec.Lanewise`,
`Verif/Spec/Vector.lean`).  `i.op2` is a vector register group or a scalar.  `i.n` is 1, or 4 when
strip-mined.  The hypotheses `a1`, `a2` only exclude a destination group that starts strictly inside
a source group (in-place operation is included); for a single register they exclude nothing.
-/

namespace Verif.Props
open Verif Verif.Model Verif.Proofs

/-- C01: `vadds` clamps the exact signed sum. -/
theorem C01_vadds (T : CTy) (hs : T.signed = true) (hb : T.bits ≤ 32) (i : VInst) (rf : VRF)
    (a1 : Spec.NoOverlap i.vd i.vs1 i.n) (a2 : i.op2.NoOverlap i.vd i.n) :
    ∃ rf', (VOp.bin .adds T).run i rf = .ok rf' ∧
      Spec.Lanewise true T.bits true T.bits i.n i.vd i.vs1 i.op2 (fun a b => Spec.sat true T.bits (a + b)) rf rf' := by
  have h := bin_run_fn .adds T hb i rf _ (fun a b ha hb' => vAdds_ok T hs hb a b ha hb') (fun a b ha hb' => by have := sat_inRange T (a + b); rwa [hs] at this) a1 a2
  simp only [BinK.dstTy, hs] at h
  exact h

/-- C01: `vsubs` clamps the exact signed difference. -/
theorem C01_vsubs (T : CTy) (hs : T.signed = true) (hb : T.bits ≤ 32) (i : VInst) (rf : VRF)
    (a1 : Spec.NoOverlap i.vd i.vs1 i.n) (a2 : i.op2.NoOverlap i.vd i.n) :
    ∃ rf', (VOp.bin .subs T).run i rf = .ok rf' ∧
      Spec.Lanewise true T.bits true T.bits i.n i.vd i.vs1 i.op2 (fun a b => Spec.sat true T.bits (a - b)) rf rf' := by
  have h := bin_run_fn .subs T hb i rf _ (fun a b ha hb' => vSubs_ok T hs hb a b ha hb') (fun a b ha hb' => by have := sat_inRange T (a - b); rwa [hs] at this) a1 a2
  simp only [BinK.dstTy, hs] at h
  exact h

/-- C02: `vaddsu` is the exact sum capped at the largest lane value. -/
theorem C02_vaddsu (T : CTy) (hs : T.signed = false) (hb : T.bits ≤ 32) (i : VInst) (rf : VRF)
    (a1 : Spec.NoOverlap i.vd i.vs1 i.n) (a2 : i.op2.NoOverlap i.vd i.n) :
    ∃ rf', (VOp.bin .addsu T).run i rf = .ok rf' ∧
      Spec.Lanewise false T.bits false T.bits i.n i.vd i.vs1 i.op2 (fun a b => min (a + b) (2 ^ T.bits - 1)) rf rf' := by
  have h := bin_run_fn .addsu T hb i rf _ (fun a b ha hb' => vAddsu_ok T hs hb a b ha hb')
    (fun a b ha hb' => by have := sat_inRange T (a + b); rwa [hs] at this) a1 a2
  simp only [BinK.dstTy, hs] at h
  obtain ⟨rf', h1, h2, h3⟩ := h
  refine ⟨rf', h1, fun k hk e he => ?_, h3⟩
  have := h2 k hk e he
  have r1 : ∀ r e, 0 ≤ Spec.lane false T.bits r e := fun r e => Int.natCast_nonneg _
  have r2 : 0 ≤ i.op2.elem false T.bits rf k e := by cases i.op2 <;> exact Int.natCast_nonneg _
  rw [this]
  have := r1 (rf (i.vs1 + k)) e
  simp only [Spec.sat, Spec.lo, Spec.hi, Bool.false_eq_true, if_false]
  have hp : (1 : Int) ≤ 2 ^ T.bits := by have : (0 : Int) < 2 ^ T.bits := by positivity
                                         omega
  omega

/-- C02: `vsubsu` is the exact difference floored at 0. -/
theorem C02_vsubsu (T : CTy) (hs : T.signed = false) (hb : T.bits ≤ 32) (i : VInst) (rf : VRF)
    (a1 : Spec.NoOverlap i.vd i.vs1 i.n) (a2 : i.op2.NoOverlap i.vd i.n) :
    ∃ rf', (VOp.bin .subsu T).run i rf = .ok rf' ∧
      Spec.Lanewise false T.bits false T.bits i.n i.vd i.vs1 i.op2 (fun a b => max (a - b) 0) rf rf' := by
  have h := bin_run_fn .subsu T hb i rf _ (fun a b ha hb' => vSubsu_ok T hs hb a b ha hb')
    (fun a b ha hb' => by have := sat_inRange T (a - b); rwa [hs] at this) a1 a2
  simp only [BinK.dstTy, hs] at h
  obtain ⟨rf', h1, h2, h3⟩ := h
  refine ⟨rf', h1, fun k hk e he => ?_, h3⟩
  have := h2 k hk e he
  have r1 : Spec.lane false T.bits (rf (i.vs1 + k)) e ≤ 2 ^ T.bits - 1 := by
    have := lane_inRange T (rf (i.vs1 + k)) e
    rw [hs] at this
    have h2 := this.2
    simp only [CTy.hi, hs, Bool.false_eq_true, if_false] at h2
    exact h2
  have r2 : 0 ≤ i.op2.elem false T.bits rf k e := by cases i.op2 <;> exact Int.natCast_nonneg _
  rw [this]
  simp only [Spec.sat, Spec.lo, Spec.hi, Bool.false_eq_true, if_false]
  omega

/-- C03: `vadd` is exact modulo `2^width`. -/
theorem C03_vadd (T : CTy) (hb : T.bits ≤ 32) (i : VInst) (rf : VRF)
    (a1 : Spec.NoOverlap i.vd i.vs1 i.n) (a2 : i.op2.NoOverlap i.vd i.n) :
    ∃ rf', (VOp.bin .add T).run i rf = .ok rf' ∧
      Spec.Lanewise T.signed T.bits T.signed T.bits i.n i.vd i.vs1 i.op2 (fun a b => Spec.wrap T.signed T.bits (a + b)) rf rf' := by
  exact bin_run_fn .add T hb i rf _ (fun a b ha hb' => vAdd_ok T hb a b ha hb') (fun a b ha hb' => specWrap_inRange T _) a1 a2

/-- C03: `vsub` is exact modulo `2^width`. -/
theorem C03_vsub (T : CTy) (hb : T.bits ≤ 32) (i : VInst) (rf : VRF)
    (a1 : Spec.NoOverlap i.vd i.vs1 i.n) (a2 : i.op2.NoOverlap i.vd i.n) :
    ∃ rf', (VOp.bin .sub T).run i rf = .ok rf' ∧
      Spec.Lanewise T.signed T.bits T.signed T.bits i.n i.vd i.vs1 i.op2 (fun a b => Spec.wrap T.signed T.bits (a - b)) rf rf' := by
  exact bin_run_fn .sub T hb i rf _ (fun a b ha hb' => vSub_ok T hb a b ha hb') (fun a b ha hb' => specWrap_inRange T _) a1 a2

/-- C03: `vrsub` is exact modulo `2^width`. -/
theorem C03_vrsub (T : CTy) (hb : T.bits ≤ 32) (i : VInst) (rf : VRF)
    (a1 : Spec.NoOverlap i.vd i.vs1 i.n) (a2 : i.op2.NoOverlap i.vd i.n) :
    ∃ rf', (VOp.bin .rsub T).run i rf = .ok rf' ∧
      Spec.Lanewise T.signed T.bits T.signed T.bits i.n i.vd i.vs1 i.op2 (fun a b => Spec.wrap T.signed T.bits (b - a)) rf rf' := by
  exact bin_run_fn .rsub T hb i rf _ (fun a b ha hb' => vRSub_ok T hb a b ha hb') (fun a b ha hb' => specWrap_inRange T _) a1 a2

/-- C03: `vadd3`. (`d` is the old destination lane.) -/
theorem C03_vadd3 (T : CTy) (hb : T.bits ≤ 32) (i : VInst) (rf : VRF)
    (a1 : Spec.NoOverlap i.vd i.vs1 i.n) (a2 : i.op2.NoOverlap i.vd i.n) :
    ∃ rf', (VOp.ter .add3 T).run i rf = .ok rf' ∧
      Spec.Lanewise3 T.signed T.bits i.n i.vd i.vs1 i.op2 (fun d a b => Spec.wrap T.signed T.bits (d + a + b)) rf rf' :=
  ter_run .add3 T hb i rf _ (fun d a b hd ha hb' => ⟨vAdd3_ok T hb d a b hd ha hb', specWrap_inRange T _⟩) a1 a2

/-- C03: `vmacc`. (`d` is the old destination lane.) -/
theorem C03_vmacc (T : CTy) (hs : T.signed = true) (hb : T.bits ≤ 32) (i : VInst) (rf : VRF)
    (a1 : Spec.NoOverlap i.vd i.vs1 i.n) (a2 : i.op2.NoOverlap i.vd i.n) :
    ∃ rf', (VOp.ter .macc T).run i rf = .ok rf' ∧
      Spec.Lanewise3 T.signed T.bits i.n i.vd i.vs1 i.op2 (fun d a b => Spec.wrap T.signed T.bits (d + a * b)) rf rf' :=
  ter_run .macc T hb i rf _ (fun d a b hd ha hb' => ⟨vMacc_ok T hs hb d a b hd ha hb', specWrap_inRange T _⟩) a1 a2

/-- C03: `vmadd`. (`d` is the old destination lane.) -/
theorem C03_vmadd (T : CTy) (hs : T.signed = true) (hb : T.bits ≤ 32) (i : VInst) (rf : VRF)
    (a1 : Spec.NoOverlap i.vd i.vs1 i.n) (a2 : i.op2.NoOverlap i.vd i.n) :
    ∃ rf', (VOp.ter .madd T).run i rf = .ok rf' ∧
      Spec.Lanewise3 T.signed T.bits i.n i.vd i.vs1 i.op2 (fun d a b => Spec.wrap T.signed T.bits (a + d * b)) rf rf' :=
  ter_run .madd T hb i rf _ (fun d a b hd ha hb' => ⟨vMadd_ok T hs hb d a b hd ha hb', specWrap_inRange T _⟩) a1 a2

/-- C04: `veq` writes 1 where the lane values satisfy `=` and 0 elsewhere. -/
theorem C04_veq (T : CTy) (hb : T.bits ≤ 32) (i : VInst) (rf : VRF)
    (a1 : Spec.NoOverlap i.vd i.vs1 i.n) (a2 : i.op2.NoOverlap i.vd i.n) :
    ∃ rf', (VOp.bin .eq T).run i rf = .ok rf' ∧
      Spec.Lanewise T.signed T.bits T.signed T.bits i.n i.vd i.vs1 i.op2 (fun a b => Spec.truth (a = b)) rf rf' := by
  exact bin_run_fn .eq T hb i rf _ (fun a b ha hb' => vEq_ok T a b ha hb') (fun a b ha hb' => truth_inRange T _) a1 a2

/-- C04: `vne` writes 1 where the lane values satisfy `≠` and 0 elsewhere. -/
theorem C04_vne (T : CTy) (hb : T.bits ≤ 32) (i : VInst) (rf : VRF)
    (a1 : Spec.NoOverlap i.vd i.vs1 i.n) (a2 : i.op2.NoOverlap i.vd i.n) :
    ∃ rf', (VOp.bin .ne T).run i rf = .ok rf' ∧
      Spec.Lanewise T.signed T.bits T.signed T.bits i.n i.vd i.vs1 i.op2 (fun a b => Spec.truth (a ≠ b)) rf rf' := by
  exact bin_run_fn .ne T hb i rf _ (fun a b ha hb' => vNe_ok T a b ha hb') (fun a b ha hb' => truth_inRange T _) a1 a2

/-- C04: `vlt` writes 1 where the lane values satisfy `<` and 0 elsewhere. -/
theorem C04_vlt (T : CTy) (hb : T.bits ≤ 32) (i : VInst) (rf : VRF)
    (a1 : Spec.NoOverlap i.vd i.vs1 i.n) (a2 : i.op2.NoOverlap i.vd i.n) :
    ∃ rf', (VOp.bin .lt T).run i rf = .ok rf' ∧
      Spec.Lanewise T.signed T.bits T.signed T.bits i.n i.vd i.vs1 i.op2 (fun a b => Spec.truth (a < b)) rf rf' := by
  exact bin_run_fn .lt T hb i rf _ (fun a b ha hb' => vLt_ok T a b ha hb') (fun a b ha hb' => truth_inRange T _) a1 a2

/-- C04: `vle` writes 1 where the lane values satisfy `≤` and 0 elsewhere. -/
theorem C04_vle (T : CTy) (hb : T.bits ≤ 32) (i : VInst) (rf : VRF)
    (a1 : Spec.NoOverlap i.vd i.vs1 i.n) (a2 : i.op2.NoOverlap i.vd i.n) :
    ∃ rf', (VOp.bin .le T).run i rf = .ok rf' ∧
      Spec.Lanewise T.signed T.bits T.signed T.bits i.n i.vd i.vs1 i.op2 (fun a b => Spec.truth (a ≤ b)) rf rf' := by
  exact bin_run_fn .le T hb i rf _ (fun a b ha hb' => vLe_ok T a b ha hb') (fun a b ha hb' => truth_inRange T _) a1 a2

/-- C04: `vgt` writes 1 where the lane values satisfy `>` and 0 elsewhere. -/
theorem C04_vgt (T : CTy) (hb : T.bits ≤ 32) (i : VInst) (rf : VRF)
    (a1 : Spec.NoOverlap i.vd i.vs1 i.n) (a2 : i.op2.NoOverlap i.vd i.n) :
    ∃ rf', (VOp.bin .gt T).run i rf = .ok rf' ∧
      Spec.Lanewise T.signed T.bits T.signed T.bits i.n i.vd i.vs1 i.op2 (fun a b => Spec.truth (a > b)) rf rf' := by
  exact bin_run_fn .gt T hb i rf _ (fun a b ha hb' => vGt_ok T a b ha hb') (fun a b ha hb' => truth_inRange T _) a1 a2

/-- C04: `vge` writes 1 where the lane values satisfy `≥` and 0 elsewhere. -/
theorem C04_vge (T : CTy) (hb : T.bits ≤ 32) (i : VInst) (rf : VRF)
    (a1 : Spec.NoOverlap i.vd i.vs1 i.n) (a2 : i.op2.NoOverlap i.vd i.n) :
    ∃ rf', (VOp.bin .ge T).run i rf = .ok rf' ∧
      Spec.Lanewise T.signed T.bits T.signed T.bits i.n i.vd i.vs1 i.op2 (fun a b => Spec.truth (a ≥ b)) rf rf' := by
  exact bin_run_fn .ge T hb i rf _ (fun a b ha hb' => vGe_ok T a b ha hb') (fun a b ha hb' => truth_inRange T _) a1 a2

/-- C05: `vabsd` is the exact distance, read as an unsigned lane. -/
theorem C05_vabsd (T : CTy) (hb : T.bits ≤ 32) (i : VInst) (rf : VRF)
    (a1 : Spec.NoOverlap i.vd i.vs1 i.n) (a2 : i.op2.NoOverlap i.vd i.n) :
    ∃ rf', (VOp.bin .absd T).run i rf = .ok rf' ∧
      Spec.Lanewise false T.bits T.signed T.bits i.n i.vd i.vs1 i.op2 (fun a b => Spec.absd a b) rf rf' := by
  have h := bin_run_fn .absd T hb i rf _ (fun a b ha hb' => vAbsd_ok T hb a b ha hb')
    (fun a b ha hb' => absd_inRange T hb a b ha hb') a1 a2
  have e : (BinK.absd.dstTy T).signed = false := by cases T <;> rfl
  rw [e] at h
  exact h

/-- C06: `vmax`. -/
theorem C06_vmax (T : CTy) (hb : T.bits ≤ 32) (i : VInst) (rf : VRF)
    (a1 : Spec.NoOverlap i.vd i.vs1 i.n) (a2 : i.op2.NoOverlap i.vd i.n) :
    ∃ rf', (VOp.bin .max T).run i rf = .ok rf' ∧
      Spec.Lanewise T.signed T.bits T.signed T.bits i.n i.vd i.vs1 i.op2 (fun a b => max a b) rf rf' := by
  exact bin_run_fn .max T hb i rf _ (fun a b ha hb' => vMax_ok T a b ha hb') (fun a b ha hb' => max_inRange T a b ha hb') a1 a2

/-- C06: `vmin`. -/
theorem C06_vmin (T : CTy) (hb : T.bits ≤ 32) (i : VInst) (rf : VRF)
    (a1 : Spec.NoOverlap i.vd i.vs1 i.n) (a2 : i.op2.NoOverlap i.vd i.n) :
    ∃ rf', (VOp.bin .min T).run i rf = .ok rf' ∧
      Spec.Lanewise T.signed T.bits T.signed T.bits i.n i.vd i.vs1 i.op2 (fun a b => min a b) rf rf' := by
  exact bin_run_fn .min T hb i rf _ (fun a b ha hb' => vMin_ok T a b ha hb') (fun a b ha hb' => min_inRange T a b ha hb') a1 a2

/-- C07: `vhadd`: the halved sum, rounded down (or half up with `round`). -/
theorem C07_vhadd (T : CTy) (round : Bool) (hb : T.bits ≤ 32) (i : VInst) (rf : VRF)
    (a1 : Spec.NoOverlap i.vd i.vs1 i.n) (a2 : i.op2.NoOverlap i.vd i.n) :
    ∃ rf', (VOp.bin (.hadd round) T).run i rf = .ok rf' ∧
      Spec.Lanewise T.signed T.bits T.signed T.bits i.n i.vd i.vs1 i.op2 (fun a b => Int.fdiv (a + b + if round then 1 else 0) 2) rf rf' := by
  have h := bin_run_fn (.hadd round) T hb i rf _ (fun a b ha hb' => vHadd_ok round T hb a b ha hb')
    (fun a b ha hb' => specWrap_inRange T _) a1 a2
  obtain ⟨rf', h1, h2, h3⟩ := h
  refine ⟨rf', h1, fun k hk e he => ?_, h3⟩
  have := h2 k hk e he
  simp only [BinK.dstTy] at this
  rw [this, wrap_spec]
  apply wrap_of_inRange
  have r1 := lane_inRange T (rf (i.vs1 + k)) e
  have r2 := elem_inRange T i.op2 rf k e
  generalize Spec.lane T.signed T.bits (rf (i.vs1 + k)) e = a at *
  generalize i.op2.elem T.signed T.bits rf k e = b at *
  rw [Int.fdiv_eq_ediv_of_nonneg _ (by omega)]
  clear h1 h2 h3 this
  cty_cases T <;> range_split <;> split <;> omega

/-- C07: `vhsub`: the halved difference, rounded down (or half up), reduced to the lane. -/
theorem C07_vhsub (T : CTy) (round : Bool) (hb : T.bits ≤ 32) (i : VInst) (rf : VRF)
    (a1 : Spec.NoOverlap i.vd i.vs1 i.n) (a2 : i.op2.NoOverlap i.vd i.n) :
    ∃ rf', (VOp.bin (.hsub round) T).run i rf = .ok rf' ∧
      Spec.Lanewise T.signed T.bits T.signed T.bits i.n i.vd i.vs1 i.op2 (fun a b => Spec.wrap T.signed T.bits (Int.fdiv (a - b + if round then 1 else 0) 2)) rf rf' := by
  exact bin_run_fn (.hsub round) T hb i rf _ (fun a b ha hb' => vHsub_ok round T hb a b ha hb') (fun a b ha hb' => specWrap_inRange T _) a1 a2


/-- C07: on signed lanes the halved difference is exact except for `(max - min)` with rounding. -/
theorem C07_vhsub_exact (round : Bool) (T : CTy) (hs : T.signed = true) (hb : T.bits ≤ 32) (a b : Int)
    (ha : T.InRange a) (hb' : T.InRange b) (h : ¬ (round = true ∧ a = Spec.hi true T.bits ∧ b = Spec.lo true T.bits)) :
    Spec.wrap true T.bits (Int.fdiv (a - b + if round then 1 else 0) 2) =
      Int.fdiv (a - b + if round then 1 else 0) 2 := by
  rw [← hs, wrap_spec]
  apply wrap_of_inRange
  rw [Int.fdiv_eq_ediv_of_nonneg _ (by omega)]
  cases round <;> cty_cases T <;> range_split <;>
    simp only [Spec.hi, Spec.lo, CTy.signed, CTy.bits, Bool.false_eq_true, if_false, if_true, false_and, true_and,
      not_false_eq_true, true_implies] at h ⊢ <;> omega

/-! ## Concrete instances -/

/-- A register file with distinct contents. -/
def rf0 : VRF := fun q => BitVec.ofNat 256 (q * 0x0123456789abcdef0123456789abcdef0123456789abcdef0123456789abcdef + 0x7f80ff)

/-- The hypotheses of the theorems above are met, and the conclusion is informative: a strip-mined
in-place `vadds.b` with saturation actually occurring. -/
example : ∃ rf', (VOp.bin .adds .i8).run ⟨8, 8, .vreg 8, true⟩ rf0 = .ok rf' ∧
    Spec.lane true 8 (rf' 8) 3 = 127 ∧ rf' 12 = rf0 12 := by
  obtain ⟨rf', h1, h2, h3⟩ := C01_vadds .i8 rfl (by decide) ⟨8, 8, .vreg 8, true⟩ rf0 (by decide) (by
    show Spec.NoOverlap _ _ _; decide)
  refine ⟨rf', h1, ?_, h3 12 (by decide)⟩
  have := h2 0 (by decide) 3 (by decide)
  exact this.trans (by decide)
end Verif.Props
