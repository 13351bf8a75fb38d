import Verif.Proofs.OracleShift

/-! # The test's oracles for the multiplications agree with the implementation -/

namespace Verif.Proofs
open Verif Verif.Model CVal

theorem o_mul64 (T : CTy) (hs : T.signed = true) (hb : T.bits ≤ 32) (a b : Int) (ha : T.InRange a) (hb' : T.InRange b) :
    CVal.mul (Spec.Oracle.ext ⟨T, a⟩) (Spec.Oracle.ext ⟨T, b⟩) = .ok ⟨.i64, a * b⟩ := by
  rw [ext_ok T hb a ha, ext_ok T hb b hb']
  have h := wide_i64 T hs _ (mul_inRange T hb a b ha hb')
  have e1 := wide_i64 T hs _ (wide_inRange T hb a ha)
  have e2 := wide_i64 T hs _ (wide_inRange T hb b hb')
  have e1' : CTy.wrap (CTy.usual .i64 .i64) a = a := wrap_of_inRange e1
  have e2' : CTy.wrap (CTy.usual .i64 .i64) b = b := wrap_of_inRange e2
  simp only [mul, e1', e2']
  exact if_pos (show CTy.lo .i64 ≤ a * b ∧ a * b ≤ CTy.hi .i64 from h)

theorem o_umul64 (T : CTy) (hs : T.signed = false) (hb : T.bits ≤ 32) (a b : Int) (ha : T.InRange a)
    (hb' : T.InRange b) :
    CVal.mul (Spec.Oracle.uext ⟨T, a⟩) (Spec.Oracle.uext ⟨T, b⟩) = .ok ⟨.u64, a * b⟩ := by
  rw [uext_ok T hs hb a ha, uext_ok T hs hb b hb']
  have h := wide_u64 T hs _ (mul_inRange T hb a b ha hb')
  have e1' : CTy.wrap (CTy.usual .u64 .u64) a = a := wrap_of_inRange (wide_u64 T hs _ (wide_inRange T hb a ha))
  have e2' : CTy.wrap (CTy.usual .u64 .u64) b = b := wrap_of_inRange (wide_u64 T hs _ (wide_inRange T hb b hb'))
  have e3 : CTy.wrap (CTy.usual .u64 .u64) (a * b) = a * b := wrap_of_inRange h
  simp only [mul, e1', e2']
  exact congrArg (fun v => Outcome.ok (CVal.mk _ v)) e3

theorem o_mul (T : CTy) (hb : T.bits ≤ 32) (a b : Int) (ha : T.InRange a) (hb' : T.InRange b) :
    Spec.Oracle.mul T ⟨T, a⟩ ⟨T, b⟩ = vMul T ⟨T, a⟩ ⟨T, b⟩ := by
  unfold Spec.Oracle.mul vMul
  rw [mul_wide T hb a b ha hb', Outcome.ok_bind]
  cases hs : T.signed
  · rw [o_umul64 T hs hb a b ha hb']; rfl
  · rw [o_mul64 T hs hb a b ha hb']; rfl

theorem o_muls (T : CTy) (hb : T.bits ≤ 32) (a b : Int) (ha : T.InRange a) (hb' : T.InRange b) :
    Spec.Oracle.muls T ⟨T, a⟩ ⟨T, b⟩ = vMuls T ⟨T, a⟩ ⟨T, b⟩ := by
  rw [vMuls_ok T hb a b ha hb', sat_spec]
  unfold Spec.Oracle.muls
  have h := mul_inRange T hb a b ha hb'
  have hlh := lo_le_hi T
  obtain ⟨l1, l2, l3, l4⟩ := lim_i64 T hb
  cases hs : T.signed
  · rw [o_umul64 T hs hb a b ha hb']
    have h' := wide_u64 T hs _ h
    simp only [Bool.false_eq_true, if_false, Outcome.ok_bind]
    have hlo : T.lo = 0 := by cty_cases T <;> rfl
    have hh : CTy.InRange .u64 T.hi := by cty_cases T <;> decide
    have hh2 : CVal.cast .u64 (tmax T) = ⟨.u64, T.hi⟩ := cast_mk _ _ _ hh.1 hh.2
    rw [hh2, cmin_ok _ _ _ hh h']
    generalize a * b = p at *
    have h0 : 0 ≤ p := h'.1
    rw [cast_mk _ _ _ (by omega) (by omega)]; apply ok_mk_inj; omega
  · rw [o_mul64 T hs hb a b ha hb']
    have h' := wide_i64 T hs _ h
    simp only [if_true, Outcome.ok_bind]
    rw [l1, l2, cmin_ok _ _ _ l4 h', cmax_ok _ _ _ l3 (by constructor <;> [have := h'.1; have := h'.2] <;> have := l4.1 <;> have := l4.2 <;> omega)]
    generalize a * b = p at *
    rw [cast_mk _ _ _ (by omega) (by omega)]

theorem half_shl (W : CTy) (hW : W = .i64 ∨ W = .u64) (T : CTy) (hb : T.bits ≤ 32) :
    shl ⟨W, 1⟩ (lit ((T.size : Int) * 8 - 1)) = .ok ⟨W, 2 ^ (T.bits - 1)⟩ := by
  rcases hW with rfl | rfl <;> cty_cases T <;> decide +kernel

theorem o_mulh (round : Bool) (T : CTy) (hb : T.bits ≤ 32) (a b : Int) (ha : T.InRange a) (hb' : T.InRange b) :
    Spec.Oracle.mulh round T ⟨T, a⟩ ⟨T, b⟩ = vMulh round T ⟨T, a⟩ ⟨T, b⟩ := by
  have h := mul_bounds T a b ha hb'
  have h' := mul_inRange T hb a b ha hb'
  have hn : lit ((T.size : Int) * 8) = ⟨.i32, (T.bits : Int)⟩ := by cases T <;> rfl
  unfold Spec.Oracle.mulh vMulh
  rw [mul_wide T hb a b ha hb', Outcome.ok_bind, cast_mk _ _ _ h'.1 h'.2, mulhRound_ok round T hb]
  simp only [Outcome.ok_bind, hn]
  cases hs : T.signed
  · rw [o_umul64 T hs hb a b ha hb']
    simp only [Outcome.ok_bind, Spec.Oracle.addHalf, half_shl .u64 (Or.inr rfl) T hb]
    have h := h.2 hs
    generalize a * b = p at *
    clear h' ha hb' hn
    cases round <;> cty_cases T <;> simp only [CTy.bits, Nat.reduceMul, Nat.reduceSub, Int.reducePow,
      Int.reduceSub, Int.reduceMul, Int.reduceAdd, Int.reduceNeg, Bool.false_eq_true, if_false, if_true,
      Int.cast_ofNat_Int] at h ⊢ <;>
      range_split <;> cop_eval <;> apply ok_mk_inj <;> omega
  · rw [o_mul64 T hs hb a b ha hb']
    simp only [Outcome.ok_bind, Spec.Oracle.addHalf, half_shl .i64 (Or.inl rfl) T hb]
    have h := h.1 hs
    generalize a * b = p at *
    clear h' ha hb' hn
    cases round <;> cty_cases T <;> simp only [CTy.bits, Nat.reduceMul, Nat.reduceSub, Int.reducePow,
      Int.reduceSub, Int.reduceMul, Int.reduceAdd, Int.reduceNeg, Bool.false_eq_true, if_false, if_true,
      Int.cast_ofNat_Int] at h ⊢ <;>
      range_split <;> cop_eval <;> apply ok_mk_inj <;> omega

theorem dmulhAdd_ok (round roundNeg : Bool) (T : CTy) (hb : T.bits ≤ 32) (p : Int)
    (h1 : -(2 ^ (2 * T.bits - 2)) ≤ p) (h2 : p ≤ 2 ^ (2 * T.bits - 2)) :
    Spec.Oracle.dmulhAdd round roundNeg ((T.size : Int) * 8) ⟨.i64, p⟩ = .ok ⟨.i64, p +
      if round then (if roundNeg = true ∧ p < 0 then -(2 ^ (T.bits - 2)) else 2 ^ (T.bits - 2)) else 0⟩ := by
  unfold Spec.Oracle.dmulhAdd
  have hr : -4611686018427387904 ≤ p ∧ p ≤ 4611686018427387904 := by
    cty_cases T <;> simp only [CTy.bits, Nat.reduceMul, Nat.reduceSub, Int.reducePow] at h1 h2 <;> omega
  have hl : lt ⟨.i64, p⟩ (lit 0) = decide (p < 0) := by cop_eval
  have hs1 : shr ⟨.i64, -0x40000000⟩ (lit (32 - (T.size : Int) * 8)) = .ok ⟨.i64, -(2 ^ (T.bits - 2))⟩ := by
    cty_cases T <;> decide +kernel
  have hs2 : shr ⟨.i64, 0x40000000⟩ (lit (32 - (T.size : Int) * 8)) = .ok ⟨.i64, 2 ^ (T.bits - 2)⟩ := by
    cty_cases T <;> decide +kernel
  have hx : (0 : Int) < 2 ^ (T.bits - 2) ∧ (2 : Int) ^ (T.bits - 2) ≤ 1073741824 := by
    cty_cases T <;> decide +kernel
  rw [hl]
  cases round
  · simp
  · simp only [if_true]
    by_cases hp : p < 0
    · cases roundNeg
      · simp only [hp, decide_true, Bool.and_false, Bool.false_eq_true, if_false, false_and, hs2, Outcome.ok_bind]
        generalize (2 : Int) ^ (T.bits - 2) = r at *
        cop_eval
      · simp only [hp, decide_true, Bool.and_true, if_true, and_self, hs1, Outcome.ok_bind]
        generalize (2 : Int) ^ (T.bits - 2) = r at *
        cop_eval
    · simp only [hp, decide_false, Bool.false_and, Bool.false_eq_true, if_false, and_false, hs2, Outcome.ok_bind]
      generalize (2 : Int) ^ (T.bits - 2) = r at *
      cop_eval

theorem o_dmulh (round roundNeg : Bool) (T : CTy) (hs : T.signed = true) (hb : T.bits ≤ 32) (a b : Int)
    (ha : T.InRange a) (hb' : T.InRange b) :
    Spec.Oracle.dmulh round roundNeg T ⟨T, a⟩ ⟨T, b⟩ = vDmulh round roundNeg T ⟨T, a⟩ ⟨T, b⟩ := by
  have h := mul_inRange T hb a b ha hb'
  have hbd := (mul_bounds T a b ha hb').1 hs
  have hP : (0 : Int) < 2 ^ (T.bits - 1) := Int.pow_pos (by omega)
  unfold Spec.Oracle.dmulh vDmulh
  rw [mul_wide T hb a b ha hb', Outcome.ok_bind, cast_mk _ _ _ h.1 h.2,
    dmulhRound_ok round roundNeg T hs hb _ (by omega) (by omega), Outcome.ok_bind, o_mul64 T hs hb a b ha hb',
    Outcome.ok_bind]
  rw [dmulhAdd_ok round roundNeg T hb _ (by omega) (by omega), Outcome.ok_bind]
  generalize (eq ⟨T, a⟩ (tmin T) && eq ⟨T, b⟩ (tmin T)) = c
  generalize a * b = p at *
  clear ha hb' h
  have hr : -(2 ^ (T.bits - 2)) ≤ (if round = true then (if roundNeg = true ∧ p < 0 then -(2 ^ (T.bits - 2) : Int)
      else 2 ^ (T.bits - 2)) else 0) ∧ (if round = true then (if roundNeg = true ∧ p < 0 then -(2 ^ (T.bits - 2) : Int)
      else 2 ^ (T.bits - 2)) else 0) ≤ 2 ^ (T.bits - 2) := by
    have : (0 : Int) < 2 ^ (T.bits - 2) := Int.pow_pos (by omega)
    split
    · split <;> omega
    · omega
  generalize (if round = true then (if roundNeg = true ∧ p < 0 then -(2 ^ (T.bits - 2) : Int)
        else 2 ^ (T.bits - 2)) else 0) = r at *
  have hn : CVal.lit ((T.size : Int) * 8 - 1) = ⟨.i32, T.bits - 1⟩ := by cases T <;> rfl
  rw [hn]
  cases c
  · simp only [Bool.false_eq_true, if_false]
    cty_cases T <;> simp only [CTy.bits, Nat.reduceMul, Nat.reduceSub, Int.reducePow,
      Int.cast_ofNat_Int, Int.reduceSub, Int.reduceAdd, Int.reduceNeg] at * <;> range_split <;> cop_eval <;>
      apply ok_mk_inj <;> omega
  · simp only [if_true]
    cty_cases T <;> simp only [CTy.bits, Nat.reduceMul, Nat.reduceSub, Int.reducePow,
      Int.cast_ofNat_Int, Int.reduceSub, Int.reduceAdd, Int.reduceNeg] at * <;> range_split <;> cop_eval

theorem macc_aux64 (T : CTy) (hb : T.bits ≤ 32) (p d : Int) (hd : T.InRange d)
    (h1 : -(2 ^ (2 * T.bits - 2)) + 2 ^ (T.bits - 1) ≤ p ∧ p ≤ 2 ^ (2 * T.bits - 2)) :
    (CVal.add (Spec.Oracle.ext ⟨T, d⟩) ⟨.i64, p⟩ >>= fun s => Outcome.ok (CVal.cast T s)) =
      .ok ⟨T, T.wrap (d + p)⟩ := by
  rw [ext_ok T hb d hd]
  cty_cases T <;> simp only [CTy.bits, Nat.reduceMul, Nat.reduceSub, Int.reducePow, Int.reduceAdd, Int.reduceNeg] at h1 <;>
    range_split <;> cop_eval

theorem o_macc (T : CTy) (hs : T.signed = true) (hb : T.bits ≤ 32) (d a b : Int) (hd : T.InRange d)
    (ha : T.InRange a) (hb' : T.InRange b) :
    Spec.Oracle.macc T ⟨T, d⟩ ⟨T, a⟩ ⟨T, b⟩ = vMacc T ⟨T, d⟩ ⟨T, a⟩ ⟨T, b⟩ := by
  rw [vMacc_ok T hs hb d a b hd ha hb', wrap_spec]
  unfold Spec.Oracle.macc
  rw [o_mul64 T hs hb a b ha hb', Outcome.ok_bind]
  exact macc_aux64 T hb _ d hd ((mul_bounds T a b ha hb').1 hs)

theorem o_madd (T : CTy) (hs : T.signed = true) (hb : T.bits ≤ 32) (d a b : Int) (hd : T.InRange d)
    (ha : T.InRange a) (hb' : T.InRange b) :
    Spec.Oracle.madd T ⟨T, d⟩ ⟨T, a⟩ ⟨T, b⟩ = vMadd T ⟨T, d⟩ ⟨T, a⟩ ⟨T, b⟩ := by
  rw [vMadd_ok T hs hb d a b hd ha hb', wrap_spec]
  unfold Spec.Oracle.madd
  rw [o_mul64 T hs hb d b hd hb', Outcome.ok_bind]
  exact macc_aux64 T hb _ a ha ((mul_bounds T d b hd hb').1 hs)

theorem o_sel (T : CTy) (d a b : Int) (hd : T.InRange d) (hb' : T.InRange b) :
    Spec.Oracle.sel T ⟨T, d⟩ ⟨T, a⟩ ⟨T, b⟩ = vSel T ⟨T, d⟩ ⟨T, a⟩ ⟨T, b⟩ := by
  unfold Spec.Oracle.sel vSel
  split
  · rw [cast_self T _ rfl hd]
  · rw [cast_self T _ rfl hb']

theorem o_mv (T : CTy) (a : Int) (ha : T.InRange a) : Spec.Oracle.mv T ⟨T, a⟩ = vMv T ⟨T, a⟩ := by
  unfold Spec.Oracle.mv vMv; rw [cast_self T _ rfl ha]

/-! ## Bit operations -/

theorem o_cpop (T : CTy) (x : Nat) : Spec.Oracle.cpop T ⟨T, x⟩ = vCpop T ⟨T, x⟩ := by
  unfold Spec.Oracle.cpop vCpop
  rw [popcount_eq, Spec.ones, List.countP_eq_length_filter]

theorem o_rev (T : CTy) (hs : T.signed = false) (hb : T.bits ≤ 32) (x y : Nat) (hx : x < 2 ^ T.bits)
    (hy : y < 2 ^ T.bits) : Spec.Oracle.rev T ⟨T, x⟩ ⟨T, y⟩ = vRev T ⟨T, x⟩ ⟨T, y⟩ := by
  have e : Spec.Oracle.rev T ⟨T, x⟩ ⟨T, y⟩ = vRev T ⟨T, x⟩ ⟨T, y⟩ >>= fun r => .ok (CVal.cast T r) := by
    unfold Spec.Oracle.rev vRev
    have hf : ∀ c n m1 m2 r, Spec.Oracle.revIf T c n m1 m2 r = Model.revIf T c n m1 m2 r := by
      intro c n m1 m2 r; rfl
    simp only [hf]
    cases h1 : Model.revIf T (CVal.cast T (land ⟨T, y⟩ (lit 0b11111))) 1 (lit 0x55555555) ⟨.u32, 0xAAAAAAAA⟩ ⟨T, x⟩ <;>
      simp only [Outcome.ok_bind, Outcome.ub_bind, Outcome.abort_bind]
    rename_i r1
    cases h2 : Model.revIf T (CVal.cast T (land ⟨T, y⟩ (lit 0b11111))) 2 (lit 0x33333333) ⟨.u32, 0xCCCCCCCC⟩ r1 <;>
      simp only [Outcome.ok_bind, Outcome.ub_bind, Outcome.abort_bind]
    rename_i r2
    cases h3 : Model.revIf T (CVal.cast T (land ⟨T, y⟩ (lit 0b11111))) 4 (lit 0x0F0F0F0F) ⟨.u32, 0xF0F0F0F0⟩ r2 <;>
      simp only [Outcome.ok_bind, Outcome.ub_bind, Outcome.abort_bind]
    rename_i r3
    by_cases z1 : T.size = 1
    · simp only [z1, if_true, Outcome.ok_bind]
    · simp only [z1, if_false]
      cases h4 : Model.revIf T (CVal.cast T (land ⟨T, y⟩ (lit 0b11111))) 8 (lit 0x00FF00FF) ⟨.u32, 0xFF00FF00⟩ r3 <;>
        simp only [Outcome.ok_bind, Outcome.ub_bind, Outcome.abort_bind]
      by_cases z2 : T.size = 2
      · simp only [z2, if_true, Outcome.ok_bind]
      · simp only [z2, if_false]
  obtain ⟨z, h1, h2, -⟩ := vRev_nat T hs hb x y hx hy
  rw [e, h2, Outcome.ok_bind, cast_self T ⟨T, z⟩ rfl]
  cty_cases T <;> simp only [CTy.bits, Nat.reducePow] at h1 <;> range_split <;> omega

theorem o_ror (T : CTy) (hs : T.signed = false) (hb : T.bits ≤ 32) (x y : Nat) (hx : x < 2 ^ T.bits) :
    Spec.Oracle.ror T ⟨T, x⟩ ⟨T, y⟩ = vRor T ⟨T, x⟩ ⟨T, y⟩ := by
  have e : Spec.Oracle.ror T ⟨T, x⟩ ⟨T, y⟩ = vRor T ⟨T, x⟩ ⟨T, y⟩ >>= fun r => .ok (CVal.cast T r) := rfl
  obtain ⟨z, h1, h2, -⟩ := vRor_nat T hs hb x y hx
  rw [e, h2, Outcome.ok_bind, cast_self T ⟨T, z⟩ rfl]
  cty_cases T <;> simp only [CTy.bits, Nat.reducePow] at h1 <;> range_split <;> omega

/-- The test's loop finds the first one bit from the top. -/
theorem leadLoop_ok (T : CTy) (hs : T.signed = false) (hb : T.bits ≤ 32) (x : Nat) :
    ∀ (k count : Nat), count + k = T.bits → x < 2 ^ k →
      Spec.Oracle.leadLoop T ((T.size : Int) * 8) ⟨T, x⟩ k count =
        .ok (CVal.cast T (lit ((count + countlZero k x : Nat) : Int)))
  | 0, count, hk, _ => by
    have hsz : ((T.size : Int) * 8) = T.bits := by cases T <;> rfl
    rw [Spec.Oracle.leadLoop, hsz, countlZero, ← hk]
  | k + 1, count, hk, hx => by
    have hsz : ((T.size : Int) * 8) = T.bits := by cases T <;> rfl
    have ih := leadLoop_ok T hs hb x k (count + 1) (by omega)
    rw [hsz] at ih ⊢
    have hlt : x * 2 ^ count < 2 ^ T.bits := by
      rw [← hk, Nat.add_comm, pow_add]
      exact Nat.mul_lt_mul_of_pos_right hx (Nat.pow_pos (by omega))
    have hc : (count : Int).toNat = count := Int.toNat_natCast _
    have hd : x * 2 ^ count / 2 ^ (T.bits - 1) = x / 2 ^ k := by
      rw [show T.bits - 1 = k + count by omega, pow_add, Nat.mul_div_mul_right _ _ (Nat.pow_pos (by omega))]
    have hcb : count < T.bits := by omega
    have e : (shl ⟨T, x⟩ (lit count) >>= fun a => shr a (lit ((T.bits : Int) - 1))) =
        .ok ⟨CTy.promote T, ((x / 2 ^ k : Nat) : Int)⟩ := by
      rw [← hd]
      push_cast
      have hlt' : (x : Int) * 2 ^ (count : Int).toNat < 2 ^ T.bits := by rw [hc]; exact_mod_cast hlt
      have hlt0 : 0 ≤ (x : Int) * 2 ^ (count : Int).toNat := Int.mul_nonneg (by omega) (by exact pow_nonneg (by omega) _)
      have hx0 : (0 : Int) ≤ x := by omega
      have hc0 : (0 : Int) ≤ count := by omega
      have hcb' : (count : Int) < T.bits := by omega
      rw [← hc, Int.toNat_natCast]
      clear ih hd hlt hx hk hcb
      cty_cases T <;> simp only [CTy.bits, Int.reducePow, Int.cast_ofNat_Int, lit] at *
      · rw [shl_u8 _ _ _ hc0 (by omega) hx0 (by omega), Outcome.ok_bind, shr_i32 _ _ _ (by omega) (by omega)]
        rfl
      · rw [shl_u16 _ _ _ hc0 (by omega) hx0 (by omega), Outcome.ok_bind, shr_i32 _ _ _ (by omega) (by omega)]
        rfl
      · rw [shl_u32 _ _ _ hc0 (by omega), Outcome.ok_bind, shr_u32 _ _ _ (by omega) (by omega), wrap_u32_def,
          Int.emod_eq_of_lt hlt0 (by omega)]
        rfl
    have hb1 : x / 2 ^ k = if x.testBit k then 1 else 0 := by
      have h2 : x / 2 ^ k < 2 := by
        rw [Nat.div_lt_iff_lt_mul (Nat.pow_pos (by omega))]
        rw [pow_succ] at hx; omega
      rw [Nat.testBit_eq_decide_div_mod_eq]
      have : x / 2 ^ k = 0 ∨ x / 2 ^ k = 1 := by
        generalize x / 2 ^ k = q at h2
        omega
      rcases this with h | h <;> rw [h] <;> rfl
    have e' : Spec.Oracle.leadLoop T (T.bits : Int) ⟨T, x⟩ (k + 1) count =
        (shl ⟨T, x⟩ (lit count) >>= fun a => shr a (lit ((T.bits : Int) - 1))) >>= fun b =>
          if CVal.ne b (lit 0) then .ok (CVal.cast T (lit count))
          else Spec.Oracle.leadLoop T (T.bits : Int) ⟨T, x⟩ k ((count : Int) + 1) := by
      rw [Spec.Oracle.leadLoop]
      cases shl ⟨T, x⟩ (lit count) <;> rfl
    rw [e', e, Outcome.ok_bind, hb1, countlZero]
    cases ht : x.testBit k
    · have hn : CVal.ne ⟨CTy.promote T, ((if false = true then 1 else 0 : Nat) : Int)⟩ (lit 0) = false := by
        cty_cases T <;> decide
      rw [hn]
      simp only [Bool.false_eq_true, if_false]
      have hx' : x < 2 ^ k := by
        by_contra hge
        have : x / 2 ^ k ≠ 0 :=
          Nat.pos_iff_ne_zero.mp (Nat.div_pos (Nat.le_of_not_lt hge) (Nat.pow_pos (n := k) (show 0 < 2 by decide)))
        rw [hb1, ht] at this; simp at this
      have := ih hx'
      push_cast at this ⊢
      rw [this]
      rw [add_right_comm, add_assoc]
    · have hn : CVal.ne ⟨CTy.promote T, ((if true = true then 1 else 0 : Nat) : Int)⟩ (lit 0) = true := by
        cty_cases T <;> decide
      rw [hn]
      simp

theorem o_clz (T : CTy) (hs : T.signed = false) (hb : T.bits ≤ 32) (x : Nat) (hx : x < 2 ^ T.bits) :
    Spec.Oracle.clz T ⟨T, x⟩ = vClz T ⟨T, x⟩ := by
  have hsz : T.size * 8 = T.bits := by cases T <;> rfl
  have := leadLoop_ok T hs hb x T.bits 0 (by omega) hx
  unfold Spec.Oracle.clz vClz
  simp only [hsz]
  simpa using this

theorem countlZero_compl (w x : Nat) (hx : x < 2 ^ w) : ∀ k ≤ w, countlZero k (2 ^ w - (x + 1)) = countlOne k x
  | 0, _ => rfl
  | k + 1, hk => by
    rw [countlZero, countlOne, countlZero_compl w x hx k (by omega), Nat.testBit_two_pow_sub_succ hx]
    have : decide (k < w) = true := decide_eq_true (by omega)
    rw [this]
    cases x.testBit k <;> rfl

theorem msb_test (T : CTy) (hs : T.signed = false) (hb : T.bits ≤ 32) (x : Nat) (hx : x < 2 ^ T.bits) :
    ne (land ⟨T, x⟩ ⟨.u32, 2 ^ (T.size * 8 - 1)⟩) (lit 0) = x.testBit (T.bits - 1) := by
  have hu : CTy.usual T .u32 = .u32 := by cty_cases T <;> rfl
  have hsz : T.size * 8 - 1 = T.bits - 1 := by cases T <;> rfl
  have hx' : x < 2 ^ 32 := lt_of_lt_of_le hx (Nat.pow_le_pow_right (by omega) hb)
  have hp : 2 ^ (T.bits - 1) < 2 ^ 32 := Nat.pow_lt_pow_right (by omega) (by omega)
  have hz : x &&& 2 ^ (T.bits - 1) < 2 ^ 32 := Nat.and_lt_two_pow _ hp
  have e := land_nat T .u32 x (2 ^ (T.bits - 1))
  rw [hu] at e
  have e := e hx' hp (by range_split <;> omega)
  rw [hsz]
  push_cast at e
  rw [e]
  have e2 : ne ⟨CTy.u32, ((x &&& 2 ^ (T.bits - 1) : Nat) : Int)⟩ (lit 0) = decide (x &&& 2 ^ (T.bits - 1) ≠ 0) := by
    generalize x &&& 2 ^ (T.bits - 1) = z at *
    have h1 : CTy.wrap .u32 (z : Int) = z := by rw [wrap_u32_def]; omega
    have h0 : CTy.wrap .u32 0 = 0 := rfl
    change (!decide (CTy.wrap .u32 (z : Int) = CTy.wrap .u32 0)) = _
    rw [h1, h0]
    by_cases h : z = 0 <;> simp [h]
  rw [e2, Nat.and_two_pow]
  cases x.testBit (T.bits - 1) <;> simp

theorem o_clb (T : CTy) (hs : T.signed = false) (hb : T.bits ≤ 32) (x : Nat) (hx : x < 2 ^ T.bits) :
    Spec.Oracle.clb T ⟨T, x⟩ = vClb T ⟨T, x⟩ := by
  have hm : shl ⟨.u32, 1⟩ (lit ((T.size : Int) * 8 - 1)) = .ok ⟨.u32, 2 ^ (T.size * 8 - 1)⟩ := by
    cty_cases T <;> decide +kernel
  have hnot : CVal.cast T (lnot ⟨T, x⟩) = ⟨T, ((2 ^ T.bits - (x + 1) : Nat) : Int)⟩ := by
    have : (((2 ^ T.bits - (x + 1) : Nat)) : Int) = 2 ^ T.bits - (x + 1) := by
      rw [Int.ofNat_sub (by omega)]; push_cast; ring
    rw [this]
    clear hm this
    have hi : lnot ⟨.i32, x⟩ = ⟨.i32, (~~~ BitVec.ofNat 32 x).toInt⟩ := by
      have : lnot ⟨.i32, x⟩ = ofBits .i32 (~~~ BitVec.ofInt 32 x) := rfl
      rw [this, BitVec.ofInt_natCast, ofBits_i32]
    have hiu : lnot ⟨.u32, x⟩ = ⟨.u32, (~~~ BitVec.ofNat 32 x).toNat⟩ := by
      have : lnot ⟨.u32, x⟩ = ofBits .u32 (~~~ BitVec.ofInt 32 x) := rfl
      rw [this, BitVec.ofInt_natCast, ofBits_u32]
    have h8 : lnot ⟨.u8, x⟩ = lnot ⟨.i32, x⟩ := rfl
    have h16 : lnot ⟨.u16, x⟩ = lnot ⟨.i32, x⟩ := rfl
    cty_cases T <;> simp only [CTy.bits, Nat.reducePow, Int.reducePow] at hx ⊢
    · rw [h8, hi, BitVec.toInt_not, BitVec.toNat_ofNat, Nat.mod_eq_of_lt (by omega), Int.bmod_def, CVal.cast, wrap_u8_def]
      refine congrArg (CVal.mk _) ?_; simp only [Nat.reducePow, Int.reducePow, Int.cast_ofNat_Int]; omega
    · rw [h16, hi, BitVec.toInt_not, BitVec.toNat_ofNat, Nat.mod_eq_of_lt (by omega), Int.bmod_def, CVal.cast, wrap_u16_def]
      refine congrArg (CVal.mk _) ?_; simp only [Nat.reducePow, Int.reducePow, Int.cast_ofNat_Int]; omega
    · rw [hiu, BitVec.toNat_not, BitVec.toNat_ofNat, Nat.mod_eq_of_lt (by omega), CVal.cast, wrap_u32_def]
      refine congrArg (CVal.mk _) ?_; simp only [Nat.reducePow, Nat.reduceSub]; omega
  unfold Spec.Oracle.clb vClb
  rw [hm, Outcome.ok_bind]
  simp only [msb_test T hs hb x hx]
  cases x.testBit (T.bits - 1)
  · simp only [Bool.false_eq_true, if_false]
    rw [o_clz T hs hb x hx]; rfl
  · simp only [if_true]
    rw [hnot, o_clz T hs hb _ (by have : 0 < 2 ^ T.bits := Nat.pow_pos (by decide); omega)]
    simp only [vClz, Int.toNat_natCast]
    rw [countlZero_compl T.bits x hx T.bits (le_refl _)]

/-! ## Oracles that are the implementation's expression -/

theorem o_eq : Spec.Oracle.eq = vEq := rfl
theorem o_ne : Spec.Oracle.ne = vNe := rfl
theorem o_lt : Spec.Oracle.lt = vLt := rfl
theorem o_le : Spec.Oracle.le = vLe := rfl
theorem o_gt : Spec.Oracle.gt = vGt := rfl
theorem o_ge : Spec.Oracle.ge = vGe := rfl
theorem o_and : Spec.Oracle.and = vAnd := rfl
theorem o_or : Spec.Oracle.or = vOr := rfl
theorem o_xor : Spec.Oracle.xor = vXor := rfl
theorem o_sll : Spec.Oracle.sll = vSll := rfl
theorem o_srx : Spec.Oracle.srx = vSrx := rfl
theorem o_addw : Spec.Oracle.addw = vAddw := rfl
theorem o_subw : Spec.Oracle.subw = vSubw := rfl
theorem o_mulw : Spec.Oracle.mulw = vMulw := rfl
theorem o_not : Spec.Oracle.not = vNot := rfl

end Verif.Proofs
