import Verif.Proofs.Exact
import Verif.Props.Words

/-! # C101: exactly when a vector instruction is undefined -/

namespace Verif.Props
open Verif Verif.Model Verif.Proofs

/-- The second operand of a lane instruction, read off the word. -/
def secondOf (sc : Bool) (w : BitVec 32) (x : Nat → BitVec 32) : Spec.Operand :=
  if sc then .scalar (Spec.argScalar w x) else .vreg (Spec.bitsAt w 20 6)

/-- An operand from its register `k` on. -/
def fromReg (k : Nat) : Spec.Operand → Spec.Operand
  | .vreg b => .vreg (b + k)
  | .scalar x => .scalar x

/-- `v` are the registers before iteration `k` of a 32-bit shift by a signed amount that starts with `v0`. -/
inductive ShiftChain (round : Bool) (T : CTy) (vd vs1 : Nat) (op2 : Spec.Operand) (v0 : VRF) : Nat → VRF → Prop where
  | zero : ShiftChain round T vd vs1 op2 v0 0 v0
  | succ {k v v'} : ShiftChain round T vd vs1 op2 v0 k v →
      Spec.Lanewise T.signed 32 T.signed 32 1 (vd + k) (vs1 + k) (fromReg k op2)
        (fun a b => Spec.sat T.signed 32 (Spec.shiftBoth round (Spec.wrap true 32 b) a)) v v' →
      ShiftChain round T vd vs1 op2 v0 (k + 1) v'

/-- A lane of iteration `k` is not zero and shifted by `-2^31`. -/
def BadLane (T : CTy) (vs1 : Nat) (op2 : Spec.Operand) (k : Nat) (v : VRF) : Prop :=
  ∃ e < 8, Spec.lane T.signed 32 (v (vs1 + k)) e ≠ 0 ∧ Spec.wrap true 32 (op2.elem T.signed 32 v k e) = -2147483648

/-- What must hold of the word and the state for the instruction to have a result. -/
def Defined (sem : Sem) (w : BitVec 32) (s : Arch) : Prop :=
  match sem with
  | .vec (.bin (.shift round) T) sc st => T.bits = 32 → ∀ k < (if st then 4 else 1), ∀ v,
      ShiftChain round T (Spec.bitsAt w 6 6) (Spec.bitsAt w 14 6) (secondOf sc w s.x) s.v k v →
      ¬ BadLane T (Spec.bitsAt w 14 6) (secondOf sc w s.x) k v
  | .dwconv _ => Spec.bitsAt (dwCmd w s.x) 2 2 ≠ 3 ∧ ∀ i < 32, ∃ c, s.dw (dwCell i) = some c ∧ ∀ n ≤ 3,
      -2 ^ 31 ≤ c.toInt + Spec.sum n (dwProduct (dwCmd w s.x) (Spec.bitsAt w 14 6) (Spec.bitsAt w 26 6) s.v i) ∧
      c.toInt + Spec.sum n (dwProduct (dwCmd w s.x) (Spec.bitsAt w 14 6) (Spec.bitsAt w 26 6) s.v i) < 2 ^ 31
  | .acset _ => Spec.bitsAt w 0 2 ≠ 3 ∧ ¬ (Spec.bitsAt w 2 3 = 2 ∧ Spec.bitsAt w 12 2 ≤ 1)
  | .adwinit => Spec.bitsAt w 0 2 ≠ 3
  | _ => True

theorem argScalar_mod (w : BitVec 32) (x : Nat → BitVec 32) :
    Spec.argScalar w x = if Spec.bitsAt w 20 6 = 0 then 0 else x (Spec.bitsAt w 20 6 % 32) := by
  rw [Spec.argScalar, show Spec.bitsAt w 20 5 = Spec.bitsAt w 20 6 % 32 by
    rw [← field_eq w 20 6]; exact (fVs2_mod w).symm]

theorem dwCell_at (i : Nat) (hi : i < 32) : dwCell i = dwAt i := by
  have : ∀ i < 32, dwCell i = dwAt i := by decide +kernel
  exact this i hi

/-- A depthwise convolution that completes met the conditions. -/
theorem dw_needs (wr : Bool) (cmd : BitVec 32) (vs1 vs3 vd : Nat) (rf : VRF) (acc : DwAcc) (p : Bool × VRF × DwAcc)
    (h : vdwconv wr cmd vs1 9 vs3 4 vd 4 rf acc = .ok p) :
    Spec.bitsAt cmd 2 2 ≠ 3 ∧ ∀ i < 32, ∃ c, acc (dwCell i) = some c ∧ ∀ n ≤ 3,
      -2 ^ 31 ≤ c.toInt + Spec.sum n (dwProduct cmd vs1 vs3 rf i) ∧ c.toInt + Spec.sum n (dwProduct cmd vs1 vs3 rf i) < 2 ^ 31 := by
  have hsp : Spec.bitsAt cmd 2 2 ≠ 3 := fun h3 => by rw [C32_dwconv_reserved_ub wr cmd h3] at h; cases h
  refine ⟨hsp, fun i hi => ?_⟩
  have hcmd1 : (DwCmd.of cmd).sparsity = Spec.bitsAt cmd 2 2 := field_eq ..
  have hb2 : Spec.bitsAt cmd 2 2 < 4 := by rw [← field_eq]; exact field_lt cmd 2 2
  have hbase : Spec.bitsAt cmd 4 4 < 16 := by rw [← field_eq]; exact field_lt cmd 4 4
  have hreg : (DwCmd.of cmd).regbase = Spec.bitsAt cmd 4 4 := field_eq ..
  obtain ⟨hidx, hlt⟩ := dwIdx_spec _ hbase
  have hs1 : (DwCmd.of cmd).sbias1 = Spec.sbitsAt cmd 12 9 := sbits_eq ..
  have hs2 : (DwCmd.of cmd).sbias2 = Spec.sbitsAt cmd 22 9 := sbits_eq ..
  have hbb1 : -256 ≤ Spec.sbitsAt cmd 12 9 ∧ Spec.sbitsAt cmd 12 9 ≤ 255 := bmod9_bounds _
  have hbb2 : -256 ≤ Spec.sbitsAt cmd 22 9 ∧ Spec.sbitsAt cmd 22 9 ≤ 255 := bmod9_bounds _
  have hf21 : decide ((DwCmd.of cmd).sdata1 ≠ 0) = decide (Spec.bitsAt cmd 21 1 = 1) := by
    have := field_lt cmd 21 1
    rw [show (DwCmd.of cmd).sdata1 = field cmd 21 1 from rfl, ← field_eq, decide_eq_decide]; omega
  have hf31 : decide ((DwCmd.of cmd).sdata2 ≠ 0) = decide (Spec.bitsAt cmd 31 1 = 1) := by
    have := field_lt cmd 31 1
    rw [show (DwCmd.of cmd).sdata2 = field cmd 31 1 from rfl, ← field_eq, decide_eq_decide]; omega
  rw [← hreg] at hlt
  unfold vdwconv at h
  simp only at h
  rw [if_pos ⟨hlt.1, hlt.2.1, hlt.2.2, by omega⟩] at h
  obtain ⟨acc', hl, -⟩ := bind_ok_inv h
  obtain ⟨-, j2, j3⟩ := dwLoop_inv (DwCmd.of cmd) (by omega) (by rw [hs1]; exact hbb1) (by rw [hs2]; exact hbb2)
    (rf (vs1 + (dwIdx (DwCmd.of cmd).regbase).1)) (rf (vs1 + (dwIdx (DwCmd.of cmd).regbase).2.1))
    (rf (vs1 + (dwIdx (DwCmd.of cmd).regbase).2.2)) (fun r => rf (vs3 + r)) (dwProduct cmd vs1 vs3 rf)
    (by
      intro i r
      rw [hf21, hf31, hs1, hs2, hcmd1, hreg, dwProduct, ← hidx]
      rfl) acc 3 le_rfl acc' hl i hi
  rw [← dwCell_at i hi] at j2 j3
  cases ha : acc (dwCell i) with
  | none => rw [ha] at j2; exact absurd (j2 (by omega)) (by decide)
  | some c =>
    refine ⟨c, rfl, fun n hn => ?_⟩
    obtain ⟨f1, f2⟩ := j3 c ha n hn
    constructor <;> omega

theorem form_le (w : BitVec 32) : Spec.bitsAt w 0 2 < 4 := by rw [← field_eq]; exact field_lt w 0 2

/-- `acset` and `actr` in any encoding. -/
theorem acset_any (maxPhys : Nat) (fresh : Nat → VReg) (r : Row) (hr : r ∈ allRows) (w : BitVec 32) (hw : r.matches w = true)
    (t : Bool) (hs : r.sem = .acset t) (s : Arch) :
    execRow maxPhys fresh r w s =
      if Spec.bitsAt w 0 2 ≠ 3 ∧ ¬ (Spec.bitsAt w 2 3 = 2 ∧ Spec.bitsAt w 12 2 ≤ 1) then
        some (do
          let a ← acset t (Spec.bitsAt w 14 6) 8 s.v s.acc
          .ok (false, { s with acc := a }))
      else some .ub := by
  have hok := List.all_eq_true.1 allRows_memOk r hr
  simp only [memRowOk, hs, Bool.and_eq_true, beq_iff_eq, Bool.not_eq_true'] at hok
  obtain ⟨⟨⟨ha, hd⟩, hsrc⟩, hm⟩ := hok
  have key : (allRows.all fun r => !(r.sem == .acset false || r.sem == .acset true) ||
      ((fixedFld r 26 6 == some 16 || fixedFld r 26 6 == some 17) && !r.isAdwinit)) = true := by decide +kernel
  have hk := List.all_eq_true.1 key r hr
  have hsem : (r.sem == .acset false || r.sem == .acset true) = true := by rw [hs]; cases t <;> rfl
  rw [hsem] at hk
  simp only [Bool.not_true, Bool.false_or, Bool.and_eq_true, Bool.or_eq_true, beq_iff_eq, Bool.not_eq_true'] at hk
  obtain ⟨hf2, hna⟩ := hk
  have hM : fM w = false := by
    rw [fM, fixedFld_field hw hm]; rfl
  have hfunc2 : 2 * (fFunc2 w / 2) = 16 := by
    rcases hf2 with h | h
    · rw [fFunc2, fixedFld_field hw h]
    · rw [fFunc2, fixedFld_field hw h]
  have e0 : fForm w = Spec.bitsAt w 0 2 := field_eq ..
  have e1 : fFunc1 w = Spec.bitsAt w 2 3 := field_eq ..
  have e2 : fSz w = Spec.bitsAt w 12 2 := field_eq ..
  have e3 : fVs1 w = Spec.bitsAt w 14 6 := field_eq ..
  simp only [execRow, hs]
  by_cases h3 : Spec.bitsAt w 0 2 = 3
  · rw [if_neg (fun h => h.1 h3)]
    have : SrcOpd.group (source r w 0) = .ub := by
      by_cases hz : fVs1 w = 0 <;> simp [source, hsrc, srcOpd, srcVs1, e0, h3, hz, SrcOpd.group]
    rw [this]; rfl
  · have hg : SrcOpd.group (source r w 0) = .ok (fVs1 w, src1Factor r w) := by
      simp [source, hsrc, srcOpd, srcVs1, e0, h3, hd, hM, hna, numOpsOf, SrcOpd.group]
    rw [hg, Outcome.ok_bind, e3]
    by_cases h2 : Spec.bitsAt w 2 3 = 2 ∧ Spec.bitsAt w 12 2 ≤ 1
    · rw [if_neg (fun h => h.2 h2)]
      have : src1Factor r w = 2 := by
        have hsz : Spec.bitsAt w 12 2 = 0 ∨ Spec.bitsAt w 12 2 = 1 := by omega
        unfold src1Factor src1Bits
        rw [hfunc2, e1, e2, h2.1]
        rcases hsz with h | h <;> rw [h] <;> rfl
      rw [this]; rfl
    · rw [if_pos ⟨h3, h2⟩]
      have : src1Factor r w = 8 := by
        unfold src1Factor src1Bits
        rw [hfunc2, e1, e2]
        have hc : ((Spec.bitsAt w 2 3 == 2 && (Spec.bitsAt w 12 2 == 0 || Spec.bitsAt w 12 2 == 1)) : Bool) = false := by
          rw [Bool.eq_false_iff]
          intro h
          simp only [Bool.and_eq_true, Bool.or_eq_true, beq_iff_eq] at h
          exact h2 ⟨h.1, by omega⟩
        simp [hc, ha]
      rw [this]

/-- `adwinit` in any encoding. -/
theorem adwinit_any (maxPhys : Nat) (fresh : Nat → VReg) (r : Row) (hr : r ∈ allRows) (w : BitVec 32) (hw : r.matches w = true)
    (hs : r.sem = .adwinit) (s : Arch) :
    execRow maxPhys fresh r w s =
      if Spec.bitsAt w 0 2 ≠ 3 then
        some (do
          let p ← adwinit (Spec.bitsAt w 14 6) 4 (Spec.bitsAt w 6 6) 4 fresh s.v s.dw
          .ok (false, { s with v := p.1, dw := p.2 }))
      else some .ub := by
  have hok := List.all_eq_true.1 allRows_memOk r hr
  simp only [memRowOk, hs, Bool.and_eq_true, beq_iff_eq, Bool.not_eq_true'] at hok
  obtain ⟨⟨⟨⟨⟨⟨ha, hd⟩, hac⟩, hco⟩, hv⟩, hsrc⟩, hm⟩ := hok
  have e0 : fForm w = Spec.bitsAt w 0 2 := field_eq ..
  have e3 : fVs1 w = Spec.bitsAt w 14 6 := field_eq ..
  have e6 : fVd w = Spec.bitsAt w 6 6 := field_eq ..
  simp only [execRow, hs]
  by_cases h3 : Spec.bitsAt w 0 2 = 3
  · rw [if_neg (fun h => h h3)]
    have : SrcOpd.group (source r w 0) = .ub := by
      by_cases hz : fVs1 w = 0 <;> simp [source, hsrc, srcOpd, srcVs1, e0, h3, hz, SrcOpd.group]
    rw [this]; rfl
  · rw [if_pos h3]
    have hg : SrcOpd.group (source r w 0) = .ok (fVs1 w, 4 * src1Factor r w) := by
      simp [source, hsrc, srcOpd, srcVs1, e0, h3, hd, ha, numOpsOf, SrcOpd.group]
    have h1 : 1 ≤ src1Factor r w := by
      unfold src1Factor
      dsimp only
      repeat' split
      all_goals omega
    have h2 : 4 ≤ dstVdLen r w := by
      simp only [dstVdLen, ha, Bool.or_true, Bool.true_or]
      split <;> simp [numOpsOf]
    rw [hg, Outcome.ok_bind, e3, e6]
    have : adwinit (Spec.bitsAt w 14 6) (4 * src1Factor r w) (Spec.bitsAt w 6 6) (dstVdLen r w) fresh s.v s.dw =
        adwinit (Spec.bitsAt w 14 6) 4 (Spec.bitsAt w 6 6) 4 fresh s.v s.dw := by
      unfold adwinit
      rw [if_pos ⟨by omega, h2⟩, if_pos ⟨by omega, by omega⟩]
    rw [this]

/-- C101: every word of `adwinit`. In form 3 it reads registers it does not have; otherwise the accumulator becomes a copy of the four
source registers, and eight bytes of each go to the destination. -/
theorem C101_adwinit (maxPhys : Nat) (fresh : Nat → VReg) (r : Row) (hr : r ∈ allRows) (w : BitVec 32) (hw : r.matches w = true)
    (hs : r.sem = .adwinit) (s : Arch) :
    (Spec.bitsAt w 0 2 = 3 → execRow maxPhys fresh r w s = some .ub) ∧
    (Spec.bitsAt w 0 2 ≠ 3 → ∃ v' dw', execRow maxPhys fresh r w s = some (.ok (false, { s with v := v', dw := dw' })) ∧
      (∀ k < 4, ∀ e < 8, dw' (8 * k + e) = some ((s.v (Spec.bitsAt w 14 6 + k)).extractLsb' (e * 32) 32)) ∧
      (∀ k < 4, ∀ b < 32, (v' (Spec.bitsAt w 6 6 + k)).extractLsb' (b * 8) 8 =
        (if b < 8 then s.v (Spec.bitsAt w 14 6 + k) else fresh k).extractLsb' (b * 8) 8) ∧
      Spec.Frame (Spec.bitsAt w 6 6) 4 s.v v') := by
  rw [adwinit_any maxPhys fresh r hr w hw hs s]
  refine ⟨fun h => if_neg (fun h' => h' h), fun h => ?_⟩
  rw [if_pos h]
  obtain ⟨v', dw', h1, h2⟩ := adwinit_run (Spec.bitsAt w 14 6) (Spec.bitsAt w 6 6) (adwinit_apart r hr w hw hs) fresh s.v s.dw
  refine ⟨v', dw', ?_, h2⟩
  rw [h1]; rfl

/-- `adwinit` from `v8` to `v4`, in the encoding of the assembler and in another. -/
example : ∃ r ∈ allRows, r.sem = .adwinit ∧ r.matches 0x48020106#32 = true ∧ r.matches 0x48020104#32 = true := by
  have h : (allRows.any fun r => r.sem == .adwinit && r.matches 0x48020106#32 && r.matches 0x48020104#32) = true := by decide +kernel
  obtain ⟨r, hr, h⟩ := List.any_eq_true.1 h
  simp only [Bool.and_eq_true, beq_iff_eq] at h
  exact ⟨r, hr, h.1.1, h.1.2, h.2⟩

theorem chain_unique {round : Bool} {T : CTy} (hT : T.bits = 32) {vd vs1 : Nat} {op2 : Spec.Operand} {v0 : VRF} {k : Nat} {v : VRF}
    (h : ShiftChain round T vd vs1 op2 v0 k v) : ∀ {v'}, ShiftChain round T vd vs1 op2 v0 k v' → v = v' := by
  induction h with
  | zero => intro v' h; cases h; rfl
  | @succ k u u' h l ih =>
    intro v' h'
    cases h' with
    | succ h2 l2 =>
      have := ih h2
      subst this
      funext q
      by_cases hq : q < vd + k ∨ vd + k + 1 ≤ q
      · rw [l.2 q hq, l2.2 q hq]
      · have : q = vd + k := by omega
        subst this
        refine reg_ext T _ _ fun e he => ?_
        have he : e < 256 / 32 := by
          have : lanesOf T = 8 := by cases T <;> simp_all [lanesOf, CTy.bits, CTy.size]
          omega
        rw [hT]
        have e1 := l.1 0 (by omega) e he
        have e2 := l2.1 0 (by omega) e he
        simp only [Nat.add_zero] at e1 e2
        rw [e1, e2]

theorem regInst_elem (i : VInst) (s : Bool) (w : Nat) (rf : VRF) (k e : Nat) :
    (regInst i k).op2.elem s w rf 0 e = i.op2.elem s w rf k e := by
  unfold regInst
  cases i.op2 <;> rfl

/-- One register of a 32-bit shift. -/
theorem shift_one (round : Bool) (T : CTy) (hT : T.bits = 32) (i : VInst) (k : Nat) (v : VRF) :
    (¬ BadLane T i.vs1 i.op2 k v → ∃ v', (VOp.bin (.shift round) T).run (regInst i k) v = .ok v' ∧
      Spec.Lanewise T.signed 32 T.signed 32 1 (i.vd + k) (i.vs1 + k) (fromReg k i.op2)
        (fun a b => Spec.sat T.signed 32 (Spec.shiftBoth round (Spec.wrap true 32 b) a)) v v') ∧
    (BadLane T i.vs1 i.op2 k v → (VOp.bin (.shift round) T).run (regInst i k) v = .ub) := by
  have hn : (regInst i k).n = 1 := rfl
  have a1 : Spec.NoOverlap (regInst i k).vd (regInst i k).vs1 (regInst i k).n := by rw [hn]; unfold Spec.NoOverlap; omega
  have a2 : (regInst i k).op2.NoOverlap (regInst i k).vd (regInst i k).n := by
    rw [hn]
    cases (regInst i k).op2 with
    | vreg b => show Spec.NoOverlap _ _ _; unfold Spec.NoOverlap; omega
    | scalar x => trivial
  have hop : (regInst i k).op2 = fromReg k i.op2 := by unfold regInst fromReg; cases i.op2 <;> rfl
  refine ⟨fun h => ?_, fun ⟨e, he, h0, hm⟩ => ?_⟩
  · obtain ⟨v', h1, h2⟩ := C13_vshift_partial round T (by omega) (regInst i k) v a1 a2 (by
      rw [hT]
      intro j hj e he hh
      have : j = 0 := by rw [hn] at hj; omega
      subst this
      rw [regInst_elem] at hh
      exact h ⟨e, he, hh.1, hh.2⟩)
    refine ⟨v', h1, ?_⟩
    rw [hT, hn, hop] at h2
    exact h2
  · exact shift_exact round T hT (regInst i k) v a1 a2 0 e (by rw [hn]; omega) (by rw [hT]; exact he)
      (by rw [hT]; exact h0) (by rw [hT, regInst_elem]; exact hm)

/-- The registers of a 32-bit shift in turn. -/
theorem shift_seq (round : Bool) (T : CTy) (hT : T.bits = 32) (i : VInst) (v0 : VRF) (n : Nat) :
    ((∀ k < n, ∀ v, ShiftChain round T i.vd i.vs1 i.op2 v0 k v → ¬ BadLane T i.vs1 i.op2 k v) →
      ∃ v, (List.range n).foldlM (fun v k => (VOp.bin (.shift round) T).run (regInst i k) v) v0 = .ok v ∧
        ShiftChain round T i.vd i.vs1 i.op2 v0 n v) ∧
    (¬ (∀ k < n, ∀ v, ShiftChain round T i.vd i.vs1 i.op2 v0 k v → ¬ BadLane T i.vs1 i.op2 k v) →
      (List.range n).foldlM (fun v k => (VOp.bin (.shift round) T).run (regInst i k) v) v0 = .ub) := by
  induction n with
  | zero => exact ⟨fun _ => ⟨v0, rfl, .zero⟩, fun h => absurd (fun k hk => by omega) h⟩
  | succ n ih =>
    rw [List.range_succ, List.foldlM_append]
    obtain ⟨ih1, ih2⟩ := ih
    by_cases hn : ∀ k < n, ∀ v, ShiftChain round T i.vd i.vs1 i.op2 v0 k v → ¬ BadLane T i.vs1 i.op2 k v
    · obtain ⟨v, e, hc⟩ := ih1 hn
      rw [e, Outcome.ok_bind]
      obtain ⟨o1, o2⟩ := shift_one round T hT i n v
      refine ⟨fun h => ?_, fun h => ?_⟩
      · obtain ⟨v', e', l⟩ := o1 (h n (by omega) v hc)
        refine ⟨v', ?_, .succ hc l⟩
        rw [List.foldlM_cons, e']; rfl
      · have : BadLane T i.vs1 i.op2 n v := by
          by_contra hb
          refine h fun k hk u hu => ?_
          by_cases e : k = n
          · subst e; rw [← chain_unique hT hc hu]; exact hb
          · exact hn k (by omega) u hu
        rw [List.foldlM_cons, o2 this]; rfl
    · rw [ih2 hn]
      exact ⟨fun h => absurd (fun k hk => h k (by omega)) hn, fun _ => rfl⟩

theorem shift_run (round : Bool) (T : CTy) (i : VInst) (v : VRF) :
    (VOp.bin (.shift round) T).run i v =
      (List.range (if i.strip then 4 else 1)).foldlM (fun v k => (VOp.bin (.shift round) T).run (regInst i k) v) v := by
  cases hs : i.strip with
  | true => exact bin_seq _ T i hs v
  | false =>
    have : regInst i 0 = i := by
      obtain ⟨vd, vs1, op2, st⟩ := i
      cases hs
      cases op2 <;> rfl
    simp only [Bool.false_eq_true, if_false, List.range_one, List.foldlM_cons, List.foldlM_nil, this]
    exact (Outcome.bind_ok _).symm

/-- C101: an instruction completes if the conditions of `Defined` hold, and is undefined otherwise. -/
theorem C101_exact (maxPhys : Nat) (fresh : Nat → VReg) (r : Row) (hr : r ∈ allRows) (w : BitVec 32) (hw : r.matches w = true)
    (hs : r.sem ≠ .scalar) (s : Arch) :
    (Defined r.sem w s → ∃ t s', execRow maxPhys fresh r w s = some (.ok (t, s'))) ∧
    (¬ Defined r.sem w s → execRow maxPhys fresh r w s = some .ub) := by
  by_cases hf : formOk r w
  · refine ⟨fun _ => exec_total maxPhys fresh hr hw hs hf s, fun h => absurd ?_ h⟩
    unfold formOk at hf
    unfold Defined
    split
    · rename_i e
      rw [e] at hf
      simp only [wordShift, decide_eq_false_iff_not] at hf
      exact fun h => absurd h hf
    · rename_i e; rw [e] at hf; exact hf.elim
    · rename_i e
      rw [e] at hf
      obtain ⟨h1, h2⟩ := hf
      rw [show Spec.bitsAt w 0 2 = 2 from (field_eq ..).symm.trans h2, show Spec.bitsAt w 2 3 = 1 from (field_eq ..).symm.trans h1]
      exact ⟨by decide, fun h => absurd h.1 (by decide)⟩
    · rename_i e
      rw [e] at hf
      rw [show Spec.bitsAt w 0 2 = 2 from (field_eq ..).symm.trans hf.2]
      decide
    · trivial
  · cases e : r.sem with
    | scalar => exact absurd e hs
    | vld _ _ _ _ _ _ | vst _ _ _ _ _ _ | vstq _ _ _ | vdup _ _ | getvl _ _ _ _ | vcget | aconv =>
      exact absurd (by simp only [formOk, e]) hf
    | acset t =>
      rw [acset_any maxPhys fresh r hr w hw t e s]
      refine ⟨fun h => ?_, fun h => if_neg h⟩
      have h : Spec.bitsAt w 0 2 ≠ 3 ∧ ¬ (Spec.bitsAt w 2 3 = 2 ∧ Spec.bitsAt w 12 2 ≤ 1) := h
      rw [if_pos h, acset_run]
      exact ⟨_, _, rfl⟩
    | adwinit =>
      rw [adwinit_any maxPhys fresh r hr w hw e s]
      refine ⟨fun h => ?_, fun h => if_neg h⟩
      have h : Spec.bitsAt w 0 2 ≠ 3 := h
      rw [if_pos h]
      obtain ⟨p, hp⟩ := adwinit_total (Spec.bitsAt w 14 6) (Spec.bitsAt w 6 6) fresh s.v s.dw
      rw [hp]; exact ⟨_, _, rfl⟩
    | dwconv wr =>
      have he := C37_dwconv maxPhys fresh r hr w hw wr e s
      rw [show (if Spec.bitsAt w 20 5 = 0 then 0 else s.x (Spec.bitsAt w 20 5)) = dwCmd w s.x from rfl] at he
      refine ⟨fun h => ?_, fun h => ?_⟩
      · obtain ⟨h1, h2⟩ := h
        have hcell : ∀ q < 32, dwCell (dwLane q) = q ∧ dwLane q < 32 := by decide +kernel
        have hc : ∀ q < 32, s.dw q = some ((s.dw q).getD 0) := fun q hq => by
          obtain ⟨c, hc, -⟩ := h2 (dwLane q) (hcell q hq).2
          rw [(hcell q hq).1] at hc
          rw [hc]; rfl
        obtain ⟨v', dw', c', g1, -⟩ := C34_dwconv_partial wr (dwCmd w s.x) h1 (Spec.bitsAt w 14 6) (Spec.bitsAt w 26 6) (Spec.bitsAt w 6 6)
          s.v s.dw (fun q => (s.dw q).getD 0) hc (fun i hi n hn => by
            obtain ⟨c, hc, hn'⟩ := h2 i hi
            rw [hc]; exact hn' n hn)
        rw [he, g1]
        exact ⟨_, _, rfl⟩
      · rw [he]
        cases hv : vdwconv wr (dwCmd w s.x) (Spec.bitsAt w 14 6) 9 (Spec.bitsAt w 26 6) 4 (Spec.bitsAt w 6 6) 4 s.v s.dw with
        | ub => rfl
        | abort => exact absurd hv (vdwconv_noAbort _ _ _ _ _ _ _ _ _ _)
        | ok p => exact absurd (dw_needs _ _ _ _ _ _ _ _ hv) h
    | vec op sc st =>
      have hop : wordShift op = true := by
        by_contra hc
        exact hf (by simp only [formOk, e]; simpa using hc)
      match op, hop with
      | .bin (.shift round) T, hop =>
        have hT : T.bits = 32 := by simpa [wordShift] using hop
        have he := C37_operands maxPhys fresh r hr w hw _ sc st e s
        rw [show (if sc = true then Spec.Operand.scalar (if Spec.bitsAt w 20 6 = 0 then 0 else s.x (Spec.bitsAt w 20 6 % 32))
          else .vreg (Spec.bitsAt w 20 6)) = secondOf sc w s.x from by rw [secondOf, argScalar_mod]] at he
        rw [he]
        have hq := shift_seq round T hT ⟨Spec.bitsAt w 6 6, Spec.bitsAt w 14 6, secondOf sc w s.x, st⟩ s.v (if st then 4 else 1)
        have hrun := shift_run round T ⟨Spec.bitsAt w 6 6, Spec.bitsAt w 14 6, secondOf sc w s.x, st⟩ s.v
        rw [hrun]
        refine ⟨fun h => ?_, fun h => ?_⟩
        · obtain ⟨v', e', -⟩ := hq.1 (h hT)
          rw [e']; exact ⟨_, _, rfl⟩
        · rw [hq.2 fun hh => h fun _ => hh]; rfl

/-- C101: when the destination group does not start inside a source group, the lanes of the shift are those of the start. -/
theorem C101_shift_apart (maxPhys : Nat) (fresh : Nat → VReg) (r : Row) (hr : r ∈ allRows) (w : BitVec 32) (hw : r.matches w = true)
    (round : Bool) (T : CTy) (hT : T.bits = 32) (sc st : Bool) (hs : r.sem = .vec (.bin (.shift round) T) sc st) (s : Arch)
    (a1 : Spec.NoOverlap (Spec.bitsAt w 6 6) (Spec.bitsAt w 14 6) (if st then 4 else 1))
    (a2 : (secondOf sc w s.x).NoOverlap (Spec.bitsAt w 6 6) (if st then 4 else 1)) :
    (∃ k < (if st then 4 else 1), BadLane T (Spec.bitsAt w 14 6) (secondOf sc w s.x) k s.v) ↔
      execRow maxPhys fresh r w s = some .ub := by
  have he := C37_operands maxPhys fresh r hr w hw _ sc st hs s
  rw [show (if sc = true then Spec.Operand.scalar (if Spec.bitsAt w 20 6 = 0 then 0 else s.x (Spec.bitsAt w 20 6 % 32))
    else .vreg (Spec.bitsAt w 20 6)) = secondOf sc w s.x from by rw [secondOf, argScalar_mod]] at he
  rw [he]
  constructor
  · rintro ⟨k, hk, e, he, h0, hm⟩
    rw [shift_exact round T hT ⟨Spec.bitsAt w 6 6, Spec.bitsAt w 14 6, secondOf sc w s.x, st⟩ s.v a1 a2 k e hk
      (by rw [hT]; exact he) (by rw [hT]; exact h0) (by rw [hT]; exact hm)]
    rfl
  · intro h
    by_contra hn
    obtain ⟨rf', h1, -⟩ := C13_vshift_partial round T (by omega)
      ⟨Spec.bitsAt w 6 6, Spec.bitsAt w 14 6, secondOf sc w s.x, st⟩ s.v a1 a2 (by
        rw [hT]
        intro k hk e he hh
        exact hn ⟨k, hk, e, he, hh.1, hh.2⟩)
    rw [h1] at h
    cases h

/-- C101: the registers of `acset` and `actr` in every encoding with a result. -/
theorem C101_acset (maxPhys : Nat) (fresh : Nat → VReg) (r : Row) (hr : r ∈ allRows) (w : BitVec 32) (hw : r.matches w = true)
    (t : Bool) (hs : r.sem = .acset t) (s : Arch) (hd : Defined (.acset t) w s) :
    ∃ acc', execRow maxPhys fresh r w s = some (.ok (false, { s with acc := acc' })) ∧
      ∀ i < 8, ∀ c < 8, acc' i c = if t then (s.v (Spec.bitsAt w 14 6 + c)).extractLsb' (i * 32) 32
        else (s.v (Spec.bitsAt w 14 6 + i)).extractLsb' (c * 32) 32 := by
  have hd : Spec.bitsAt w 0 2 ≠ 3 ∧ ¬ (Spec.bitsAt w 2 3 = 2 ∧ Spec.bitsAt w 12 2 ≤ 1) := hd
  rw [acset_any maxPhys fresh r hr w hw t hs s, if_pos hd]
  obtain ⟨acc', h1, h2⟩ := C33_acset t (Spec.bitsAt w 14 6) s.v s.acc
  rw [h1]
  exact ⟨acc', rfl, h2⟩

/-- The instructions with a condition: all others have a result on every word and in every state. -/
theorem C101_unconditional (maxPhys : Nat) (fresh : Nat → VReg) (r : Row) (hr : r ∈ allRows) (w : BitVec 32) (hw : r.matches w = true)
    (hs : r.sem ≠ .scalar) (hn : needsMore r = false) (s : Arch) : Defined r.sem w s := by
  by_contra h
  have h1 := (C101_exact maxPhys fresh r hr w hw hs s).2 h
  obtain ⟨t, s', h2⟩ := C37_completes maxPhys fresh r hr w hw hs hn s
  rw [h1] at h2
  cases h2

/-- Registers 20 and 21 hold `-2^31` in lane 0, the others zero. -/
def chainArch : Arch := { zeroArch with v := fun n => if n = 20 ∨ n = 21 then 0x80000000 else 0 }

/-- The chain of `Defined` is needed. `vsha.w.vv.m v2, v20, v1` in this state is undefined: the first iteration writes `-2^31` to `v2`,
which is the amount of the second. No amount is `-2^31` at the start. -/
example : ∃ r ∈ allRows, r.name = [.vsha, .w, .vv, .m] ∧ r.matches 0x201520a8#32 = true ∧
    (∀ k < 4, ¬ BadLane .i32 (Spec.bitsAt 0x201520a8#32 14 6) (secondOf false 0x201520a8#32 chainArch.x) k chainArch.v) ∧
    execRow 0x3fffff (fun _ => 0) r 0x201520a8#32 chainArch = some .ub ∧ ¬ Defined r.sem 0x201520a8#32 chainArch := by
  have h1 : (allRows.any fun r => r.name == [.vsha, .w, .vv, .m] && r.matches 0x201520a8#32 &&
    r.sem == .vec (.bin (.shift false) .i32) false true && match execRow 0x3fffff (fun _ => 0) r 0x201520a8#32 chainArch with
      | some .ub => true | _ => false) = true := by decide +kernel
  simp only [List.any_eq_true, Bool.and_eq_true, beq_iff_eq] at h1
  obtain ⟨r, hr, ⟨⟨hn, hm⟩, hs⟩, hu⟩ := h1
  have hu : execRow 0x3fffff (fun _ => 0) r 0x201520a8#32 chainArch = some .ub := by
    split at hu
    · assumption
    · cases hu
  refine ⟨r, hr, hn, hm, ?_, hu, fun hd => ?_⟩
  · have : ((List.range 4).all fun k => (List.range 8).all fun e =>
      decide (Spec.wrap true 32 ((secondOf false 0x201520a8#32 chainArch.x).elem true 32 chainArch.v k e) ≠ -2147483648)) = true := by
      decide +kernel
    simp only [List.all_eq_true, List.mem_range, decide_eq_true_eq] at this
    rintro k hk ⟨e, he, -, h⟩
    exact this k hk e he h
  · obtain ⟨t, s', h⟩ := (C101_exact 0x3fffff (fun _ => 0) r hr _ hm (by rw [hs]; simp) chainArch).1 hd
    rw [hu] at h
    cases h

/-- The same word has a result when all registers are zero. -/
example : ∃ r ∈ allRows, r.matches 0x201520a8#32 = true ∧ Defined r.sem 0x201520a8#32 zeroArch := by
  have h1 : (allRows.any fun r => r.matches 0x201520a8#32 && r.sem == .vec (.bin (.shift false) .i32) false true &&
      match execRow 0x3fffff (fun _ => 0) r 0x201520a8#32 zeroArch with | some (.ok _) => true | _ => false) = true := by decide +kernel
  simp only [List.any_eq_true, Bool.and_eq_true, beq_iff_eq] at h1
  obtain ⟨r, hr, ⟨hm, hs⟩, hu⟩ := h1
  refine ⟨r, hr, hm, ?_⟩
  by_contra hd
  rw [(C101_exact 0x3fffff (fun _ => 0) r hr _ hm (by rw [hs]; simp) zeroArch).2 hd] at hu
  cases hu

/-- `acset` with bits 4:2 = 1 has a result in every state. -/
example : ∃ r ∈ allRows, r.name = [.acset] ∧ r.matches 0x40040c04#32 = true ∧ ∀ s, Defined r.sem 0x40040c04#32 s := by
  have h1 : (allRows.any fun r => r.name == [.acset] && r.matches 0x40040c04#32 && r.sem == .acset false) = true := by decide +kernel
  simp only [List.any_eq_true, Bool.and_eq_true, beq_iff_eq] at h1
  obtain ⟨r, hr, ⟨hn, hm⟩, hs⟩ := h1
  refine ⟨r, hr, hn, hm, fun s => ?_⟩
  rw [hs]
  exact ⟨by decide, by decide⟩

end Verif.Props
