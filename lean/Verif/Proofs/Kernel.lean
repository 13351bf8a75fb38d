import Verif.Model.Kernel
import Verif.Spec.Kernel
import Verif.Proofs.DecodeExec

/-! # Loops of vector instructions -/

namespace Verif.Proofs
open Verif Verif.Model

theorem fVs1_half (w : BitVec 32) : fVs1 w / 2 = Spec.bitsAt w 15 5 := by
  rw [fVs1, field_nat, Spec.bitsAt]
  omega

theorem fVs2_mod (w : BitVec 32) : fVs2 w % 32 = Spec.bitsAt w 20 5 := by
  rw [fVs2, field_nat, Spec.bitsAt]
  omega

/-- The address of element `e` of an access without a stride that does not run over the end of the address space. -/
theorem unit_addr (T : CTy) (hT : T.bits ≤ 32) (base n e : Nat) (he : e < n) (h : base + n * (T.bits / 8) ≤ 2 ^ 32) :
    Spec.elemAddr base (Spec.lanes T.bits) (Spec.lanes T.bits) (T.bits / 8) e = base + e * (T.bits / 8) := by
  cases T <;> simp only [CTy.bits] at hT h ⊢ <;> first | omega | skip
  all_goals
    simp only [Spec.elemAddr, Spec.lanes, Nat.reduceDiv, Nat.reduceMul] at *
    omega

theorem memInst_rs1 {r : Row} {w : BitVec 32} (hf : fForm w = 3) (h0 : Spec.bitsAt w 15 5 ≠ 0) :
    scalarIdx (srcVs1 r w) = Spec.bitsAt w 15 5 + 1 := by
  have := fVs1_half w
  rw [srcVs1, if_pos hf, if_neg (by omega), this]; rfl

theorem memInst_rs2 {r : Row} {w : BitVec 32} (hf : fForm w = 3) (h0 : Spec.bitsAt w 20 5 ≠ 0) :
    scalarIdx (srcVs2 r w) = Spec.bitsAt w 20 5 + 1 := by
  have := fVs2_mod w
  rw [srcVs2, if_pos (.inr (.inl hf)), if_neg (by omega), this]; rfl

/-- What the length form of a load with post-increment does to the architectural state. -/
theorem run_vldLp (maxPhys : Nat) (fresh : Nat → VReg) {i : Inst} (hi : i.Ok) {T : CTy} {strip : Bool}
    (hs : i.row.sem = .vld T true false strip true true) (h1 : Spec.bitsAt i.word 15 5 ≠ 0)
    (h2 : Spec.bitsAt i.word 20 5 ≠ 0) (s : Arch) (base cnt : Nat)
    (hb : Spec.effBase maxPhys (s.x (Spec.bitsAt i.word 15 5)) = base)
    (hc : min (s.x (Spec.bitsAt i.word 20 5)).toNat ((if strip then 4 else 1) * Spec.lanes T.bits) = cnt)
    (hr : base + cnt * (T.bits / 8) ≤ 2 ^ 32) :
    ∃ s', i.run maxPhys fresh s = .ok s' ∧ s'.mem = s.mem ∧
      (∀ e < cnt, Spec.groupNat T.bits s'.v (Spec.bitsAt i.word 6 6) e =
        Spec.loadLE (T.bits / 8) s.mem (base + e * (T.bits / 8))) ∧
      Spec.Frame (Spec.bitsAt i.word 6 6) (if strip then 4 else 1) s.v s'.v ∧
      ∀ q, s'.x q = if q = Spec.bitsAt i.word 15 5 then BitVec.ofNat 32 (base + cnt * (T.bits / 8)) else s.x q := by
  obtain ⟨⟨hT, k, hk⟩, he⟩ := exec_vld maxPhys fresh hi.1 hi.2.1 hs s
  have hok := List.all_eq_true.1 allRows_memOk i.row hi.1
  simp only [memRowOk, hs, Bool.and_eq_true, beq_iff_eq] at hok
  have hform : fForm i.word = 3 := fixedFld_field hi.2.1 hok.1.1.1.1.1
  have hkl : k = .length := by
    have := form_kind hk
    rw [← this]; rfl
  subst hkl
  have e1 := memInst_rs1 (r := i.row) hform h1
  have e2 := memInst_rs2 (r := i.row) hform h2
  obtain ⟨m, hm, hmem, hv, hfr, hx⟩ := vld_run _ _ hk maxPhys (memState s)
  generalize hI : memInst i.row i.word T true false strip true true = I at *
  have hvd : I.vd = Spec.bitsAt i.word 6 6 := by rw [← hI]; exact field_eq ..
  have hIT : I.T = T := by rw [← hI]; rfl
  have hrs1 : readX (memState s).x I.rs1 = s.x (Spec.bitsAt i.word 15 5) := by
    rw [← hI]; show readX _ (scalarIdx (srcVs1 i.row i.word)) = _
    rw [e1, readX, if_neg (by omega)]; rfl
  have harg : arg2 I (memState s) = (s.x (Spec.bitsAt i.word 20 5)).toNat := by
    rw [← hI]; show (readX _ (scalarIdx (srcVs2 i.row i.word))).toNat = _
    rw [e2, readX, if_neg (by omega)]; rfl
  have hbase : (access I maxPhys (memState s)).base = base := by
    show Spec.effBase maxPhys (readX (memState s).x I.rs1) = base
    rw [hrs1, hb]
  have hregs : (access I maxPhys (memState s)).regs = if strip then 4 else 1 := by rw [← hI]; rfl
  have hcap : (access I maxPhys (memState s)).cap = (if strip then 4 else 1) * Spec.lanes T.bits := by
    rw [Spec.Access.cap, hregs]
    show _ * Spec.lanes I.T.bits = _
    rw [hIT]
  have hcount : (access I maxPhys (memState s)).count = cnt := by
    have hl : (access I maxPhys (memState s)).len = some (s.x (Spec.bitsAt i.word 20 5)).toNat := by
      rw [← harg, ← hI]; rfl
    rw [Spec.Access.count, hl, hcap]; exact hc
  refine ⟨memBack s m, ?_, hmem, ?_, ?_, ?_⟩
  · rw [Inst.run, he]
    simp only [hm, Outcome.ok_bind]
    rfl
  · intro e hlt
    have := hv e (by rw [hcap]; omega)
    rw [hcount, if_pos hlt, hIT, hvd] at this
    show Spec.groupNat T.bits m.v _ e = _
    rw [this]
    have ha : (access I maxPhys (memState s)).addr (Spec.lanes T.bits) e = base + e * (T.bits / 8) := by
      have hst : (access I maxPhys (memState s)).stride = none := by rw [← hI]; rfl
      have hw : (access I maxPhys (memState s)).w = T.bits := by rw [← hIT]; rfl
      rw [Spec.Access.addr, hst, hw, hbase, Option.getD_none, unit_addr T hT base cnt e hlt hr]
    rw [ha]; rfl
  · rw [hvd, hregs] at hfr; exact hfr
  · intro q
    have := hx (q + 1)
    rw [hcount, hbase, hregs, harg] at this
    show m.x (q + 1) = _
    rw [this]
    have hp : I.postInc = true := by rw [← hI]; rfl
    have hi1 : I.rs1 = Spec.bitsAt i.word 15 5 + 1 := by rw [← hI]; exact e1
    rw [hp, hi1, hIT]
    by_cases hq : q = Spec.bitsAt i.word 15 5
    · rw [if_pos ⟨rfl, by omega, by omega⟩, if_pos hq]
      by_cases h0 : 0 < cnt
      · rw [if_pos h0]; rfl
      · have : cnt = 0 := by omega
        rw [if_neg h0, this, Nat.zero_mul]
    · rw [if_neg (fun h => hq (by omega)), if_neg hq]; rfl

/-- What the length form of a store with post-increment does to the architectural state. -/
theorem run_vstLp (maxPhys : Nat) (fresh : Nat → VReg) {i : Inst} (hi : i.Ok) {T : CTy} {strip : Bool}
    (hs : i.row.sem = .vst T true false strip true true) (h1 : Spec.bitsAt i.word 15 5 ≠ 0)
    (h2 : Spec.bitsAt i.word 20 5 ≠ 0) (s : Arch) (base cnt : Nat)
    (hb : Spec.effBase maxPhys (s.x (Spec.bitsAt i.word 15 5)) = base)
    (hc : min (s.x (Spec.bitsAt i.word 20 5)).toNat ((if strip then 4 else 1) * Spec.lanes T.bits) = cnt)
    (hr : base + cnt * (T.bits / 8) ≤ 2 ^ 32) :
    ∃ s', i.run maxPhys fresh s = .ok s' ∧ s'.v = s.v ∧
      (∀ e < cnt, Spec.loadLE (T.bits / 8) s'.mem (base + e * (T.bits / 8)) =
        Spec.groupNat T.bits s.v (Spec.bitsAt i.word 6 6) e) ∧
      (∀ q, (q < base ∨ base + cnt * (T.bits / 8) ≤ q) → s'.mem q = s.mem q) ∧
      ∀ q, s'.x q = if q = Spec.bitsAt i.word 15 5 then BitVec.ofNat 32 (base + cnt * (T.bits / 8)) else s.x q := by
  obtain ⟨⟨hT, k, hk⟩, he⟩ := exec_vst maxPhys fresh hi.1 hi.2.1 hs s
  have hok := List.all_eq_true.1 allRows_memOk i.row hi.1
  simp only [memRowOk, hs, Bool.and_eq_true, beq_iff_eq] at hok
  have hform : fForm i.word = 3 := fixedFld_field hi.2.1 hok.1.1.1
  have hkl : k = .length := by
    have := form_kind hk
    rw [← this]; rfl
  subst hkl
  have e1 := memInst_rs1 (r := i.row) hform h1
  have e2 := memInst_rs2 (r := i.row) hform h2
  obtain ⟨m, hm, hv, hst, hx⟩ := vst_run _ false hT _ hk maxPhys (memState s)
  generalize hI : memInst i.row i.word T true false strip true true = I at *
  have hvd : I.vd = Spec.bitsAt i.word 6 6 := by rw [← hI]; exact field_eq ..
  have hIT : I.T = T := by rw [← hI]; rfl
  have hrs1 : readX (memState s).x I.rs1 = s.x (Spec.bitsAt i.word 15 5) := by
    rw [← hI]; show readX _ (scalarIdx (srcVs1 i.row i.word)) = _
    rw [e1, readX, if_neg (by omega)]; rfl
  have harg : arg2 I (memState s) = (s.x (Spec.bitsAt i.word 20 5)).toNat := by
    rw [← hI]; show (readX _ (scalarIdx (srcVs2 i.row i.word))).toNat = _
    rw [e2, readX, if_neg (by omega)]; rfl
  have hbase : (access I maxPhys (memState s)).base = base := by
    show Spec.effBase maxPhys (readX (memState s).x I.rs1) = base
    rw [hrs1, hb]
  have hregs : (access I maxPhys (memState s)).regs = if strip then 4 else 1 := by rw [← hI]; rfl
  have hcap : (access I maxPhys (memState s)).cap = (if strip then 4 else 1) * Spec.lanes T.bits := by
    rw [Spec.Access.cap, hregs]
    show _ * Spec.lanes I.T.bits = _
    rw [hIT]
  have hcount : (access I maxPhys (memState s)).count = cnt := by
    have hl : (access I maxPhys (memState s)).len = some (s.x (Spec.bitsAt i.word 20 5)).toNat := by
      rw [← harg, ← hI]; rfl
    rw [Spec.Access.count, hl, hcap]; exact hc
  have ha : ∀ e < cnt, (access I maxPhys (memState s)).addr (Spec.lanes T.bits) e = base + e * (T.bits / 8) := by
    intro e hlt
    have hst : (access I maxPhys (memState s)).stride = none := by rw [← hI]; rfl
    have hw : (access I maxPhys (memState s)).w = T.bits := by rw [← hIT]; rfl
    rw [Spec.Access.addr, hst, hw, hbase, Option.getD_none, unit_addr T hT base cnt e hlt hr]
  rw [hcount, if_neg (by decide), hIT, hvd] at hst
  generalize (access I maxPhys (memState s)).addr (Spec.lanes T.bits) = A at *
  have hsep : Spec.Separate cnt (T.bits / 8) A := by
    intro a b hab hb'
    rw [ha a (by omega), ha b hb']
    left
    have : (a + 1) * (T.bits / 8) ≤ b * (T.bits / 8) := Nat.mul_le_mul_right _ hab
    rw [Nat.add_mul] at this; omega
  refine ⟨memBack s m, ?_, hv, ?_, ?_, ?_⟩
  · rw [Inst.run, he]
    simp only [VMemInst.vst, hm, Outcome.ok_bind]
    rfl
  · intro e hlt
    have := stores_load hst hsep e hlt (by
      have hb : 8 * (T.bits / 8) = T.bits := by cases T <;> rfl
      rw [show (256 : Nat) = 2 ^ 8 from rfl, ← Nat.pow_mul, hb]
      exact BitVec.isLt _)
    rw [ha e hlt] at this
    exact this
  · intro q hq
    refine hst.1 q (fun e hlt hcov => ?_)
    rw [ha e hlt] at hcov
    have : (e + 1) * (T.bits / 8) ≤ cnt * (T.bits / 8) := Nat.mul_le_mul_right _ hlt
    rw [Nat.add_mul] at this
    obtain ⟨c1, c2⟩ := hcov
    have : 0 ≤ e * (T.bits / 8) := Nat.zero_le _
    omega
  · intro q
    have := hx (q + 1)
    rw [hcount, hbase, hregs, harg] at this
    show m.x (q + 1) = _
    rw [this]
    have hp : I.postInc = true := by rw [← hI]; rfl
    have hi1 : I.rs1 = Spec.bitsAt i.word 15 5 + 1 := by rw [← hI]; exact e1
    rw [hp, hi1, hIT]
    by_cases hq : q = Spec.bitsAt i.word 15 5
    · rw [if_pos ⟨rfl, by omega, by omega⟩, if_pos hq]
      by_cases h0 : 0 < cnt
      · rw [if_pos h0]; rfl
      · have : cnt = 0 := by omega
        rw [if_neg h0, this, Nat.zero_mul]
    · rw [if_neg (fun h => hq (by omega)), if_neg hq]; rfl

/-- What `getvl` with one operand does to the architectural state. -/
theorem run_getvl (maxPhys : Nat) (fresh : Nat → VReg) {i : Inst} (hi : i.Ok) {T : CTy} {strip : Bool}
    (hs : i.row.sem = .getvl T strip true false) (h1 : Spec.bitsAt i.word 15 5 ≠ 0) (h2 : Spec.bitsAt i.word 7 5 ≠ 0)
    (s : Arch) :
    ∃ s', i.run maxPhys fresh s = .ok s' ∧ s'.v = s.v ∧ s'.mem = s.mem ∧
      (s'.x (Spec.bitsAt i.word 7 5)).toNat =
        min (s.x (Spec.bitsAt i.word 15 5)).toNat ((if strip then 4 else 1) * Spec.lanes T.bits) ∧
      ∀ q, q ≠ Spec.bitsAt i.word 7 5 → s'.x q = s.x q := by
  have e1 : fRs1 i.word = Spec.bitsAt i.word 15 5 := field_eq ..
  have e2 : fRd i.word = Spec.bitsAt i.word 7 5 := field_eq ..
  refine ⟨{ s with x := writeX s.x (fRd i.word) (getVl T strip (if true = true then some (xr s (fRs1 i.word)) else none)
    (if false = true then some (xr s (fRs2 i.word)) else none)) },
    by rw [Inst.run, exec_getvl maxPhys fresh hi.1 hs s]; rfl, rfl, rfl, ?_, ?_⟩
  · show (writeX s.x (fRd i.word) _ _).toNat = _
    rw [e2, writeX, if_pos ⟨rfl, h2⟩, if_pos rfl, xr, e1, if_neg h1, if_neg (by decide)]
    have h := getVl_spec T strip (some (s.x (Spec.bitsAt i.word 15 5))) none
    have ha := (h (getVl T strip (some (s.x (Spec.bitsAt i.word 15 5))) none).toNat).1 (Nat.le_refl _)
    have hb := (h (min (s.x (Spec.bitsAt i.word 15 5)).toNat ((if strip then 4 else 1) * Spec.lanes T.bits))).2
      ⟨Nat.min_le_right .., fun a e => by cases e; exact Nat.min_le_left .., fun a e => nomatch e⟩
    have := ha.2.1 _ rfl
    have := ha.1
    omega
  · intro q hq
    show writeX s.x (fRd i.word) _ q = _
    rw [e2, writeX, if_neg (fun h => hq h.1)]

theorem value_ofNat (sg : Bool) (w : Nat) (x : BitVec w) :
    Spec.value sg w (BitVec.ofNat w x.toNat) = Spec.value sg w x := by rw [BitVec.ofNat_toNat, BitVec.setWidth_eq]

/-- A lane operation, element by element. -/
theorem lanewise_group {sd ss : Bool} {w n vd vs1 vs2 : Nat} (hw : 0 < Spec.lanes w) {f : Int → Int → Int}
    {rf rf' : VRF} (h : Spec.Lanewise sd w ss w n vd vs1 (.vreg vs2) f rf rf') (e : Nat) (he : e < n * Spec.lanes w) :
    Spec.value sd w (BitVec.ofNat w (Spec.groupNat w rf' vd e)) =
      f (Spec.value ss w (BitVec.ofNat w (Spec.groupNat w rf vs1 e)))
        (Spec.value ss w (BitVec.ofNat w (Spec.groupNat w rf vs2 e))) := by
  have := h.1 (e / Spec.lanes w) (Nat.div_lt_of_lt_mul (by rwa [Nat.mul_comm])) (e % Spec.lanes w) (Nat.mod_lt _ hw)
  simp only [Spec.Operand.elem] at this
  simp only [Spec.groupNat, value_ofNat]
  exact this

/-- A group is not changed by what is written elsewhere. -/
theorem group_frame {w n va vb e : Nat} (hap : Spec.Apart va n vb n) {rf rf' : VRF} (h : Spec.Frame vb n rf rf')
    (he : e < n * Spec.lanes w) : Spec.groupNat w rf' va e = Spec.groupNat w rf va e := by
  have : e / Spec.lanes w < n := Nat.div_lt_of_lt_mul (by rwa [Nat.mul_comm])
  unfold Spec.groupNat
  generalize e / Spec.lanes w = j at *
  rw [h (va + j) (by unfold Spec.Apart at hap; omega)]

theorem loadLE_congr {m m' : Nat → BitVec 8} : ∀ (n a : Nat), (∀ q, a ≤ q → q < a + n → m q = m' q) →
    Spec.loadLE n m a = Spec.loadLE n m' a
  | 0, _, _ => rfl
  | n + 1, a, h => by
    rw [Spec.loadLE, Spec.loadLE, h a (by omega) (by omega),
      loadLE_congr n (a + 1) (fun q h1 h2 => h q (by omega) (by omega))]

theorem memElem_congr {sg : Bool} {w : Nat} {m m' : Nat → BitVec 8} {a : Nat}
    (h : ∀ q, a ≤ q → q < a + w / 8 → m q = m' q) : Spec.memElem sg w m a = Spec.memElem sg w m' a := by
  unfold Spec.memElem; rw [loadLE_congr _ _ h]

/-- The invariant of the loop after `k` elements. -/
structure MapInv (p : MapLoop) (sd ss : Bool) (w : Nat) (f : Int → Int → Int) (N a b d : Nat) (s0 : Arch) (k : Nat)
    (s : Arch) : Prop where
  xn : s.x p.rn = BitVec.ofNat 32 (N - k)
  xa : s.x p.ra = BitVec.ofNat 32 (a + k * (w / 8))
  xb : s.x p.rb = BitVec.ofNat 32 (b + k * (w / 8))
  xd : s.x p.rd = BitVec.ofNat 32 (d + k * (w / 8))
  others : ∀ q, q ∉ [p.rn, p.rl, p.ra, p.rb, p.rd] → s.x q = s0.x q
  mem : Spec.Mapped sd ss w f d a b k s0.mem s.mem

theorem effBase_small {maxPhys a lim : Nat} (hl : lim = if maxPhys ≤ 0x3fffff then 2 ^ 31 else 2 ^ 32) (h : a < lim) :
    Spec.effBase maxPhys (BitVec.ofNat 32 a) = a := by
  subst hl
  rw [Spec.effBase, BitVec.toNat_ofNat]
  split at h <;> rename_i hm
  · rw [if_pos hm]; omega
  · rw [if_neg hm]; omega

/-- One execution of the body. -/
theorem map_step (maxPhys : Nat) (fresh : Nat → VReg) (p : MapLoop) (T : CTy) (v : VOp) (strip : Bool)
    (hp : p.Ok T v strip) (sd ss : Bool) (f : Int → Int → Int)
    (hop : ∀ (i : VInst) (rf : VRF), i.vd = Spec.bitsAt p.op.word 6 6 → i.vs1 = Spec.bitsAt p.op.word 14 6 →
      i.op2 = .vreg (Spec.bitsAt p.op.word 20 6) → i.strip = strip → ∃ rf', v.run i rf = .ok rf' ∧
        Spec.Lanewise sd T.bits ss T.bits i.n i.vd i.vs1 i.op2 f rf rf')
    (N a b d lim : Nat) (hlim : lim = if maxPhys ≤ 0x3fffff then 2 ^ 31 else 2 ^ 32)
    (ha : a + N * (T.bits / 8) < lim) (hb : b + N * (T.bits / 8) < lim) (hd : d + N * (T.bits / 8) < lim)
    (hda : Spec.Behind d a (N * (T.bits / 8))) (hdb : Spec.Behind d b (N * (T.bits / 8)))
    (s0 s : Arch) (k : Nat) (hk : k ≤ N) (hI : MapInv p sd ss T.bits f N a b d s0 k s) :
    ∃ s', loopBody maxPhys fresh p.insts p.rn p.rl s = .ok s' ∧
      MapInv p sd ss T.bits f N a b d s0 (min N (k + (if strip then 4 else 1) * Spec.lanes T.bits)) s' := by
  have hT : T.bits ≤ 32 :=
    (exec_vld maxPhys fresh (hp.dec p.lda (by simp [MapLoop.insts])).1 (hp.dec p.lda (by simp [MapLoop.insts])).2.1 hp.lda s).1.1
  have hw : 0 < Spec.lanes T.bits := by cases T <;> decide
  have hsz : 1 ≤ T.bits / 8 := by cases T <;> decide
  have hlim32 : lim ≤ 2 ^ 32 := by subst hlim; split <;> decide
  have hN : N < 2 ^ 32 := by
    have : N * 1 ≤ N * (T.bits / 8) := Nat.mul_le_mul_left _ hsz
    omega
  have hr := hp.regs
  simp only [List.nodup_cons, List.mem_cons, List.not_mem_nil, not_or, or_false, List.nodup_nil] at hr
  obtain ⟨⟨z1, z2, z3, z4, z5⟩, ⟨n1, n2, n3, n4⟩, ⟨l1, l2, l3⟩, ⟨a1, a2⟩, b1, -⟩ := hr
  generalize hrg : (if strip then 4 else 1 : Nat) = rg at *
  -- the length of the piece
  obtain ⟨c, hc⟩ : ∃ c, c = min (N - k) (rg * Spec.lanes T.bits) := ⟨_, rfl⟩
  have hkc : k + c ≤ N := by omega
  have hmulk : ∀ j, j ≤ N → j * (T.bits / 8) ≤ N * (T.bits / 8) := fun j hj => Nat.mul_le_mul_right _ hj
  have hkN := hmulk _ hkc
  have hadd : (k + c) * (T.bits / 8) = k * (T.bits / 8) + c * (T.bits / 8) := Nat.add_mul ..
  -- getvl
  obtain ⟨s1, r1, v1, m1, x1, o1⟩ := run_getvl maxPhys fresh (hp.dec p.vl (by simp [MapLoop.insts])) hp.vl
    (Ne.symm z1) (Ne.symm z2) s
  have x1' : (s1.x p.rl).toNat = c := by
    show (s1.x (Spec.bitsAt p.vl.word 7 5)).toNat = c
    rw [x1]
    show min (s.x p.rn).toNat _ = c
    rw [hI.xn, BitVec.toNat_ofNat, Nat.mod_eq_of_lt (by omega), hrg, hc]
  have o1' : ∀ q, q ≠ p.rl → s1.x q = s.x q := o1
  have hca : ∀ (t : BitVec 32), t.toNat = c → min t.toNat (rg * Spec.lanes T.bits) = c := by intro t ht; omega
  -- first load
  obtain ⟨s2, r2, m2, g2, f2, x2⟩ := run_vldLp maxPhys fresh (hp.dec p.lda (by simp [MapLoop.insts])) hp.lda
    (Ne.symm z3) (by rw [hp.len p.lda (by simp)]; exact Ne.symm z2) s1 (a + k * (T.bits / 8)) c
    (by
      show Spec.effBase maxPhys (s1.x p.ra) = _
      rw [o1' _ (Ne.symm l1), hI.xa]
      exact effBase_small hlim (by have := hmulk k hk; omega))
    (by rw [hp.len p.lda (by simp), hrg]; exact hca _ x1') (by omega)
  have x2' : ∀ q, s2.x q = if q = p.ra then BitVec.ofNat 32 (a + k * (T.bits / 8) + c * (T.bits / 8)) else s1.x q := x2
  -- second load
  obtain ⟨s3, r3, m3, g3, f3, x3⟩ := run_vldLp maxPhys fresh (hp.dec p.ldb (by simp [MapLoop.insts])) hp.ldb
    (Ne.symm z4) (by rw [hp.len p.ldb (by simp)]; exact Ne.symm z2) s2 (b + k * (T.bits / 8)) c
    (by
      show Spec.effBase maxPhys (s2.x p.rb) = _
      rw [x2', if_neg (Ne.symm a1), o1' _ (Ne.symm l2), hI.xb]
      exact effBase_small hlim (by have := hmulk k hk; omega))
    (by rw [hp.len p.ldb (by simp), hrg]; exact hca _ (by rw [x2', if_neg l1]; exact x1')) (by omega)
  have x3' : ∀ q, s3.x q = if q = p.rb then BitVec.ofNat 32 (b + k * (T.bits / 8) + c * (T.bits / 8)) else s2.x q := x3
  -- the operation
  have hopi := hp.dec p.op (by simp [MapLoop.insts])
  obtain ⟨rf, hrun, hlane⟩ := hop (instOf p.op.word s3 false strip) s3.v (field_eq ..) (field_eq ..)
    (congrArg Spec.Operand.vreg (field_eq ..)) rfl
  have r4 : p.op.run maxPhys fresh s3 = .ok { s3 with v := rf } := by
    rw [Inst.run, exec_vec maxPhys fresh hopi.1 hopi.2.1 hp.op s3, hrun]; rfl
  have hn : (instOf p.op.word s3 false strip).n = rg := by rw [← hrg]; rfl
  have hvd : (instOf p.op.word s3 false strip).vd = Spec.bitsAt p.op.word 6 6 := field_eq ..
  have hvs : (instOf p.op.word s3 false strip).vs1 = Spec.bitsAt p.lda.word 6 6 := (field_eq ..).trans hp.vs1
  have hv2 : (instOf p.op.word s3 false strip).op2 = .vreg (Spec.bitsAt p.ldb.word 6 6) := by
    rw [← hp.vs2]; exact congrArg Spec.Operand.vreg (field_eq ..)
  rw [hn, hvd, hvs, hv2] at hlane
  -- the store
  obtain ⟨s5, r5, v5, g5, f5, x5⟩ := run_vstLp maxPhys fresh (hp.dec p.st (by simp [MapLoop.insts])) hp.st
    (Ne.symm z5) (by rw [hp.len p.st (by simp)]; exact Ne.symm z2) { s3 with v := rf } (d + k * (T.bits / 8)) c
    (by
      show Spec.effBase maxPhys (s3.x p.rd) = _
      rw [x3', if_neg (Ne.symm b1), x2', if_neg (Ne.symm a2), o1' _ (Ne.symm l3), hI.xd]
      exact effBase_small hlim (by have := hmulk k hk; omega))
    (by
      rw [hp.len p.st (by simp), hrg]
      exact hca _ (by show (s3.x p.rl).toNat = c; rw [x3', if_neg l2, x2', if_neg l1]; exact x1')) (by omega)
  have x5' : ∀ q, s5.x q = if q = p.rd then BitVec.ofNat 32 (d + k * (T.bits / 8) + c * (T.bits / 8)) else s3.x q := x5
  have hxrl : s5.x p.rl = s1.x p.rl := by rw [x5', if_neg l3, x3', if_neg l2, x2', if_neg l1]
  have hxrn : s5.x p.rn = s.x p.rn := by
    rw [x5', if_neg n4, x3', if_neg n3, x2', if_neg n2, o1' _ n1]
  refine ⟨{ s5 with x := writeX s5.x p.rn (s5.x p.rn - s5.x p.rl) }, ?_, ?_⟩
  · simp only [loopBody, MapLoop.insts, runAll, r1, r2, r3, r4, r5, Outcome.ok_bind]
  · have hnew : min N (k + rg * Spec.lanes T.bits) = k + c := by omega
    rw [hnew]
    have hm0 : ∀ j, (∀ q, j ≤ q → q < j + T.bits / 8 → q < d ∨ d + k * (T.bits / 8) ≤ q) → ∀ sg,
        Spec.memElem sg T.bits s.mem j = Spec.memElem sg T.bits s0.mem j :=
      fun j hj sg => memElem_congr (fun q h1 h2 => hI.mem.2 q (hj q h1 h2))
    refine ⟨?_, ?_, ?_, ?_, ?_, ?_, ?_⟩
    · show writeX s5.x p.rn _ p.rn = _
      rw [writeX, if_pos ⟨rfl, Ne.symm z1⟩, hxrn, hxrl, hI.xn]
      apply BitVec.eq_of_toNat_eq
      rw [BitVec.toNat_sub, x1', BitVec.toNat_ofNat, BitVec.toNat_ofNat]
      omega
    · show writeX s5.x p.rn _ p.ra = _
      rw [writeX, if_neg (fun h => n2 h.1.symm), x5', if_neg a2, x3', if_neg a1, x2', if_pos rfl, hadd, Nat.add_assoc]
    · show writeX s5.x p.rn _ p.rb = _
      rw [writeX, if_neg (fun h => n3 h.1.symm), x5', if_neg b1, x3', if_pos rfl, hadd, Nat.add_assoc]
    · show writeX s5.x p.rn _ p.rd = _
      rw [writeX, if_neg (fun h => n4 h.1.symm), x5', if_pos rfl, hadd, Nat.add_assoc]
    · intro q hq
      simp only [List.mem_cons, List.not_mem_nil, not_or, or_false] at hq
      obtain ⟨q1, q2, q3, q4, q5⟩ := hq
      show writeX s5.x p.rn _ q = _
      rw [writeX, if_neg (fun h => q1 h.1), x5', if_neg q5, x3', if_neg q4, x2', if_neg q3, o1' _ q2]
      exact hI.others q (by simp [q1, q2, q3, q4, q5])
    · intro e he
      show Spec.memElem sd T.bits s5.mem _ = _
      by_cases hek : e < k
      · rw [← hI.mem.1 e hek]
        apply memElem_congr
        intro q h1 h2
        have : (e + 1) * (T.bits / 8) ≤ k * (T.bits / 8) := Nat.mul_le_mul_right _ hek
        rw [Nat.add_mul] at this
        rw [f5 q (by left; omega)]
        show s3.mem q = _
        rw [m3, m2, m1]
      · obtain ⟨j, rfl⟩ : ∃ j, e = k + j := ⟨e - k, by omega⟩
        have hj : j < c := by omega
        have hcap : j < rg * Spec.lanes T.bits := by omega
        have hkj : (k + j) * (T.bits / 8) = k * (T.bits / 8) + j * (T.bits / 8) := Nat.add_mul ..
        have hkj1 : (k + j + 1) * (T.bits / 8) ≤ N * (T.bits / 8) := hmulk _ (by omega)
        rw [Nat.add_mul, Nat.one_mul] at hkj1
        have e1 : Spec.groupNat T.bits s3.v (Spec.bitsAt p.lda.word 6 6) j =
            Spec.loadLE (T.bits / 8) s.mem (a + (k + j) * (T.bits / 8)) := by
          rw [hrg] at f3
          rw [group_frame (hrg ▸ hp.apart) f3 hcap, g2 j hj, m1, hkj, Nat.add_assoc]
        have e2 : Spec.groupNat T.bits s3.v (Spec.bitsAt p.ldb.word 6 6) j =
            Spec.loadLE (T.bits / 8) s.mem (b + (k + j) * (T.bits / 8)) := by
          rw [g3 j hj, m2, m1, hkj, Nat.add_assoc]
        have e3 := g5 j hj
        rw [hp.vd] at e3
        have e4 := lanewise_group hw hlane j hcap
        rw [e1, e2] at e4
        have e5 : d + (k + j) * (T.bits / 8) = d + k * (T.bits / 8) + j * (T.bits / 8) := by rw [hkj, Nat.add_assoc]
        rw [e5]
        unfold Spec.memElem
        rw [e3, e4]
        have ea := hm0 (a + (k + j) * (T.bits / 8)) (by
          intro q h1 h2
          rcases hda with h | h <;> omega) ss
        have eb := hm0 (b + (k + j) * (T.bits / 8)) (by
          intro q h1 h2
          rcases hdb with h | h <;> omega) ss
        unfold Spec.memElem at ea eb
        rw [ea, eb]
    · intro q hq
      rw [hadd] at hq
      show s5.mem q = _
      rw [f5 q (by omega)]
      show s3.mem q = _
      rw [m3, m2, m1]
      exact hI.mem.2 q (by omega)

/-- The invariant after `k` executions of the body. -/
theorem map_times (maxPhys : Nat) (fresh : Nat → VReg) (p : MapLoop) (T : CTy) (v : VOp) (strip : Bool)
    (hp : p.Ok T v strip) (sd ss : Bool) (f : Int → Int → Int)
    (hop : ∀ (i : VInst) (rf : VRF), i.vd = Spec.bitsAt p.op.word 6 6 → i.vs1 = Spec.bitsAt p.op.word 14 6 →
      i.op2 = .vreg (Spec.bitsAt p.op.word 20 6) → i.strip = strip → ∃ rf', v.run i rf = .ok rf' ∧
        Spec.Lanewise sd T.bits ss T.bits i.n i.vd i.vs1 i.op2 f rf rf')
    (N a b d lim : Nat) (hlim : lim = if maxPhys ≤ 0x3fffff then 2 ^ 31 else 2 ^ 32)
    (ha : a + N * (T.bits / 8) < lim) (hb : b + N * (T.bits / 8) < lim) (hd : d + N * (T.bits / 8) < lim)
    (hda : Spec.Behind d a (N * (T.bits / 8))) (hdb : Spec.Behind d b (N * (T.bits / 8)))
    (s0 : Arch) (h0 : MapInv p sd ss T.bits f N a b d s0 0 s0) (k : Nat) :
    ∃ s', times (loopBody maxPhys fresh p.insts p.rn p.rl) k s0 = .ok s' ∧
      MapInv p sd ss T.bits f N a b d s0 (min N (k * ((if strip then 4 else 1) * Spec.lanes T.bits))) s' := by
  induction k with
  | zero => exact ⟨s0, rfl, by rw [Nat.zero_mul, Nat.min_zero]; exact h0⟩
  | succ k ih =>
    obtain ⟨s1, h1, hI⟩ := ih
    obtain ⟨s2, h2, hI2⟩ := map_step maxPhys fresh p T v strip hp sd ss f hop N a b d lim hlim ha hb hd hda hdb s0 s1 _
      (Nat.min_le_left ..) hI
    refine ⟨s2, by rw [times, h1, Outcome.ok_bind, h2], ?_⟩
    generalize ((if strip = true then 4 else 1) * Spec.lanes T.bits) = c at *
    rw [Nat.succ_mul]
    generalize k * c = kc at *
    rwa [show min N (kc + c) = min N (min N kc + c) by omega]

/-- A chain of lane operations with scalar second operands, each working on the result of the one before: from the group
at `vs` to the group at `vd`, computing the function. The scalar registers are not among `regs`. -/
inductive Chain (strip sg : Bool) (w : Nat) (regs : List Nat) (x : Nat → BitVec 32) :
    List Inst → Nat → Nat → (Int → Int) → Prop
  | nil (vs : Nat) : Chain strip sg w regs x [] vs vs fun a => a
  | cons (i : Inst) (is : List Inst) (v : VOp) (f : Int → Int → Int) (g : Int → Int) (vd : Nat) (hi : i.Ok)
    (hs : i.row.sem = .vec v true strip) (h0 : 0 < Spec.bitsAt i.word 20 6) (h32 : Spec.bitsAt i.word 20 6 < 32)
    (hr : Spec.bitsAt i.word 20 6 ∉ regs)
    (hf : ∀ (I : VInst) (rf : VRF), I.vd = Spec.bitsAt i.word 6 6 → I.vs1 = Spec.bitsAt i.word 14 6 →
      I.op2 = .scalar (x (Spec.bitsAt i.word 20 6)) → I.strip = strip → ∃ rf', v.run I rf = .ok rf' ∧
        Spec.Lanewise sg w sg w I.n I.vd I.vs1 I.op2 f rf rf')
    (rest : Chain strip sg w regs x is (Spec.bitsAt i.word 6 6) vd g) :
    Chain strip sg w regs x (i :: is) (Spec.bitsAt i.word 14 6) vd
      fun a => g (f a (Spec.scalarElem sg w (x (Spec.bitsAt i.word 20 6))))

theorem lanewise_scalar {sd ss : Bool} {w n vd vs1 : Nat} {x : BitVec 32} (hw : 0 < Spec.lanes w) {f : Int → Int → Int}
    {rf rf' : VRF} (h : Spec.Lanewise sd w ss w n vd vs1 (.scalar x) f rf rf') (e : Nat) (he : e < n * Spec.lanes w) :
    Spec.value sd w (BitVec.ofNat w (Spec.groupNat w rf' vd e)) =
      f (Spec.value ss w (BitVec.ofNat w (Spec.groupNat w rf vs1 e))) (Spec.scalarElem ss w x) := by
  have := h.1 (e / Spec.lanes w) (Nat.div_lt_of_lt_mul (by rwa [Nat.mul_comm])) (e % Spec.lanes w) (Nat.mod_lt _ hw)
  simp only [Spec.Operand.elem] at this
  simp only [Spec.groupNat, value_ofNat]
  exact this

theorem chain_run (maxPhys : Nat) (fresh : Nat → VReg) {strip sg : Bool} {w : Nat} {regs : List Nat}
    {x : Nat → BitVec 32} (hw : 0 < Spec.lanes w) {is : List Inst} {vs vd : Nat} {f : Int → Int}
    (h : Chain strip sg w regs x is vs vd f) : ∀ (s : Arch), (∀ q, q ∉ regs → s.x q = x q) →
    ∃ rf, runAll maxPhys fresh is s = .ok { s with v := rf } ∧
      ∀ e < (if strip then 4 else 1) * Spec.lanes w, Spec.value sg w (BitVec.ofNat w (Spec.groupNat w rf vd e)) =
        f (Spec.value sg w (BitVec.ofNat w (Spec.groupNat w s.v vs e))) := by
  induction h with
  | nil vs => exact fun s _ => ⟨s.v, rfl, fun _ _ => rfl⟩
  | cons i is v f g vd hi hs h0 h32 hr hf rest ih =>
    intro s hx
    have e2 : fVs2 i.word = Spec.bitsAt i.word 20 6 := field_eq ..
    have hop2 : (instOf i.word s true strip).op2 = .scalar (x (Spec.bitsAt i.word 20 6)) := by
      show Spec.Operand.scalar (xs2 i.word s) = _
      rw [xs2, e2, if_neg (by omega), Nat.mod_eq_of_lt h32, hx _ hr]
    have hvd : (instOf i.word s true strip).vd = Spec.bitsAt i.word 6 6 := field_eq ..
    have hvs : (instOf i.word s true strip).vs1 = Spec.bitsAt i.word 14 6 := field_eq ..
    obtain ⟨rf1, hrun, hl⟩ := hf (instOf i.word s true strip) s.v hvd hvs hop2 rfl
    rw [hop2, hvd, hvs] at hl
    obtain ⟨rf, h2, hg⟩ := ih { s with v := rf1 } hx
    refine ⟨rf, ?_, ?_⟩
    · rw [runAll, Inst.run, exec_vec maxPhys fresh hi.1 hi.2.1 hs s, hrun]
      exact h2
    · intro e he
      rw [hg e he, lanewise_scalar hw hl e he]

theorem runAll_append (maxPhys : Nat) (fresh : Nat → VReg) : ∀ (is js : List Inst) (s : Arch),
    runAll maxPhys fresh (is ++ js) s = runAll maxPhys fresh is s >>= runAll maxPhys fresh js
  | [], js, s => rfl
  | i :: is, js, s => by
    rw [List.cons_append, runAll, runAll]
    cases i.run maxPhys fresh s with
    | ok t => exact runAll_append maxPhys fresh is js t
    | ub => rfl
    | abort => rfl

/-- The invariant of the loop over one source after `k` elements. -/
structure PipeInv (p : PipeLoop) (sg : Bool) (w : Nat) (f : Int → Int) (N a d : Nat) (s0 : Arch) (k : Nat)
    (s : Arch) : Prop where
  xn : s.x p.rn = BitVec.ofNat 32 (N - k)
  xa : s.x p.ra = BitVec.ofNat 32 (a + k * (w / 8))
  xd : s.x p.rd = BitVec.ofNat 32 (d + k * (w / 8))
  others : ∀ q, q ∉ [p.rn, p.rl, p.ra, p.rd] → s.x q = s0.x q
  mem : Spec.Mapped sg sg w (fun x _ => f x) d a a k s0.mem s.mem

/-- One execution of the body. -/
theorem pipe_step (maxPhys : Nat) (fresh : Nat → VReg) (p : PipeLoop) (T : CTy) (strip : Bool)
    (hp : p.Ok T strip) (sg : Bool) (f : Int → Int) (s0 : Arch)
    (hop : Chain strip sg T.bits [p.rn, p.rl, p.ra, p.rd] s0.x p.ops (Spec.bitsAt p.ld.word 6 6) (Spec.bitsAt p.st.word 6 6) f)
    (N a d lim : Nat) (hlim : lim = if maxPhys ≤ 0x3fffff then 2 ^ 31 else 2 ^ 32)
    (ha : a + N * (T.bits / 8) < lim) (hd : d + N * (T.bits / 8) < lim)
    (hda : Spec.Behind d a (N * (T.bits / 8)))
    (s : Arch) (k : Nat) (hk : k ≤ N) (hI : PipeInv p sg T.bits f N a d s0 k s) :
    ∃ s', loopBody maxPhys fresh p.insts p.rn p.rl s = .ok s' ∧
      PipeInv p sg T.bits f N a d s0 (min N (k + (if strip then 4 else 1) * Spec.lanes T.bits)) s' := by
  have hT : T.bits ≤ 32 := (exec_vld maxPhys fresh (hp.dec p.ld (by simp)).1 (hp.dec p.ld (by simp)).2.1 hp.ld s).1.1
  have hw : 0 < Spec.lanes T.bits := by cases T <;> decide
  have hsz : 1 ≤ T.bits / 8 := by cases T <;> decide
  have hlim32 : lim ≤ 2 ^ 32 := by subst hlim; split <;> decide
  have hN : N < 2 ^ 32 := by
    have : N * 1 ≤ N * (T.bits / 8) := Nat.mul_le_mul_left _ hsz
    omega
  have hr := hp.regs
  simp only [List.nodup_cons, List.mem_cons, List.not_mem_nil, not_or, or_false, List.nodup_nil] at hr
  obtain ⟨⟨z1, z2, z3, z5⟩, ⟨n1, n2, n4⟩, ⟨l1, l3⟩, a2, -⟩ := hr
  generalize hrg : (if strip then 4 else 1 : Nat) = rg at *
  obtain ⟨c, hc⟩ : ∃ c, c = min (N - k) (rg * Spec.lanes T.bits) := ⟨_, rfl⟩
  have hkc : k + c ≤ N := by omega
  have hmulk : ∀ j, j ≤ N → j * (T.bits / 8) ≤ N * (T.bits / 8) := fun j hj => Nat.mul_le_mul_right _ hj
  have hkN := hmulk _ hkc
  have hadd : (k + c) * (T.bits / 8) = k * (T.bits / 8) + c * (T.bits / 8) := Nat.add_mul ..
  -- getvl
  obtain ⟨s1, r1, v1, m1, x1, o1⟩ := run_getvl maxPhys fresh (hp.dec p.vl (by simp)) hp.vl (Ne.symm z1) (Ne.symm z2) s
  have x1' : (s1.x p.rl).toNat = c := by
    show (s1.x (Spec.bitsAt p.vl.word 7 5)).toNat = c
    rw [x1]
    show min (s.x p.rn).toNat _ = c
    rw [hI.xn, BitVec.toNat_ofNat, Nat.mod_eq_of_lt (by omega), hrg, hc]
  have o1' : ∀ q, q ≠ p.rl → s1.x q = s.x q := o1
  have hca : ∀ (t : BitVec 32), t.toNat = c → min t.toNat (rg * Spec.lanes T.bits) = c := by intro t ht; omega
  -- the load
  obtain ⟨s2, r2, m2, g2, f2, x2⟩ := run_vldLp maxPhys fresh (hp.dec p.ld (by simp)) hp.ld
    (Ne.symm z3) (by rw [hp.len p.ld (by simp)]; exact Ne.symm z2) s1 (a + k * (T.bits / 8)) c
    (by
      show Spec.effBase maxPhys (s1.x p.ra) = _
      rw [o1' _ (Ne.symm l1), hI.xa]
      exact effBase_small hlim (by have := hmulk k hk; omega))
    (by rw [hp.len p.ld (by simp), hrg]; exact hca _ x1') (by omega)
  have x2' : ∀ q, s2.x q = if q = p.ra then BitVec.ofNat 32 (a + k * (T.bits / 8) + c * (T.bits / 8)) else s1.x q := x2
  -- the operations
  obtain ⟨rf, r3, g3⟩ := chain_run maxPhys fresh hw hop s2 (by
    intro q hq
    have hq' := hq
    simp only [List.mem_cons, List.not_mem_nil, not_or, or_false] at hq'
    obtain ⟨q1, q2, q3, q5⟩ := hq'
    rw [x2', if_neg q3, o1' _ q2]
    exact hI.others q hq)
  -- the store
  obtain ⟨s5, r5, v5, g5, f5, x5⟩ := run_vstLp maxPhys fresh (hp.dec p.st (by simp)) hp.st
    (Ne.symm z5) (by rw [hp.len p.st (by simp)]; exact Ne.symm z2) { s2 with v := rf } (d + k * (T.bits / 8)) c
    (by
      show Spec.effBase maxPhys (s2.x p.rd) = _
      rw [x2', if_neg (Ne.symm a2), o1' _ (Ne.symm l3), hI.xd]
      exact effBase_small hlim (by have := hmulk k hk; omega))
    (by
      rw [hp.len p.st (by simp), hrg]
      exact hca _ (by show (s2.x p.rl).toNat = c; rw [x2', if_neg l1]; exact x1')) (by omega)
  have x5' : ∀ q, s5.x q = if q = p.rd then BitVec.ofNat 32 (d + k * (T.bits / 8) + c * (T.bits / 8)) else s2.x q := x5
  have hxrl : s5.x p.rl = s1.x p.rl := by rw [x5', if_neg l3, x2', if_neg l1]
  have hxrn : s5.x p.rn = s.x p.rn := by rw [x5', if_neg n4, x2', if_neg n2, o1' _ n1]
  refine ⟨{ s5 with x := writeX s5.x p.rn (s5.x p.rn - s5.x p.rl) }, ?_, ?_⟩
  · simp only [loopBody, PipeLoop.insts, runAll, runAll_append, r1, r2, r3, r5, Outcome.ok_bind]
  · have hnew : min N (k + rg * Spec.lanes T.bits) = k + c := by omega
    rw [hnew]
    refine ⟨?_, ?_, ?_, ?_, ?_, ?_⟩
    · show writeX s5.x p.rn _ p.rn = _
      rw [writeX, if_pos ⟨rfl, Ne.symm z1⟩, hxrn, hxrl, hI.xn]
      apply BitVec.eq_of_toNat_eq
      rw [BitVec.toNat_sub, x1', BitVec.toNat_ofNat, BitVec.toNat_ofNat]
      omega
    · show writeX s5.x p.rn _ p.ra = _
      rw [writeX, if_neg (fun h => n2 h.1.symm), x5', if_neg a2, x2', if_pos rfl, hadd, Nat.add_assoc]
    · show writeX s5.x p.rn _ p.rd = _
      rw [writeX, if_neg (fun h => n4 h.1.symm), x5', if_pos rfl, hadd, Nat.add_assoc]
    · intro q hq
      have hq' := hq
      simp only [List.mem_cons, List.not_mem_nil, not_or, or_false] at hq'
      obtain ⟨q1, q2, q3, q5⟩ := hq'
      show writeX s5.x p.rn _ q = _
      rw [writeX, if_neg (fun h => q1 h.1), x5', if_neg q5, x2', if_neg q3, o1' _ q2]
      exact hI.others q hq
    · intro e he
      show Spec.memElem sg T.bits s5.mem _ = _
      by_cases hek : e < k
      · rw [← hI.mem.1 e hek]
        apply memElem_congr
        intro q h1 h2
        have : (e + 1) * (T.bits / 8) ≤ k * (T.bits / 8) := Nat.mul_le_mul_right _ hek
        rw [Nat.add_mul] at this
        rw [f5 q (by left; omega)]
        show s2.mem q = _
        rw [m2, m1]
      · obtain ⟨j, rfl⟩ : ∃ j, e = k + j := ⟨e - k, by omega⟩
        have hj : j < c := by omega
        have hcap : j < rg * Spec.lanes T.bits := by omega
        have hkj : (k + j) * (T.bits / 8) = k * (T.bits / 8) + j * (T.bits / 8) := Nat.add_mul ..
        have hkj1 : (k + j + 1) * (T.bits / 8) ≤ N * (T.bits / 8) := hmulk _ (by omega)
        rw [Nat.add_mul, Nat.one_mul] at hkj1
        have e3 := g5 j hj
        have e4 := g3 j (by rw [hrg]; exact hcap)
        rw [g2 j hj, m1, Nat.add_assoc, ← hkj] at e4
        have e5 : d + (k + j) * (T.bits / 8) = d + k * (T.bits / 8) + j * (T.bits / 8) := by rw [hkj, Nat.add_assoc]
        rw [e5]
        unfold Spec.memElem
        rw [e3]
        refine e4.trans (congrArg f ?_)
        exact memElem_congr (sg := sg) (w := T.bits) (fun q h1 h2 => hI.mem.2 q (by rcases hda with h | h <;> omega))
    · intro q hq
      rw [hadd] at hq
      show s5.mem q = _
      rw [f5 q (by omega)]
      show s2.mem q = _
      rw [m2, m1]
      exact hI.mem.2 q (by omega)

theorem pipe_times (maxPhys : Nat) (fresh : Nat → VReg) (p : PipeLoop) (T : CTy) (strip : Bool)
    (hp : p.Ok T strip) (sg : Bool) (f : Int → Int) (s0 : Arch)
    (hop : Chain strip sg T.bits [p.rn, p.rl, p.ra, p.rd] s0.x p.ops (Spec.bitsAt p.ld.word 6 6) (Spec.bitsAt p.st.word 6 6) f)
    (N a d lim : Nat) (hlim : lim = if maxPhys ≤ 0x3fffff then 2 ^ 31 else 2 ^ 32)
    (ha : a + N * (T.bits / 8) < lim) (hd : d + N * (T.bits / 8) < lim)
    (hda : Spec.Behind d a (N * (T.bits / 8))) (h0 : PipeInv p sg T.bits f N a d s0 0 s0) (k : Nat) :
    ∃ s', times (loopBody maxPhys fresh p.insts p.rn p.rl) k s0 = .ok s' ∧
      PipeInv p sg T.bits f N a d s0 (min N (k * ((if strip then 4 else 1) * Spec.lanes T.bits))) s' := by
  induction k with
  | zero => exact ⟨s0, rfl, by rw [Nat.zero_mul, Nat.min_zero]; exact h0⟩
  | succ k ih =>
    obtain ⟨s1, h1, hI⟩ := ih
    obtain ⟨s2, h2, hI2⟩ := pipe_step maxPhys fresh p T strip hp sg f s0 hop N a d lim hlim ha hd hda s1 _
      (Nat.min_le_left ..) hI
    refine ⟨s2, by rw [times, h1, Outcome.ok_bind, h2], ?_⟩
    generalize ((if strip = true then 4 else 1) * Spec.lanes T.bits) = c at *
    rw [Nat.succ_mul]
    generalize k * c = kc at *
    rwa [show min N (kc + c) = min N (min N kc + c) by omega]

end Verif.Proofs
