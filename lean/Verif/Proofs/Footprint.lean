import Verif.Proofs.DecodeExec
import Verif.Proofs.GroupsRow
import Verif.Spec.Footprint

/-! # Memory footprint of the vector instructions -/

namespace Verif.Proofs
open Verif Verif.Model

/-- The access of the decoded instruction is the one read off the word. -/
theorem access_of (r : Row) (w : BitVec 32) (T : CTy) (len stride strip xs2 pi : Bool) (hf : fForm w = 3)
    (hx : (formOf len stride xs2).isSome = true) (maxPhys : Nat) (s : Arch) :
    access (memInst r w T len stride strip xs2 pi) maxPhys (memState s) = Spec.accessOf maxPhys T len stride strip w s.x := by
  have e1 : readX (memState s).x (scalarIdx (srcVs1 r w)) = Spec.addrScalar w s.x := by
    have e0 := field_eq w 14 6
    unfold srcVs1 Spec.addrScalar
    rw [if_pos hf, ← e0]
    change readX _ (scalarIdx (if fVs1 w = 0 then _ else _)) = if fVs1 w = 0 then _ else _
    by_cases h : fVs1 w = 0
    · rw [if_pos h, if_pos h]; rfl
    · rw [if_neg h, if_neg h]
      show s.x (fVs1 w / 2 + 1 - 1) = _
      rw [Nat.add_sub_cancel]
      congr 1
      rw [fVs1, e0, Spec.bitsAt, Spec.bitsAt]; omega
  have e2 : readX (memState s).x (scalarIdx (srcVs2 r w)) = Spec.argScalar w s.x := by
    have e0 := field_eq w 20 6
    unfold srcVs2 Spec.argScalar
    rw [if_pos (Or.inr (Or.inl hf)), ← e0]
    change readX _ (scalarIdx (if fVs2 w = 0 then _ else _)) = if fVs2 w = 0 then _ else _
    by_cases h : fVs2 w = 0
    · rw [if_pos h, if_pos h]; rfl
    · rw [if_neg h, if_neg h]
      show s.x (fVs2 w % 32 + 1 - 1) = _
      rw [Nat.add_sub_cancel]
      congr 1
      rw [fVs2, e0, Spec.bitsAt, Spec.bitsAt]; omega
  unfold access Spec.accessOf
  have e3 : (len = true ∨ stride = true) → arg2 (memInst r w T len stride strip xs2 pi) (memState s) = (Spec.argScalar w s.x).toNat := by
    intro h
    have : xs2 = true := by revert hx h; cases len <;> cases stride <;> cases xs2 <;> decide
    subst this
    show (readX _ _).toNat = _
    exact congrArg _ e2
  congr 1
  · cases len
    · rfl
    · show some _ = some _; rw [e3 (Or.inl rfl)]
  · cases stride
    · rfl
    · show some _ = some _; rw [e3 (Or.inr rfl)]
  · exact congrArg _ e1

theorem memLoad_same (T : CTy) (mem mem' : Mem) (a : Nat) (h : ∀ q, Spec.Covers a T.size q → mem' q = mem q) :
    memLoad T mem' a = memLoad T mem a := by
  unfold memLoad memBytes
  congr 3
  refine List.map_congr_left fun j hj => h _ ⟨Nat.le_add_right _ _, ?_⟩
  have := List.mem_range.1 hj
  omega

/-- A load gives the same with memory that agrees on its elements. -/
theorem vld_same (i : VMemInst) (hi : i.hasLength = true → i.rs2.isSome = true) (hj : i.hasStride = true → i.rs2.isSome = true)
    (maxPhys : Nat) (s : MState) (mem' : Mem)
    (h : ∀ q, (access i maxPhys s).Touches (Spec.lanes i.T.bits) q → mem' q = s.mem q) :
    Spec.Alike (fun p p' : MState => p' = { p with mem := mem' } ∧ p.mem = s.mem) (i.vld maxPhys s) (i.vld maxPhys { s with mem := mem' }) := by
  have hn : i.elts s = .ok (eltsNat i s) := elts_ok i s hi
  have hs : i.stride s = .ok (strideNat i s) := stride_ok i s hj
  have hn' : i.elts { s with mem := mem' } = .ok (eltsNat i s) := hn
  have hs' : i.stride { s with mem := mem' } = .ok (strideNat i s) := hs
  unfold VMemInst.vld
  simp only [hn, hs, hn', hs', Outcome.ok_bind, vldAddrs_ok _ _ _ _ _ (elts_le i s)]
  have e : ((List.range (eltsNat i s)).map (Spec.elemAddr (maskAddr maxPhys (readX s.x i.rs1)).toNat (lanesOf i.T) (strideNat i s) i.T.size)).map
      (memLoad i.T mem') = ((List.range (eltsNat i s)).map
        (Spec.elemAddr (maskAddr maxPhys (readX s.x i.rs1)).toNat (lanesOf i.T) (strideNat i s) i.T.size)).map (memLoad i.T s.mem) := by
    refine List.map_congr_left fun a ha => memLoad_same _ _ _ _ fun q hq => h q ?_
    obtain ⟨e, he, rfl⟩ := List.mem_map.1 ha
    refine ⟨e, by rw [access_count]; exact List.mem_range.1 he, ?_⟩
    rw [access_addr, ← lanesOf_eq]
    show Spec.Covers _ (i.T.bits / 8) q
    rw [bits_size, Nat.mul_div_cancel_left _ (by omega)]
    exact hq
  rw [e]
  refine alike_step _ fun v => ?_
  refine alike_step (i.writeBack s _ _ _ _) fun x => ⟨rfl, rfl⟩

theorem scatter_covered (T : CTy) (mem mem' : Mem) : ∀ (l : List (Nat × CVal)) (q : Nat),
    ((∃ p ∈ l, Spec.Covers p.1 T.size q) ∨ mem' q = mem q) → scatter T mem' l q = scatter T mem l q
  | [], q, h => by
    rcases h with ⟨p, hp, -⟩ | h
    · exact absurd hp (by simp)
    · exact h
  | p :: l, q, h => by
    show scatter T (memStore T mem' p.1 p.2) l q = scatter T (memStore T mem p.1 p.2) l q
    refine scatter_covered T _ _ l q ?_
    rcases h with ⟨p', hp', hc⟩ | h
    · rcases List.mem_cons.1 hp' with rfl | hp'
      · right
        have hc' : p'.1 ≤ q ∧ q < p'.1 + T.size := hc
        unfold memStore; rw [if_pos hc', if_pos hc']
      · exact Or.inl ⟨p', hp', hc⟩
    · right; unfold memStore; rw [h]

theorem scatter_other (T : CTy) (mem : Mem) : ∀ (l : List (Nat × CVal)) (q : Nat),
    (∀ p ∈ l, ¬ Spec.Covers p.1 T.size q) → scatter T mem l q = mem q
  | [], _, _ => rfl
  | p :: l, q, h => by
    show scatter T (memStore T mem p.1 p.2) l q = mem q
    rw [scatter_other T _ l q (fun p' hp' => h p' (by simp [hp']))]
    unfold memStore
    exact if_neg (h p (by simp))

/-- A store writes its elements, whatever memory was. -/
theorem vst_same (i : VMemInst) (quad : Bool) (hT : i.T.bits ≤ 32) (k : Spec.PostInc) (hk : Form i k) (maxPhys : Nat) (s : MState)
    (mem' : Mem) :
    Spec.Alike (fun p p' : MState => p'.x = p.x ∧ p'.v = p.v ∧
      (∀ q, (access i maxPhys s).Touches (if quad then Spec.lanes i.T.bits / 4 else Spec.lanes i.T.bits) q → p'.mem q = p.mem q) ∧
      (∀ q, ¬ (access i maxPhys s).Touches (if quad then Spec.lanes i.T.bits / 4 else Spec.lanes i.T.bits) q →
        p'.mem q = mem' q ∧ p.mem q = s.mem q))
      (i.vstHelper quad maxPhys s) (i.vstHelper quad maxPhys { s with mem := mem' }) := by
  have hq : lanesOf i.T % 4 = 0 := by
    cases h : i.T <;> simp only [h, CTy.bits] at hT <;> first | rfl | omega
  have hle := elts_le i s
  have hn := elts_ok i s (form_len hk)
  have hs := stride_ok i s (form_stride hk)
  have hn' : i.elts { s with mem := mem' } = .ok (eltsNat i s) := hn
  have hs' : i.stride { s with mem := mem' } = .ok (strideNat i s) := hs
  unfold VMemInst.vstHelper
  simp only [hn, hs, hn', hs', Outcome.ok_bind, vst_ok _ _ _ _ quad _ _ _ (fun _ => hq)]
  rw [bufAll_ok (eltsNat i s) _ (fun j => (Spec.elemAddr (maskAddr maxPhys (readX s.x i.rs1)).toNat
    (if quad then lanesOf i.T / 4 else lanesOf i.T) (strideNat i s) i.T.size j,
      regElt i.T (s.v (i.vd + j / lanesOf i.T)) (j % lanesOf i.T)))]
  · simp only [Outcome.ok_bind]
    refine alike_step (i.writeBack s _ _ _ _) fun x => ⟨rfl, rfl, fun q hq => ?_, fun q hq => ?_⟩
    · refine scatter_covered _ _ _ _ q (Or.inl ?_)
      obtain ⟨e, he, hc⟩ := hq
      rw [access_count] at he
      refine ⟨_, List.mem_map.2 ⟨e, List.mem_range.2 he, rfl⟩, ?_⟩
      rw [access_addr, ← lanesOf_eq] at hc
      change Spec.Covers _ (i.T.bits / 8) q at hc
      rw [bits_size, Nat.mul_div_cancel_left _ (by omega)] at hc
      exact hc
    · have : ∀ p ∈ (List.range (eltsNat i s)).map fun j => (Spec.elemAddr (maskAddr maxPhys (readX s.x i.rs1)).toNat
          (if quad then lanesOf i.T / 4 else lanesOf i.T) (strideNat i s) i.T.size j,
            regElt i.T (s.v (i.vd + j / lanesOf i.T)) (j % lanesOf i.T)), ¬ Spec.Covers p.1 i.T.size q := by
        intro p hp hc
        obtain ⟨e, he, rfl⟩ := List.mem_map.1 hp
        refine hq ⟨e, by rw [access_count]; exact List.mem_range.1 he, ?_⟩
        rw [access_addr, ← lanesOf_eq]
        show Spec.Covers _ (i.T.bits / 8) q
        rw [bits_size, Nat.mul_div_cancel_left _ (by omega)]
        exact hc
      exact ⟨scatter_other _ _ _ _ this, scatter_other _ _ _ _ this⟩
  · intro j hj
    simp only [stAfter]
    rw [if_pos]
    have : (if quad then numOpsOf i.strip * 4 else numOpsOf i.strip) *
        (if quad then lanesOf i.T / 4 else lanesOf i.T) = numOpsOf i.strip * lanesOf i.T := by
      cases quad
      · rfl
      · simp only [if_true]; rw [Nat.mul_assoc]; congr 1; omega
    rw [this]; omega

/-- The relation between the results on `s.mem` and on `mem'`. -/
def MemRes (W : Nat → Prop) (mem mem' : Mem) (p p' : Bool × Arch) : Prop :=
  p'.1 = p.1 ∧ p'.2.x = p.2.x ∧ p'.2.v = p.2.v ∧ p'.2.acc = p.2.acc ∧ p'.2.dw = p.2.dw ∧
    (∀ q, W q → p'.2.mem q = p.2.mem q) ∧ (∀ q, ¬ W q → p'.2.mem q = mem' q ∧ p.2.mem q = mem q)

theorem execRow_mem (maxPhys : Nat) (fresh : Nat → VReg) (r : Row) (hr : r ∈ allRows) (w : BitVec 32) (s : Arch) (mem' : Mem)
    (h : ∀ q, Spec.Reads maxPhys r.sem w s.x q → mem' q = s.mem q) (a : Outcome (Bool × Arch))
    (ha : execRow maxPhys fresh r w s = some a) :
    ∃ a', execRow maxPhys fresh r w { s with mem := mem' } = some a' ∧
      Spec.Alike (MemRes (Spec.Writes maxPhys r.sem w s.x) s.mem mem') a a' := by
  have hl := List.all_eq_true.1 allRows_memOk r hr
  unfold execRow at ha ⊢
  unfold memRowOk at hl
  cases hs : r.sem with
  | scalar => rw [hs] at ha; exact nomatch ha
  | vec op sc st =>
    rw [hs] at ha
    injection ha with ha
    subst ha
    refine ⟨_, rfl, ?_⟩
    have e0 : ∀ k, SrcOpd.toSrc { s with mem := mem' } (source r w k) = SrcOpd.toSrc s (source r w k) := by
      intro k; cases source r w k with
      | none => rfl
      | some o => cases o <;> rfl
    simp only [e0]
    exact alike_step _ fun v => ⟨rfl, rfl, rfl, rfl, rfl, fun _ h => h.elim, fun _ _ => ⟨rfl, rfl⟩⟩
  | vld T len stride strip xs2 postInc =>
    rw [hs] at ha hl h
    injection ha with ha
    subst ha
    refine ⟨_, rfl, ?_⟩
    simp only [Bool.and_eq_true] at hl
    have hx := hl.2
    refine alike_ite _ (fun hc => ?_) (fun _ => trivial)
    have hk : ∃ k, Form (memInst r w T len stride strip xs2 postInc) k := by
      obtain ⟨k, hk⟩ := Option.isSome_iff_exists.1 hx
      exact ⟨k, formOf_form _ (by rw [← hk]; cases xs2 <;> rfl)⟩
    obtain ⟨k, hk⟩ := hk
    refine alike_bind (vld_same _ (form_len hk) (form_stride hk) maxPhys (memState s) mem' ?_) ?_
    · intro q hq
      rw [access_of r w T len stride strip xs2 postInc hc.1 hx] at hq
      exact h q hq
    · rintro p p' ⟨rfl, hp⟩
      exact ⟨rfl, rfl, rfl, rfl, rfl, fun _ h => h.elim, fun q _ => ⟨rfl, by show p.mem q = _; rw [hp]; rfl⟩⟩
  | vst T len stride strip xs2 postInc =>
    rw [hs] at ha hl
    injection ha with ha
    subst ha
    refine ⟨_, rfl, ?_⟩
    simp only [Bool.and_eq_true, decide_eq_true_eq] at hl
    have hx := hl.2
    refine alike_ite _ (fun hc => ?_) (fun _ => trivial)
    have hk : ∃ k, Form (memInst r w T len stride strip xs2 postInc) k := by
      obtain ⟨k, hk⟩ := Option.isSome_iff_exists.1 hx
      exact ⟨k, formOf_form _ (by rw [← hk]; cases xs2 <;> rfl)⟩
    obtain ⟨k, hk⟩ := hk
    have hv := vst_same _ false hl.1.2 k hk maxPhys (memState s) mem'
    rw [access_of r w T len stride strip xs2 postInc hc.1 hx] at hv
    refine alike_bind hv ?_
    rintro p p' ⟨h1, h2, h3, h4⟩
    exact ⟨rfl, by funext n; show p'.x _ = p.x _; rw [h1], h2, rfl, rfl, h3, h4⟩
  | vstq T strip postInc =>
    rw [hs] at ha hl
    injection ha with ha
    subst ha
    refine ⟨_, rfl, ?_⟩
    simp only [Bool.and_eq_true, decide_eq_true_eq] at hl
    refine alike_ite _ (fun hc => ?_) (fun _ => trivial)
    have hv := vst_same (memInst r w T false true strip true postInc) true hl.2 .stride ⟨rfl, rfl, rfl⟩ maxPhys (memState s) mem'
    rw [access_of r w T false true strip true postInc hc.1 rfl] at hv
    refine alike_bind hv ?_
    rintro p p' ⟨h1, h2, h3, h4⟩
    exact ⟨rfl, by funext n; show p'.x _ = p.x _; rw [h1], h2, rfl, rfl, h3, h4⟩
  | vdup T strip =>
    rw [hs] at ha
    injection ha with ha
    subst ha
    refine ⟨_, rfl, ?_⟩
    exact alike_step (SrcOpd.scalarVal s (source r w 0)) fun y =>
      alike_step _ fun v => ⟨rfl, rfl, rfl, rfl, rfl, fun _ h => h.elim, fun _ _ => ⟨rfl, rfl⟩⟩
  | getvl T strip i1 i2 =>
    rw [hs] at ha
    injection ha with ha
    subst ha
    refine ⟨_, rfl, ?_⟩
    have e : ∀ b : Option (BitVec 32), ∀ c : Option (BitVec 32), Spec.Alike (MemRes (Spec.Writes maxPhys (.getvl T strip i1 i2) w s.x) s.mem mem')
        (.ok (false, { s with x := writeX s.x (fRd w) (getVl T strip b c) }))
        (.ok (false, { s with x := writeX s.x (fRd w) (getVl T strip b c), mem := mem' })) :=
      fun b c => ⟨rfl, rfl, rfl, rfl, rfl, fun _ h => h.elim, fun _ _ => ⟨rfl, rfl⟩⟩
    cases i1 <;> cases i2
    · exact e _ _
    · exact alike_step (Option.some <$> SrcOpd.scalarVal s (source r w 1)) fun c => e _ c
    · exact alike_step (Option.some <$> SrcOpd.scalarVal s (source r w 0)) fun c => e c _
    · exact alike_step (Option.some <$> SrcOpd.scalarVal s (source r w 0)) fun b =>
        alike_step (Option.some <$> SrcOpd.scalarVal s (source r w 1)) fun c => e b c
  | vcget =>
    rw [hs] at ha
    injection ha with ha
    subst ha
    refine ⟨_, rfl, ?_⟩
    exact alike_step _ fun v => ⟨rfl, rfl, rfl, rfl, rfl, fun _ h => h.elim, fun _ _ => ⟨rfl, rfl⟩⟩
  | acset t =>
    rw [hs] at ha
    injection ha with ha
    subst ha
    refine ⟨_, rfl, ?_⟩
    exact alike_step _ fun g => alike_step _ fun v => ⟨rfl, rfl, rfl, rfl, rfl, fun _ h => h.elim, fun _ _ => ⟨rfl, rfl⟩⟩
  | adwinit =>
    rw [hs] at ha
    injection ha with ha
    subst ha
    refine ⟨_, rfl, ?_⟩
    exact alike_step _ fun g => alike_step _ fun v => ⟨rfl, rfl, rfl, rfl, rfl, fun _ h => h.elim, fun _ _ => ⟨rfl, rfl⟩⟩
  | aconv =>
    rw [hs] at ha
    injection ha with ha
    subst ha
    refine ⟨_, rfl, ?_⟩
    exact alike_step _ fun g => alike_step (SrcOpd.scalarVal s (source r w 1)) fun c => alike_step _ fun g3 =>
      alike_step _ fun v => ⟨rfl, rfl, rfl, rfl, rfl, fun _ h => h.elim, fun _ _ => ⟨rfl, rfl⟩⟩
  | dwconv wr =>
    rw [hs] at ha
    injection ha with ha
    subst ha
    refine ⟨_, rfl, ?_⟩
    exact alike_step _ fun g => alike_step (SrcOpd.scalarVal s (source r w 1)) fun c => alike_step _ fun g3 =>
      alike_step _ fun v => ⟨rfl, rfl, rfl, rfl, rfl, fun _ h => h.elim, fun _ _ => ⟨rfl, rfl⟩⟩

end Verif.Proofs
