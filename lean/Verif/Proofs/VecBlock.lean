import Verif.Model.VecBlock
import Verif.Proofs.Footprint
import Verif.Proofs.RenodeMem

/-! # Vector instructions on Renode's block memory -/

namespace Verif.Proofs
open Verif Verif.Model

theorem size_pos (T : CTy) : 0 < T.size := by cases T <;> decide

theorem elemAddr_map (A : Nat → Nat) (n size e : Nat) (he : e < n) (hA : ∀ e < n, A e < 2 ^ 64) :
    Spec.BlockMem.elemAddr ((List.range n).map A) size e = A e := by
  have hl : ((List.range n).map A).length = n := by simp
  have hg : ∀ j < n, ((List.range n).map A).getD j 0 = A j := by
    intro j hj
    rw [List.getD_eq_getElem?_getD, List.getElem?_map, List.getElem?_range hj]; rfl
  unfold Spec.BlockMem.elemAddr
  rw [hl]
  by_cases h : 1 < n
  · rw [if_pos h, hg e he]
  · rw [if_neg h]
    obtain rfl : e = 0 := by omega
    rw [hg 0 he, Nat.zero_mul, Nat.add_zero, Nat.mod_eq_of_lt (hA 0 he)]

theorem allInside_map (A : Nat → Nat) (n size lo hi : Nat) (hA : ∀ e < n, A e < 2 ^ 64) :
    Spec.BlockMem.allInside lo hi ((List.range n).map A) (List.replicate n true) size ↔
      ∀ e < n, Spec.BlockMem.inside lo hi (A e) size := by
  unfold Spec.BlockMem.allInside
  rw [List.length_replicate]
  refine forall_congr' fun e => forall_congr' fun he => ?_
  rw [elemAddr_map A n size e he hA, List.getElem?_replicate, if_pos he]
  simp

open Verif.Proofs.RenodeMem in
theorem blockLoad_eq {c : RenodeMem.Cfg} {len : Nat → Nat} (wf : RenodeMem.WF c len) (T : CTy) (n : Nat) (A : Nat → Nat)
    (hn : n * T.size < 2 ^ 31) (hA : ∀ e < n, A e < 2 ^ 64) (junk : RenodeMem.Buf) (heap : RenodeMem.Heap) :
    ((∀ e < n, Spec.BlockMem.inside c.base c.max (A e) T.size) →
      blockLoad c len T ((List.range n).map A) junk heap =
        .ok (((List.range n).map A).map (memLoad T (Model.RenodeMem.flat c heap)))) ∧
    (¬ (∀ e < n, Spec.BlockMem.inside c.base c.max (A e) T.size) →
      blockLoad c len T ((List.range n).map A) junk heap = .abort) := by
  have hl : ((List.range n).map A).length = n := by simp
  unfold blockLoad
  rw [hl, vaccess_eq wf true _ _ _ _ _ _ (size_pos T)]
  by_cases h0 : n = 0
  · subst h0
    refine ⟨fun _ => rfl, fun h => absurd (fun e he => absurd he (Nat.not_lt_zero e)) h⟩
  · have hne : (List.range n).map A ≠ [] := fun h => h0 (by rw [← hl, h]; rfl)
    obtain ⟨h1, h2⟩ := elems_load wf (n * T.size) T.size ((List.range n).map A) heap hne (size_pos T)
      (by intro a ha; obtain ⟨e, he, rfl⟩ := List.mem_map.1 ha; exact hA e (List.mem_range.1 he)) hn
      (List.replicate n true) 0 junk (by rw [hl]; simp) (by simp)
    rw [← allInside_iff, allInside_map A n T.size _ _ hA] at h1 h2
    refine ⟨fun h => ?_, fun h => by rw [h2 h]; rfl⟩
    rw [h1 h, Outcome.ok_bind, List.map_map]
    refine congrArg _ (List.map_congr_left fun e he => ?_)
    have he := List.mem_range.1 he
    unfold memLoad memBytes
    refine congrArg (fun z => CVal.ofBits T (BitVec.ofNat T.bits (packLanes 8 z))) (List.map_congr_left fun j hj => ?_)
    have hj := List.mem_range.1 hj
    show gatherBuf _ _ _ _ _ _ _ = _
    have e1 : (e * T.size + j) / T.size = e := Nat.div_eq_of_lt_le (by omega) (by rw [Nat.add_mul]; omega)
    have e2 : (e * T.size + j) % T.size = j := by rw [Nat.mul_comm, Nat.mul_add_mod, Nat.mod_eq_of_lt hj]
    rw [gatherBuf_eq _ _ _ (size_pos T), e1, e2, elemAddr_map A n T.size e he hA, if_pos]
    refine ⟨Nat.zero_le _, ?_⟩
    rw [Nat.sub_zero, List.getElem?_replicate, if_pos he]

theorem eltBytes_length (T : CTy) (c : CVal) : (eltBytes T c).length = T.size := by simp [eltBytes]

theorem bytes_length (T : CTy) : ∀ l : List CVal, (l.flatMap (eltBytes T)).length = l.length * T.size
  | [] => by simp
  | c :: l => by
    rw [List.flatMap_cons, List.length_append, bytes_length T l, eltBytes_length, List.length_cons, Nat.add_mul]; omega

theorem bytes_take (T : CTy) : ∀ (l : List CVal) (i : Nat) (h : i < l.length),
    ((l.flatMap (eltBytes T)).drop (i * T.size)).take T.size = eltBytes T l[i]
  | c :: l, 0, _ => by
    rw [Nat.zero_mul, List.drop_zero, List.flatMap_cons, List.take_append_of_le_length (by rw [eltBytes_length]),
      List.take_of_length_le (by rw [eltBytes_length])]
    rfl
  | c :: l, i + 1, h => by
    have e : (i + 1) * T.size = (eltBytes T c).length + i * T.size := by rw [eltBytes_length, Nat.add_mul]; omega
    rw [List.flatMap_cons, e, List.drop_append, List.drop_of_length_le (by omega), Nat.add_sub_cancel_left, List.nil_append,
      bytes_take T l i (by simpa using h)]
    rfl

theorem write_elt (T : CTy) (m : Mem) (a : Nat) (c : CVal) : Spec.BlockMem.write m a (eltBytes T c) = memStore T m a c := by
  funext q
  unfold Spec.BlockMem.write memStore
  by_cases h : a ≤ q ∧ q < a + T.size
  · rw [if_pos h, dif_pos ⟨h.1, by rw [eltBytes_length]; omega⟩]
    simp [eltBytes]
  · rw [if_neg h, dif_neg (by rw [eltBytes_length]; omega)]

theorem scattered_eq (T : CTy) (A : Nat → Nat) (V : Nat → CVal) (n : Nat) (hA : ∀ e < n, A e < 2 ^ 64) :
    ∀ (k i : Nat) (m : Mem), i + k = n →
      Spec.BlockMem.scattered ((List.range n).map A) T.size (((List.range n).map V).flatMap (eltBytes T)) i
        (List.replicate k true) m = scatter T m ((List.range' i k).map fun j => (A j, V j))
  | 0, _, _, _ => rfl
  | k + 1, i, m, h => by
    rw [List.replicate_succ, Spec.BlockMem.scattered, scattered_eq T A V n hA k (i + 1) _ (by omega), if_pos rfl,
      elemAddr_map A n T.size i (by omega) hA, bytes_take T _ i (by simp; omega), write_elt, List.range'_succ]
    simp [scatter]

open Verif.Proofs.RenodeMem in
theorem blockStore_eq {c : RenodeMem.Cfg} {len : Nat → Nat} (wf : RenodeMem.WF c len) (T : CTy) (n : Nat) (A : Nat → Nat)
    (V : Nat → CVal) (hn : n * T.size < 2 ^ 31) (hA : ∀ e < n, A e < 2 ^ 64) (heap : RenodeMem.Heap) :
    ((∀ e < n, Spec.BlockMem.inside c.base c.max (A e) T.size) →
      ∃ heap', blockStore c len T ((List.range n).map fun j => (A j, V j)) heap = .ok heap' ∧
        Model.RenodeMem.flat c heap' = scatter T (Model.RenodeMem.flat c heap) ((List.range n).map fun j => (A j, V j))) ∧
    (¬ (∀ e < n, Spec.BlockMem.inside c.base c.max (A e) T.size) →
      blockStore c len T ((List.range n).map fun j => (A j, V j)) heap = .abort) := by
  have e1 : ((List.range n).map fun j => (A j, V j)).map (·.1) = (List.range n).map A := by rw [List.map_map]; rfl
  have e2 : ((List.range n).map fun j => (A j, V j)).map (·.2) = (List.range n).map V := by rw [List.map_map]; rfl
  have hl : ((List.range n).map fun j => (A j, V j)).length = n := by simp
  have hlA : ((List.range n).map A).length = n := by simp
  have hlV : ((List.range n).map V).length = n := by simp
  unfold blockStore
  simp only [e1, e2, hl, vaccess_eq wf false _ _ _ _ _ _ (size_pos T)]
  by_cases h0 : n = 0
  · subst h0
    refine ⟨fun _ => ⟨heap, rfl, rfl⟩, fun h => absurd (fun e he => absurd he (Nat.not_lt_zero e)) h⟩
  · have hne : (List.range n).map A ≠ [] := fun h => h0 (by rw [← hlA, h]; rfl)
    have hd : (((List.range n).map V).flatMap (eltBytes T)).length = n * T.size := by rw [bytes_length, hlV]
    obtain ⟨h1, h2⟩ := elems_store wf T.size ((List.range n).map A) (((List.range n).map V).flatMap (eltBytes T)) hne (size_pos T)
      (by intro a ha; obtain ⟨e, he, rfl⟩ := List.mem_map.1 ha; exact hA e (List.mem_range.1 he)) (by rw [hd]; exact hn)
      (List.replicate n true) 0 heap (by rw [hlA]; simp) (by rw [hd]; simp)
    rw [← allInside_iff, allInside_map A n T.size _ _ hA] at h1 h2
    refine ⟨fun h => ?_, fun h => by rw [h2 h]; rfl⟩
    obtain ⟨heap', g1, g2, -⟩ := h1 h
    refine ⟨heap', by rw [g1]; rfl, ?_⟩
    rw [g2, scattered_eq T A V n hA n 0 _ (by omega), List.range_eq_range']

/-- Every byte of the access lies in the memory. -/
theorem touches_inside (i : VMemInst) (maxPhys : Nat) (s : MState) (row lo hi : Nat) :
    (∀ q, (access i maxPhys s).Touches row q → lo ≤ q ∧ q < hi) ↔
      ∀ e < eltsNat i s, Spec.BlockMem.inside lo hi
        (Spec.elemAddr (maskAddr maxPhys (readX s.x i.rs1)).toNat row (strideNat i s) i.T.size e) i.T.size := by
  have hs := size_pos i.T
  have hw : (access i maxPhys s).w / 8 = i.T.size := by
    show i.T.bits / 8 = _
    rw [bits_size, Nat.mul_div_cancel_left _ (by omega)]
  constructor
  · intro h e he
    have h1 := fun q hq => h q ⟨e, by rw [access_count]; exact he, hq⟩
    rw [access_addr, hw] at h1
    have a1 := h1 _ ⟨Nat.le_refl _, by omega⟩
    have a2 := h1 (Spec.elemAddr (maskAddr maxPhys (readX s.x i.rs1)).toNat row (strideNat i s) i.T.size e + i.T.size - 1)
      ⟨by omega, by omega⟩
    exact ⟨a1.1, by omega, hs⟩
  · rintro h q ⟨e, he, hc⟩
    rw [access_count] at he
    rw [access_addr, hw] at hc
    obtain ⟨h1, h2, -⟩ := h e he
    obtain ⟨h3, h4⟩ := hc
    omega

theorem elts_bytes (i : VMemInst) (s : MState) : eltsNat i s * i.T.size ≤ 128 := by
  have h := elts_le i s
  refine Nat.le_trans (Nat.mul_le_mul_right _ h) ?_
  cases i.strip <;> cases i.T <;> decide

theorem elemAddr_lt (T : CTy) (b row stride e : Nat) (he : e * T.size ≤ 128) : Spec.elemAddr b row stride T.size e < 2 ^ 64 := by
  unfold Spec.elemAddr
  have h1 := Nat.mod_lt (b + e / row * (stride * T.size)) (show 0 < 2 ^ 32 by decide)
  have h2 : e % row * T.size ≤ e * T.size := Nat.mul_le_mul_right _ (Nat.mod_le _ _)
  omega

theorem addrs_lt (i : VMemInst) (s : MState) (b row stride : Nat) :
    ∀ e < eltsNat i s, Spec.elemAddr b row stride i.T.size e < 2 ^ 64 := by
  intro e he
  refine elemAddr_lt _ _ _ _ _ (Nat.le_trans (Nat.mul_le_mul_right _ (Nat.le_of_lt he)) (elts_bytes i s))

theorem vldB_eq {c : RenodeMem.Cfg} {len : Nat → Nat} (wf : RenodeMem.WF c len) (i : VMemInst) (k : Spec.PostInc) (hk : Form i k)
    (maxPhys : Nat) (junk : RenodeMem.Buf) (s : MState) (mem : Mem) (heap : RenodeMem.Heap) :
    ((∀ q, (access i maxPhys s).Touches (Spec.lanes i.T.bits) q → c.base ≤ q ∧ q < c.max) →
      ∃ m, i.vldB maxPhys c len junk { s with mem := mem } heap = .ok { m with mem := mem } ∧
        i.vld maxPhys { s with mem := Model.RenodeMem.flat c heap } = .ok m ∧ m.mem = Model.RenodeMem.flat c heap) ∧
    (¬ (∀ q, (access i maxPhys s).Touches (Spec.lanes i.T.bits) q → c.base ≤ q ∧ q < c.max) →
      i.vldB maxPhys c len junk { s with mem := mem } heap = .abort) := by
  rw [touches_inside, ← lanesOf_eq]
  obtain ⟨h1, h2⟩ := blockLoad_eq wf i.T (eltsNat i s)
    (Spec.elemAddr (maskAddr maxPhys (readX s.x i.rs1)).toNat (lanesOf i.T) (strideNat i s) i.T.size)
    (Nat.lt_of_le_of_lt (elts_bytes i s) (by decide)) (addrs_lt i s _ _ _) junk heap
  have hn : ∀ mem, i.elts { s with mem := mem } = .ok (eltsNat i s) := fun _ => elts_ok i s (form_len hk)
  have hs : ∀ mem, i.stride { s with mem := mem } = .ok (strideNat i s) := fun _ => stride_ok i s (form_stride hk)
  refine ⟨fun h => ?_, fun h => ?_⟩
  · obtain ⟨m, g1, g2, -⟩ := vld_run i k hk maxPhys { s with mem := Model.RenodeMem.flat c heap }
    refine ⟨m, ?_, g1, g2⟩
    unfold VMemInst.vld at g1
    unfold VMemInst.vldB
    simp only [hn, hs, Outcome.ok_bind, vldAddrs_ok _ _ _ _ _ (elts_le i s), h1 h] at g1 ⊢
    revert g1
    generalize hv : vldRegWrite i.T _ _ _ _ _ = ov
    cases ov with
    | ok v =>
      simp only [Outcome.ok_bind]
      have e : ∀ mem mem', i.writeBack { s with mem := mem } (maskAddr maxPhys (readX s.x i.rs1)) (eltsNat i s) (strideNat i s) 1 =
        i.writeBack { s with mem := mem' } (maskAddr maxPhys (readX s.x i.rs1)) (eltsNat i s) (strideNat i s) 1 := fun _ _ => rfl
      rw [e mem (Model.RenodeMem.flat c heap)]
      generalize hx : i.writeBack _ _ _ _ _ = ox
      cases ox with
      | ok x => simp only [Outcome.ok_bind]; intro g; injection g with g; rw [← g]
      | ub => intro g; cases g
      | abort => intro g; cases g
    | ub => intro g; cases g
    | abort => intro g; cases g
  · unfold VMemInst.vldB
    simp only [hn, hs, Outcome.ok_bind, vldAddrs_ok _ _ _ _ _ (elts_le i s), h2 h]
    rfl

theorem vstB_eq {c : RenodeMem.Cfg} {len : Nat → Nat} (wf : RenodeMem.WF c len) (i : VMemInst) (quad : Bool) (hT : i.T.bits ≤ 32)
    (k : Spec.PostInc) (hk : Form i k) (maxPhys : Nat) (s : MState) (mem : Mem) (heap : RenodeMem.Heap) :
    ((∀ q, (access i maxPhys s).Touches (if quad then Spec.lanes i.T.bits / 4 else Spec.lanes i.T.bits) q → c.base ≤ q ∧ q < c.max) →
      ∃ m heap', i.vstHelperB quad maxPhys c len { s with mem := mem } heap = .ok ({ m with mem := mem }, heap') ∧
        i.vstHelper quad maxPhys { s with mem := Model.RenodeMem.flat c heap } = .ok m ∧ m.mem = Model.RenodeMem.flat c heap') ∧
    (¬ (∀ q, (access i maxPhys s).Touches (if quad then Spec.lanes i.T.bits / 4 else Spec.lanes i.T.bits) q → c.base ≤ q ∧ q < c.max) →
      i.vstHelperB quad maxPhys c len { s with mem := mem } heap = .abort) := by
  rw [touches_inside, ← lanesOf_eq]
  have hq : lanesOf i.T % 4 = 0 := by
    cases h : i.T <;> simp only [h, CTy.bits] at hT <;> first | rfl | omega
  have hle := elts_le i s
  obtain ⟨h1, h2⟩ := blockStore_eq wf i.T (eltsNat i s)
    (Spec.elemAddr (maskAddr maxPhys (readX s.x i.rs1)).toNat (if quad then lanesOf i.T / 4 else lanesOf i.T) (strideNat i s) i.T.size)
    (fun j => regElt i.T (s.v (i.vd + j / lanesOf i.T)) (j % lanesOf i.T))
    (Nat.lt_of_le_of_lt (elts_bytes i s) (by decide)) (addrs_lt i s _ _ _) heap
  have hn : ∀ mem, i.elts { s with mem := mem } = .ok (eltsNat i s) := fun _ => elts_ok i s (form_len hk)
  have hs : ∀ mem, i.stride { s with mem := mem } = .ok (strideNat i s) := fun _ => stride_ok i s (form_stride hk)
  obtain ⟨a, hx, -⟩ := writeBack_ok i s (maskAddr maxPhys (readX s.x i.rs1)) (eltsNat i s) (if quad then 4 else 1)
    (form_len hk) (form_stride hk)
  have hx : ∀ mem, i.writeBack { s with mem := mem } (maskAddr maxPhys (readX s.x i.rs1)) (eltsNat i s) (strideNat i s)
    (if quad then 4 else 1) = _ := fun _ => hx
  have hb := bufAll_ok (eltsNat i s) (stAfter i.T (eltsNat i s) (strideNat i s) (if quad then lanesOf i.T / 4 else lanesOf i.T)
      (maskAddr maxPhys (readX s.x i.rs1)) (fun j => regElt i.T (s.v (i.vd + j / lanesOf i.T)) (j % lanesOf i.T))
      (if quad then numOpsOf i.strip * 4 else numOpsOf i.strip)).buf
    (fun j => (Spec.elemAddr (maskAddr maxPhys (readX s.x i.rs1)).toNat
      (if quad then lanesOf i.T / 4 else lanesOf i.T) (strideNat i s) i.T.size j,
        regElt i.T (s.v (i.vd + j / lanesOf i.T)) (j % lanesOf i.T))) (by
    intro j hj
    simp only [stAfter]
    rw [if_pos]
    have : (if quad then numOpsOf i.strip * 4 else numOpsOf i.strip) *
        (if quad then lanesOf i.T / 4 else lanesOf i.T) = numOpsOf i.strip * lanesOf i.T := by
      cases quad
      · rfl
      · simp only [if_true]; rw [Nat.mul_assoc]; congr 1; omega
    rw [this]; omega)
  refine ⟨fun h => ?_, fun h => ?_⟩
  · obtain ⟨heap', g1, g2⟩ := h1 h
    refine ⟨⟨if i.postInc then writeX s.x i.rs1 a else s.x, s.v, Model.RenodeMem.flat c heap'⟩, heap', ?_, ?_, rfl⟩
    rotate_left
    · unfold VMemInst.vstHelper
      simp only [hn, hs, Outcome.ok_bind, vst_ok _ _ _ _ quad _ _ _ (fun _ => hq), hb, hx, ← g2]
    · unfold VMemInst.vstHelperB
      simp only [hn, hs, Outcome.ok_bind, vst_ok _ _ _ _ quad _ _ _ (fun _ => hq), hb, hx, g1]
  · unfold VMemInst.vstHelperB
    simp only [hn, hs, Outcome.ok_bind, vst_ok _ _ _ _ quad _ _ _ (fun _ => hq), hb, h2 h]
    rfl

/-- Every byte the instruction has to do with lies in the memory. -/
def InBlocks (maxPhys : Nat) (c : RenodeMem.Cfg) (r : Row) (w : BitVec 32) (x : Nat → BitVec 32) : Prop :=
  ∀ q, Spec.Reads maxPhys r.sem w x q ∨ Spec.Writes maxPhys r.sem w x q → c.base ≤ q ∧ q < c.max

/-- The result `b` on blocks shows the result `a` on one array. -/
def Shows (c : RenodeMem.Cfg) : Option (Outcome (Bool × Arch)) → Option (Outcome (Bool × BArch)) → Prop
  | none, none => True
  | some .ub, some .ub => True
  | some .abort, some .abort => True
  | some (.ok p), some (.ok p') => p'.1 = p.1 ∧ p'.2.arch c = p.2
  | _, _ => False

theorem shows_other (maxPhys : Nat) (fresh : Nat → VReg) (c : RenodeMem.Cfg) (r : Row) (hr : r ∈ allRows) (w : BitVec 32)
    (s : BArch) (h : ∀ x q, ¬ Spec.Reads maxPhys r.sem w x q ∧ ¬ Spec.Writes maxPhys r.sem w x q) :
    Shows c (execRow maxPhys fresh r w (s.arch c)) ((execRow maxPhys fresh r w (s.withMem fun _ => 0)).map fun o => do
      let p ← o
      .ok (p.1, p.2.blocks s.heap)) := by
  cases ha : execRow maxPhys fresh r w (s.withMem fun _ => 0) with
  | none =>
    have hs : r.sem = .scalar := by
      unfold execRow at ha
      cases hs : r.sem <;> rw [hs] at ha <;> first | rfl | cases ha
    have e : execRow maxPhys fresh r w (s.arch c) = none := by unfold execRow; rw [hs]
    rw [e]; trivial
  | some a =>
    obtain ⟨a', h1, h2⟩ := execRow_mem maxPhys fresh r hr w (s.withMem fun _ => 0) (Model.RenodeMem.flat c s.heap)
      (fun q hq => absurd hq (h _ q).1) a ha
    change Shows c (execRow maxPhys fresh r w { s.withMem (fun _ => 0) with mem := Model.RenodeMem.flat c s.heap }) _
    rw [h1]
    cases a with
    | ok p =>
      cases a' with
      | ok p' =>
        obtain ⟨t, ⟨x, v, m, ac, dw⟩⟩ := p
        obtain ⟨t', ⟨x', v', m', ac', dw'⟩⟩ := p'
        obtain ⟨f1, f2, f3, f4, f5, -, f7⟩ := h2
        have f6 := funext fun q => ((f7 q (h _ q).2).1)
        simp only at f1 f2 f3 f4 f5 f6
        subst f1 f2 f3 f4 f5 f6
        exact ⟨rfl, rfl⟩
      | ub => exact h2.elim
      | abort => exact h2.elim
    | ub => cases a' with
      | ub => trivial
      | ok _ => exact h2.elim
      | abort => exact h2.elim
    | abort => cases a' with
      | abort => trivial
      | ok _ => exact h2.elim
      | ub => exact h2.elim

theorem execRowB_eq {c : RenodeMem.Cfg} {len : Nat → Nat} (wf : RenodeMem.WF c len) (maxPhys : Nat) (fresh : Nat → VReg)
    (junk : RenodeMem.Buf) (r : Row) (hr : r ∈ allRows) (w : BitVec 32) (hw : r.matches w = true) (s : BArch) :
    (InBlocks maxPhys c r w s.x → Shows c (execRow maxPhys fresh r w (s.arch c)) (execRowB maxPhys fresh c len junk r w s)) ∧
    (¬ InBlocks maxPhys c r w s.x → execRowB maxPhys fresh c len junk r w s = some .abort) := by
  have hok := List.all_eq_true.1 allRows_memOk r hr
  have other : (∀ x q, ¬ Spec.Reads maxPhys r.sem w x q ∧ ¬ Spec.Writes maxPhys r.sem w x q) →
      execRowB maxPhys fresh c len junk r w s = ((execRow maxPhys fresh r w (s.withMem fun _ => 0)).map fun o => do
        let p ← o
        .ok (p.1, p.2.blocks s.heap)) →
      (InBlocks maxPhys c r w s.x → Shows c (execRow maxPhys fresh r w (s.arch c)) (execRowB maxPhys fresh c len junk r w s)) ∧
      (¬ InBlocks maxPhys c r w s.x → execRowB maxPhys fresh c len junk r w s = some .abort) := by
    intro h1 h2
    rw [h2]
    refine ⟨fun _ => shows_other maxPhys fresh c r hr w s h1, fun h => absurd (fun q hq => ?_) h⟩
    rcases hq with hq | hq
    · exact absurd hq (h1 _ _).1
    · exact absurd hq (h1 _ _).2
  cases hs : r.sem with
  | vld T ln stride strip xs2 pi =>
    obtain ⟨⟨hT, k, hk⟩, he⟩ := exec_vld maxPhys fresh hr hw hs (s.arch c)
    simp only [memRowOk, hs, Bool.and_eq_true, beq_iff_eq] at hok
    have hacc := access_of r w T ln stride strip xs2 pi (fixedFld_field hw hok.1.1.1.1.1) hok.2 maxPhys (s.arch c)
    have hc := (exec_vld maxPhys fresh hr hw hs (s.arch c)).2
    have heB : execRowB maxPhys fresh c len junk r w s = some (do
        let m ← (memInst r w T ln stride strip xs2 pi).vldB maxPhys c len junk s.regs s.heap
        .ok (false, (memBack (s.withMem fun _ => 0) m).blocks s.heap)) := by
      have hM := fM_of (fixedFld_field hw hok.1.1.1.1.2)
      simp only [execRowB, hs]
      rw [if_pos ⟨fixedFld_field hw hok.1.1.1.1.1, dst_len7 (fixedFld_field hw hok.1.1.1.2) hM hok.1.1.2⟩]
    obtain ⟨h1, h2⟩ := vldB_eq wf (memInst r w T ln stride strip xs2 pi) k hk maxPhys junk (memState (s.arch c)) (fun _ => 0) s.heap
    have hin : InBlocks maxPhys c r w s.x ↔ ∀ q, (access (memInst r w T ln stride strip xs2 pi) maxPhys (memState (s.arch c))).Touches
        (Spec.lanes T.bits) q → c.base ≤ q ∧ q < c.max := by
      rw [hacc]; unfold InBlocks; rw [hs]
      exact ⟨fun h q hq => h q (Or.inl hq), fun h q hq => h q (hq.elim id False.elim)⟩
    rw [hin, he, heB]
    refine ⟨fun h => ?_, fun h => ?_⟩
    · obtain ⟨m, g1, g2, g3⟩ := h1 h
      change VMemInst.vldB _ _ _ _ _ s.regs s.heap = _ at g1
      change VMemInst.vld _ _ (memState (s.arch c)) = _ at g2
      rw [g1, g2]
      refine ⟨rfl, ?_⟩
      show Arch.mk _ _ _ _ _ = Arch.mk _ _ _ _ _
      rw [g3]; rfl
    · have g := h2 h
      change VMemInst.vldB _ _ _ _ _ s.regs s.heap = _ at g
      rw [g]; rfl
  | vst T ln stride strip xs2 pi =>
    obtain ⟨⟨hT, k, hk⟩, he⟩ := exec_vst maxPhys fresh hr hw hs (s.arch c)
    simp only [memRowOk, hs, Bool.and_eq_true, beq_iff_eq] at hok
    have hacc := access_of r w T ln stride strip xs2 pi (fixedFld_field hw hok.1.1.1) hok.2 maxPhys (s.arch c)
    have heB : execRowB maxPhys fresh c len junk r w s = some (do
        let m ← (memInst r w T ln stride strip xs2 pi).vstHelperB false maxPhys c len s.regs s.heap
        .ok (false, (memBack (s.withMem fun _ => 0) m.1).blocks m.2)) := by
      have hM := fM_of (fixedFld_field hw hok.1.1.2)
      simp only [execRowB, hs]
      rw [if_pos ⟨fixedFld_field hw hok.1.1.1, by rw [srcVd, hM]⟩]
    obtain ⟨h1, h2⟩ := vstB_eq wf (memInst r w T ln stride strip xs2 pi) false hT k hk maxPhys (memState (s.arch c)) (fun _ => 0) s.heap
    have hin : InBlocks maxPhys c r w s.x ↔ ∀ q, (access (memInst r w T ln stride strip xs2 pi) maxPhys (memState (s.arch c))).Touches
        (Spec.lanes T.bits) q → c.base ≤ q ∧ q < c.max := by
      rw [hacc]; unfold InBlocks; rw [hs]
      exact ⟨fun h q hq => h q (Or.inr hq), fun h q hq => h q (hq.elim False.elim id)⟩
    rw [hin, he, heB]
    refine ⟨fun h => ?_, fun h => ?_⟩
    · obtain ⟨m, heap', g1, g2, g3⟩ := h1 h
      change VMemInst.vstHelperB _ _ _ _ _ s.regs s.heap = _ at g1
      change VMemInst.vst _ _ (memState (s.arch c)) = _ at g2
      rw [g1, g2]
      refine ⟨rfl, ?_⟩
      show Arch.mk _ _ _ _ _ = Arch.mk _ _ _ _ _
      rw [g3]; rfl
    · have g := h2 h
      change VMemInst.vstHelperB _ _ _ _ _ s.regs s.heap = _ at g
      rw [g]; rfl
  | vstq T strip pi =>
    obtain ⟨⟨hT, hk⟩, he⟩ := exec_vstq maxPhys fresh hr hw hs (s.arch c)
    simp only [memRowOk, hs, Bool.and_eq_true, beq_iff_eq] at hok
    have hacc := access_of r w T false true strip true pi (fixedFld_field hw hok.1.1) rfl maxPhys (s.arch c)
    have heB : execRowB maxPhys fresh c len junk r w s = some (do
        let m ← (memInst r w T false true strip true pi).vstHelperB true maxPhys c len s.regs s.heap
        .ok (false, (memBack (s.withMem fun _ => 0) m.1).blocks m.2)) := by
      have hM := fM_of (fixedFld_field hw hok.1.2)
      simp only [execRowB, hs]
      rw [if_pos ⟨fixedFld_field hw hok.1.1, by rw [srcVd, hM]⟩]
    obtain ⟨h1, h2⟩ := vstB_eq wf (memInst r w T false true strip true pi) true hT _ hk maxPhys (memState (s.arch c)) (fun _ => 0) s.heap
    have hin : InBlocks maxPhys c r w s.x ↔ ∀ q, (access (memInst r w T false true strip true pi) maxPhys (memState (s.arch c))).Touches
        (Spec.lanes T.bits / 4) q → c.base ≤ q ∧ q < c.max := by
      rw [hacc]; unfold InBlocks; rw [hs]
      exact ⟨fun h q hq => h q (Or.inr hq), fun h q hq => h q (hq.elim False.elim id)⟩
    rw [hin, he, heB]
    refine ⟨fun h => ?_, fun h => ?_⟩
    · obtain ⟨m, heap', g1, g2, g3⟩ := h1 h
      change VMemInst.vstHelperB _ _ _ _ _ s.regs s.heap = _ at g1
      have g2 : (memInst r w T false true strip true pi).vstq maxPhys (memState (s.arch c)) = .ok m := g2
      rw [g1, g2]
      refine ⟨rfl, ?_⟩
      show Arch.mk _ _ _ _ _ = Arch.mk _ _ _ _ _
      rw [g3]; rfl
    · have g := h2 h
      change VMemInst.vstHelperB _ _ _ _ _ s.regs s.heap = _ at g
      rw [g]; rfl
  | _ =>
    exact other (fun x q => by rw [hs]; exact ⟨id, id⟩) (by unfold execRowB; rw [hs])

end Verif.Proofs
