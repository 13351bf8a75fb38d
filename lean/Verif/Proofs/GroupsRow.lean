import Verif.Proofs.Groups

/-! # Whole instructions depend on, and change, their operand groups only -/

namespace Verif.Proofs
open Verif Verif.Model

/-- The vector registers of one source operand. -/
def opdGroup : SrcOpd → List (Nat × Nat)
  | .vgroup b n => [(b, n)]
  | _ => []

/-- The destination group of the instruction. -/
def dstGroups (r : Row) (w : BitVec 32) : List (Nat × Nat) := if .vd ∈ r.dst then [(fVd w, dstVdLen r w)] else []

/-- The vector register groups of all operands of the instruction. -/
def rowGroups (r : Row) (w : BitVec 32) : List (Nat × Nat) :=
  dstGroups r w ++ (r.src.filterMap (srcOpd r w)).flatMap opdGroup

/-- What the operand lists must contain. -/
def listed (r : Row) : Bool :=
  match r.sem with
  | .vec .. | .vld .. | .vdup .. | .vcget | .adwinit | .dwconv _ => r.dst.contains .vd
  | .vst .. | .vstq .. => r.src.contains .vd
  | _ => true

theorem all_listed : allRows.all listed = true := by decide +kernel

theorem in_append {a b : List (Nat × Nat)} {q : Nat} (h : Spec.InGroups a q ∨ Spec.InGroups b q) : Spec.InGroups (a ++ b) q := by
  rcases h with ⟨g, hg, h⟩ | ⟨g, hg, h⟩
  · exact ⟨g, List.mem_append_left _ hg, h⟩
  · exact ⟨g, List.mem_append_right _ hg, h⟩

theorem dst_sub {r : Row} {w : BitVec 32} (h : r.dst.contains .vd = true) {q : Nat}
    (hq : Spec.InGroups [(fVd w, dstVdLen r w)] q) : Spec.InGroups (rowGroups r w) q := by
  refine in_append (.inl ?_)
  unfold dstGroups
  rw [if_pos (List.contains_iff_mem.1 h)]
  exact hq

theorem src_sub {r : Row} {w : BitVec 32} {o : SrcOpd} (h : o ∈ r.src.filterMap (srcOpd r w)) {q : Nat}
    (hq : Spec.InGroups (opdGroup o) q) : Spec.InGroups (rowGroups r w) q := by
  refine in_append (.inr ?_)
  obtain ⟨g, hg, h'⟩ := hq
  exact ⟨g, List.mem_flatMap.2 ⟨o, h, hg⟩, h'⟩

theorem source_mem {r : Row} {w : BitVec 32} {k : Nat} {o : SrcOpd} (h : source r w k = some o) :
    o ∈ r.src.filterMap (srcOpd r w) := by
  unfold source at h
  cases hk : r.src[k]? with
  | none => rw [hk] at h; exact nomatch h
  | some p =>
    rw [hk] at h
    exact List.mem_filterMap.2 ⟨p, List.mem_of_getElem? hk, h⟩

theorem toSrc_sub {r : Row} {w : BitVec 32} (s : Arch) (k : Nat) {q : Nat}
    (hq : Spec.InGroups (srcGroups (SrcOpd.toSrc s (source r w k))) q) : Spec.InGroups (rowGroups r w) q := by
  cases ho : source r w k with
  | none =>
    rw [ho] at hq
    obtain ⟨g, hg, h⟩ := hq
    have := List.mem_singleton.1 hg
    subst this
    exact absurd h.2 (Nat.not_lt.2 (Nat.zero_le _))
  | some o =>
    rw [ho] at hq
    refine src_sub (source_mem ho) ?_
    cases o <;> exact hq

theorem group_sub {r : Row} {w : BitVec 32} {k : Nat} {g : Nat × Nat} (hg : SrcOpd.group (source r w k) = .ok g) {q : Nat}
    (hq : Spec.InGroups [(g.1, g.2)] q) : Spec.InGroups (rowGroups r w) q := by
  cases ho : source r w k with
  | none => rw [ho] at hg; exact nomatch hg
  | some o =>
    rw [ho] at hg
    cases o with
    | vgroup b n =>
      injection hg with hg
      subst hg
      exact src_sub (source_mem ho) hq
    | _ => exact nomatch hg

/-- Two states that differ in vector registers outside `V` only. -/
def SameArch (V : Nat → Prop) (s s' : Arch) : Prop :=
  s.x = s'.x ∧ s.mem = s'.mem ∧ s.acc = s'.acc ∧ s.dw = s'.dw ∧ Spec.SameOn V s.v s'.v

/-- The relation between the results. -/
def SameRes (V : Nat → Prop) (p p' : Bool × Arch) : Prop := p.1 = p'.1 ∧ SameArch V p.2 p'.2

/-- The first step gives a value about which something is known. -/
theorem alike_known {α γ δ : Type} {S : γ → δ → Prop} (x : Outcome α) {f : α → Outcome γ} {g : α → Outcome δ}
    (hf : ∀ a, x = .ok a → Spec.Alike S (f a) (g a)) : Spec.Alike S (x >>= f) (x >>= g) := by
  cases x with
  | ok a => exact hf a rfl
  | ub => trivial
  | abort => trivial

theorem execRow_alike {V : Nat → Prop} (maxPhys : Nat) (fresh : Nat → VReg) (r : Row) (hr : r ∈ allRows) (w : BitVec 32)
    (hV : ∀ q, Spec.InGroups (rowGroups r w) q → V q) (s s' : Arch) (h : SameArch V s s') (a : Outcome (Bool × Arch))
    (ha : execRow maxPhys fresh r w s = some a) :
    ∃ a', execRow maxPhys fresh r w s' = some a' ∧ Spec.Alike (SameRes V) a a' := by
  have hl := List.all_eq_true.1 all_listed r hr
  obtain ⟨x, v, mem, acc, dw⟩ := s
  obtain ⟨x', v', mem', acc', dw'⟩ := s'
  obtain ⟨h1, h2, h3, h4, h⟩ := h
  dsimp only at h1 h2 h3 h4 h
  subst h1 h2 h3 h4
  unfold execRow at ha ⊢
  unfold listed at hl
  have hm : ∀ (m m' : MState), SameM V m m' →
      SameRes V (false, memBack ⟨x, v, mem, acc, dw⟩ m) (false, memBack ⟨x, v', mem, acc, dw⟩ m') := by
    intro m m' hm
    exact ⟨rfl, by unfold memBack; dsimp only; rw [hm.1], hm.2.1, rfl, rfl, hm.2.2⟩
  cases hs : r.sem with
  | scalar => rw [hs] at ha; exact nomatch ha
  | vec op sc st =>
    rw [hs] at ha hl
    injection ha with ha
    subst ha
    refine ⟨_, rfl, ?_⟩
    refine alike_bind (exec_alike op sc st _ (fun q hq => hV q (dst_sub hl hq)) (fun q hq => hV q (toSrc_sub _ 0 hq))
      (fun q hq => hV q (toSrc_sub _ 1 hq)) v v' h) (fun a b hab => ⟨rfl, rfl, rfl, rfl, rfl, hab⟩)
  | vld T len stride strip xs2 postInc =>
    rw [hs] at ha hl
    injection ha with ha
    subst ha
    refine ⟨_, rfl, ?_⟩
    exact alike_ite _ (fun _ => alike_bind (vld_alike _ maxPhys _ _ ⟨rfl, rfl, h⟩) (fun a b hab => hm a b hab)) (fun _ => trivial)
  | vst T len stride strip xs2 postInc =>
    rw [hs] at ha hl
    injection ha with ha
    subst ha
    refine ⟨_, rfl, ?_⟩
    refine alike_ite _ (fun hc => ?_) (fun _ => trivial)
    refine alike_bind (vst_alike _ false maxPhys ?_ _ _ ⟨rfl, rfl, h⟩) (fun a b hab => hm a b hab)
    intro q hq
    refine hV q (src_sub (o := srcVd w) (List.mem_filterMap.2 ⟨.vd, List.contains_iff_mem.1 hl, rfl⟩) ?_)
    rw [hc.2]
    exact hq
  | vstq T strip postInc =>
    rw [hs] at ha hl
    injection ha with ha
    subst ha
    refine ⟨_, rfl, ?_⟩
    refine alike_ite _ (fun hc => ?_) (fun _ => trivial)
    refine alike_bind (vst_alike _ true maxPhys ?_ _ _ ⟨rfl, rfl, h⟩) (fun a b hab => hm a b hab)
    intro q hq
    refine hV q (src_sub (o := srcVd w) (List.mem_filterMap.2 ⟨.vd, List.contains_iff_mem.1 hl, rfl⟩) ?_)
    rw [hc.2]
    exact hq
  | vdup T strip =>
    rw [hs] at ha
    injection ha with ha
    subst ha
    refine ⟨_, rfl, ?_⟩
    exact alike_step (SrcOpd.scalarVal ⟨x, v, mem, acc, dw⟩ (source r w 0)) fun y =>
      alike_bind (vdup_alike T strip _ _ y v v' h) (fun a b hab => ⟨rfl, rfl, rfl, rfl, rfl, hab⟩)
  | getvl T strip i1 i2 =>
    rw [hs] at ha
    injection ha with ha
    subst ha
    refine ⟨_, rfl, ?_⟩
    have e : ∀ b : Option (BitVec 32), ∀ c : Option (BitVec 32), Spec.Alike (SameRes V)
        (.ok (false, { x := writeX x (fRd w) (getVl T strip b c), v := v, mem := mem, acc := acc, dw := dw }))
        (.ok (false, { x := writeX x (fRd w) (getVl T strip b c), v := v', mem := mem, acc := acc, dw := dw })) :=
      fun b c => ⟨rfl, rfl, rfl, rfl, rfl, h⟩
    cases i1 <;> cases i2
    · exact e _ _
    · exact alike_step (Option.some <$> SrcOpd.scalarVal ⟨x, v, mem, acc, dw⟩ (source r w 1)) fun c => e _ c
    · exact alike_step (Option.some <$> SrcOpd.scalarVal ⟨x, v, mem, acc, dw⟩ (source r w 0)) fun c => e c _
    · exact alike_step (Option.some <$> SrcOpd.scalarVal ⟨x, v, mem, acc, dw⟩ (source r w 0)) fun b =>
        alike_step (Option.some <$> SrcOpd.scalarVal ⟨x, v, mem, acc, dw⟩ (source r w 1)) fun c => e b c
  | vcget =>
    rw [hs] at ha
    injection ha with ha
    subst ha
    refine ⟨_, rfl, ?_⟩
    exact alike_bind (vcget_alike _ _ v v' acc h) (fun a b hab => ⟨rfl, rfl, rfl, hab.2, rfl, hab.1⟩)
  | acset t =>
    rw [hs] at ha
    injection ha with ha
    subst ha
    refine ⟨_, rfl, ?_⟩
    refine alike_known (SrcOpd.group (source r w 0)) fun g hg => ?_
    dsimp only
    rw [acset_same t g.1 g.2 v v' acc h (fun q hq => hV q (group_sub hg hq))]
    exact alike_step _ fun a => ⟨rfl, rfl, rfl, rfl, rfl, h⟩
  | adwinit =>
    rw [hs] at ha
    injection ha with ha
    subst ha
    refine ⟨_, rfl, ?_⟩
    refine alike_known (SrcOpd.group (source r w 0)) fun g hg => ?_
    exact alike_bind (adwinit_alike g.1 g.2 _ _ fresh v v' dw h (fun q hq => hV q (group_sub hg hq)))
      (fun a b hab => ⟨rfl, rfl, rfl, rfl, hab.2, hab.1⟩)
  | aconv =>
    rw [hs] at ha
    injection ha with ha
    subst ha
    refine ⟨_, rfl, ?_⟩
    refine alike_known (SrcOpd.group (source r w 0)) fun g hg => ?_
    refine alike_step (SrcOpd.scalarVal ⟨x, v, mem, acc, dw⟩ (source r w 1)) fun c => ?_
    refine alike_known (SrcOpd.group (source r w 2)) fun g3 hg3 => ?_
    dsimp only
    rw [vconv_same c g.1 g.2 g3.1 g3.2 v v' acc h (fun q hq => hV q (group_sub hg hq)) (fun q hq => hV q (group_sub hg3 hq))]
    exact alike_step _ fun a => ⟨rfl, rfl, rfl, rfl, rfl, h⟩
  | dwconv wr =>
    rw [hs] at ha
    injection ha with ha
    subst ha
    refine ⟨_, rfl, ?_⟩
    refine alike_known (SrcOpd.group (source r w 0)) fun g hg => ?_
    refine alike_step (SrcOpd.scalarVal ⟨x, v, mem, acc, dw⟩ (source r w 1)) fun c => ?_
    refine alike_known (SrcOpd.group (source r w 2)) fun g3 hg3 => ?_
    exact alike_bind (vdwconv_alike wr c g.1 g.2 g3.1 g3.2 _ _ v v' dw h (fun q hq => hV q (group_sub hg hq))
      (fun q hq => hV q (group_sub hg3 hq))) (fun a b hab => ⟨hab.1, rfl, rfl, rfl, hab.2.2, hab.2.1⟩)

end Verif.Proofs
