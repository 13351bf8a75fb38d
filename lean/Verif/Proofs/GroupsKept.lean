import Verif.Proofs.GroupsRow
import Verif.Proofs.ConvAux

/-! # Registers outside the destination group keep their values -/

namespace Verif.Proofs
open Verif Verif.Model

/-- Every normal end satisfies `P`. -/
def Gives {α : Type} (P : α → Prop) (x : Outcome α) : Prop := ∀ a, x = .ok a → P a

theorem gives_bind {α β : Type} {P : β → Prop} {x : Outcome α} {f : α → Outcome β} (h : ∀ a, x = .ok a → Gives P (f a)) :
    Gives P (x >>= f) := by
  intro b hb
  cases x with
  | ok a => exact h a rfl b hb
  | ub => exact nomatch hb
  | abort => exact nomatch hb

theorem gives_ok {α : Type} {P : α → Prop} {a : α} (h : P a) : Gives P (.ok a) := by
  intro b hb
  injection hb with hb
  exact hb ▸ h

theorem gives_ub {α : Type} {P : α → Prop} : Gives P (Outcome.ub : Outcome α) := fun _ h => nomatch h

theorem gives_ite {α : Type} {P : α → Prop} (c : Prop) [Decidable c] {x y : Outcome α} (h : c → Gives P x) (h' : ¬ c → Gives P y) :
    Gives P (if c then x else y) := by
  by_cases hc : c
  · rw [if_pos hc]; exact h hc
  · rw [if_neg hc]; exact h' hc

theorem gives_foldlM {α ι : Type} {P : α → Prop} {f : α → ι → Outcome α} :
    ∀ (l : List ι) (_ : ∀ a, ∀ i ∈ l, P a → Gives P (f a i)) (a : α), P a → Gives P (l.foldlM f a)
  | [], _, _, h => gives_ok h
  | i :: l, hf, a, h => by
    rw [List.foldlM_cons]
    exact gives_bind fun b hb => gives_foldlM l (fun a j hj => hf a j (List.mem_cons_of_mem _ hj)) b
      (hf a i (List.mem_cons_self ..) h b hb)

theorem mapM_len {α β : Type} {f : α → Outcome β} : ∀ (l : List α), Gives (fun r => r.length = l.length) (l.mapM f)
  | [] => gives_ok rfl
  | a :: l => by
    rw [List.mapM_cons]
    exact gives_bind fun b _ => gives_bind fun bs hbs => gives_ok (congrArg (· + 1) (mapM_len l bs hbs))

/-- The registers outside `[vd, vd + len)` have the values they have in `rf`. -/
def Kept (vd len : Nat) (rf rf' : VRF) : Prop := ∀ q, ¬ Spec.InGroups [(vd, len)] q → rf' q = rf q

theorem kept_submit {vd len step : Nat} {rf0 : VRF} : ∀ (bs : List VReg) (first : Nat) (rf : VRF), Kept vd len rf0 rf →
    (∀ i < bs.length, vd ≤ first + i * step ∧ first + i * step < vd + len) → Kept vd len rf0 (submitAll rf first step bs)
  | [], _, _, h, _ => h
  | b :: bs, first, rf, h, hi => by
    refine kept_submit bs _ _ (fun q hq => ?_) (fun i hb => ?_)
    · have h0 := hi 0 (Nat.succ_pos _)
      rw [Nat.zero_mul, Nat.add_zero] at h0
      show (if q = first then b else rf q) = rf0 q
      have hne : q ≠ first := by
        rintro rfl
        exact hq ⟨_, List.mem_singleton.2 rfl, h0⟩
      rw [if_neg hne]
      exact h q hq
    · have := hi (i + 1) (Nat.succ_lt_succ hb)
      rw [Nat.add_mul, Nat.one_mul] at this
      omega

theorem kept_group {vd len n : Nat} {rf : VRF} (bs : List VReg) (hn : bs.length ≤ n) (hl : n ≤ len) :
    Kept vd len rf (submitAll rf vd 1 bs) :=
  kept_submit bs vd rf (fun _ _ => rfl) (fun i hi => by omega)

theorem binOp_kept (Td : CTy) (o : Operands) (n k : Nat) (g1 g2 : Getter) (f : CVal → CVal → CVal → Outcome CVal) (rf : VRF) :
    Gives (Kept o.vd o.vdLen rf) (binOp Td o n k g1 g2 f rf) := by
  refine gives_foldlM _ (fun rf1 op _ h => ?_) rf (fun _ _ => rfl)
  refine gives_ite _ (fun hc => gives_bind fun bs hbs => gives_ok ?_) (fun _ => gives_ub)
  refine kept_submit bs _ _ h (fun i hi => ?_)
  rw [mapM_len _ bs hbs, List.length_range] at hi
  have := Nat.mul_le_mul_right n (show i ≤ k - 1 by omega)
  omega

theorem execRow_kept (maxPhys : Nat) (fresh : Nat → VReg) (r : Row) (hr : r ∈ allRows) (w : BitVec 32) (s : Arch)
    (a : Outcome (Bool × Arch)) (ha : execRow maxPhys fresh r w s = some a) :
    Gives (fun p => ∀ q, ¬ Spec.InGroups (dstGroups r w) q → p.2.v q = s.v q) a := by
  have hl := List.all_eq_true.1 all_listed r hr
  unfold execRow at ha
  unfold listed at hl
  have hd : r.dst.contains .vd = true → ∀ v', Kept (fVd w) (dstVdLen r w) s.v v' →
      ∀ q, ¬ Spec.InGroups (dstGroups r w) q → v' q = s.v q := by
    intro h v' hk q hq
    refine hk q ?_
    unfold dstGroups at hq
    rwa [if_pos (List.contains_iff_mem.1 h)] at hq
  cases hs : r.sem with
  | scalar => rw [hs] at ha; exact nomatch ha
  | vec op sc st =>
    rw [hs] at ha hl
    injection ha with ha
    subst ha
    refine gives_bind fun v' hv' => gives_ok (hd hl v' ?_)
    cases op <;> exact binOp_kept _ _ _ _ _ _ _ _ v' hv'
  | vld T len stride strip xs2 postInc =>
    rw [hs] at ha hl
    injection ha with ha
    subst ha
    refine gives_ite _ (fun hc => ?_) (fun _ => gives_ub)
    refine gives_bind fun m hm => gives_ok (hd hl m.v ?_)
    refine (?_ : Gives (fun m : MState => Kept (fVd w) (dstVdLen r w) s.v m.v) _) m hm
    refine gives_bind fun n _ => gives_bind fun stride _ => gives_bind fun vals _ => gives_bind fun v' hv' =>
      gives_bind fun x' _ => gives_ok ?_
    refine (?_ : Gives (fun v' : VRF => Kept (fVd w) (dstVdLen r w) s.v v') _) v' hv'
    refine gives_ite _ (fun h => gives_ok (kept_group (n := numOpsOf strip) _ ?_ ?_)) (fun _ => gives_ub)
    · rw [List.length_map, List.length_range]; exact Nat.le_of_eq rfl
    · exact Nat.le_of_eq (by rw [hc.2])
  | vst T len stride strip xs2 postInc =>
    rw [hs] at ha
    injection ha with ha
    subst ha
    refine gives_ite _ (fun hc => ?_) (fun _ => gives_ub)
    refine gives_bind fun m hm => gives_ok ?_
    have : Gives (fun m : MState => m.v = s.v) ((memInst r w T len stride strip xs2 postInc).vst maxPhys (memState s)) :=
      gives_bind fun n _ => gives_bind fun stride _ => gives_bind fun vals _ => gives_bind fun v' hv' =>
        gives_bind fun x' _ => gives_ok rfl
    intro q _
    show m.v q = s.v q
    rw [this m hm]
  | vstq T strip postInc =>
    rw [hs] at ha
    injection ha with ha
    subst ha
    refine gives_ite _ (fun hc => ?_) (fun _ => gives_ub)
    refine gives_bind fun m hm => gives_ok ?_
    have : Gives (fun m : MState => m.v = s.v) ((memInst r w T false true strip true postInc).vstq maxPhys (memState s)) :=
      gives_bind fun n _ => gives_bind fun stride _ => gives_bind fun vals _ => gives_bind fun v' hv' =>
        gives_bind fun x' _ => gives_ok rfl
    intro q _
    show m.v q = s.v q
    rw [this m hm]
  | vdup T strip =>
    rw [hs] at ha hl
    injection ha with ha
    subst ha
    refine gives_bind fun y _ => gives_bind fun v' hv' => gives_ok (hd hl v' ?_)
    refine (?_ : Gives (fun v' : VRF => Kept (fVd w) (dstVdLen r w) s.v v') _) v' hv'
    refine gives_bind fun val _ => gives_ite _ (fun h => gives_ok (kept_group (n := numOpsOf strip) _ ?_ h)) (fun _ => gives_ub)
    exact Nat.le_of_eq (by rw [List.length_map, List.length_range])
  | getvl T strip i1 i2 =>
    rw [hs] at ha
    injection ha with ha
    subst ha
    have e : ∀ b c : Option (BitVec 32), Gives (fun p : Bool × Arch => ∀ q, ¬ Spec.InGroups (dstGroups r w) q → p.2.v q = s.v q)
        (.ok (false, { s with x := writeX s.x (fRd w) (getVl T strip b c) })) := fun b c => gives_ok (fun _ _ => rfl)
    cases i1 <;> cases i2
    · exact e _ _
    · exact gives_bind (x := Option.some <$> SrcOpd.scalarVal s (source r w 1)) fun c _ => e _ c
    · exact gives_bind (x := Option.some <$> SrcOpd.scalarVal s (source r w 0)) fun c _ => e c _
    · exact gives_bind (x := Option.some <$> SrcOpd.scalarVal s (source r w 0)) fun b _ =>
        gives_bind (x := Option.some <$> SrcOpd.scalarVal s (source r w 1)) fun c _ => e b c
  | vcget =>
    rw [hs] at ha hl
    injection ha with ha
    subst ha
    refine gives_bind fun p hp => gives_ok (hd hl p.1 ?_)
    refine (?_ : Gives (fun p : VRF × Acc => Kept (fVd w) (dstVdLen r w) s.v p.1) _) p hp
    refine gives_ite _ (fun h => gives_ok (kept_group (n := 8) _ ?_ h)) (fun _ => gives_ub)
    exact Nat.le_of_eq (by rw [List.length_map, List.length_range])
  | acset t =>
    rw [hs] at ha
    injection ha with ha
    subst ha
    exact gives_bind fun _ _ => gives_bind fun _ _ => gives_ok (fun _ _ => rfl)
  | adwinit =>
    rw [hs] at ha hl
    injection ha with ha
    subst ha
    refine gives_bind fun g _ => gives_bind fun p hp => gives_ok (hd hl p.1 ?_)
    refine (?_ : Gives (fun p : VRF × DwAcc => Kept (fVd w) (dstVdLen r w) s.v p.1) _) p hp
    refine gives_ite _ (fun h => ?_) (fun _ => gives_ub)
    refine gives_foldlM _ (fun p op hop hk => gives_ok (fun q hq => ?_)) _ (fun _ _ => rfl)
    have hop := List.mem_range.1 hop
    dsimp only
    rw [if_neg]
    · exact hk q hq
    · intro e
      exact hq ⟨_, List.mem_singleton.2 rfl, by show fVd w ≤ q; omega, by show q < fVd w + dstVdLen r w; omega⟩
  | aconv =>
    rw [hs] at ha
    injection ha with ha
    subst ha
    exact gives_bind fun _ _ => gives_bind fun _ _ => gives_bind fun _ _ => gives_bind fun _ _ => gives_ok (fun _ _ => rfl)
  | dwconv wr =>
    rw [hs] at ha hl
    injection ha with ha
    subst ha
    refine gives_bind fun g _ => gives_bind fun c _ => gives_bind fun g3 _ => gives_bind fun p hp => gives_ok (hd hl p.2.1 ?_)
    refine (?_ : Gives (fun p : Bool × VRF × DwAcc => Kept (fVd w) (dstVdLen r w) s.v p.2.1) _) p hp
    unfold vdwconv
    dsimp only
    refine gives_ite _ (fun _ => gives_bind fun acc' _ => gives_ite _ (fun _ => ?_) (fun _ => gives_ok (fun _ _ => rfl)))
      (fun _ => gives_ub)
    refine gives_bind fun v' hv' => gives_ok ?_
    refine (?_ : Gives (fun v' : VRF => Kept (fVd w) (dstVdLen r w) s.v v') _) v' hv'
    unfold dwWrite
    refine gives_ite _ (fun h => gives_bind fun bs hbs => gives_ok (kept_group (n := 4) _ ?_ h)) (fun _ => gives_ub)
    exact Nat.le_of_eq (by rw [mapM_len _ bs hbs, List.length_range])

theorem rowGroups_size {r : Row} {w : BitVec 32} {g : Nat × Nat} (hg : g ∈ rowGroups r w) :
    (g.1 = Spec.bitsAt w 6 6 ∨ g.1 = Spec.bitsAt w 14 6 ∨ g.1 = Spec.bitsAt w 20 6 ∨ g.1 = Spec.bitsAt w 26 6) ∧
      1 ≤ g.2 ∧ g.2 ≤ 32 := by
  have hn : ∀ b, numOpsOf b = 1 ∨ numOpsOf b = 4 := by intro b; cases b <;> decide
  have hf : src1Factor r w = 1 ∨ src1Factor r w = 2 ∨ src1Factor r w = 4 ∨ src1Factor r w = 8 := by
    unfold src1Factor src1Bits
    dsimp only
    repeat' split
    all_goals simp_all
  rcases List.mem_append.1 hg with h | h
  · unfold dstGroups at h
    split at h
    · have := List.mem_singleton.1 h
      subst this
      refine ⟨.inl (field_eq ..), ?_⟩
      show 1 ≤ dstVdLen r w ∧ dstVdLen r w ≤ 32
      unfold dstVdLen
      rcases hn (fM w || r.isVcget || r.isAdwinit || r.isVdwconv) with e | e <;> rw [e] <;> split <;> omega
    · exact nomatch h
  · obtain ⟨o, ho, hg⟩ := List.mem_flatMap.1 h
    obtain ⟨p, -, hp⟩ := List.mem_filterMap.1 ho
    cases o with
    | zero => exact nomatch hg
    | xreg n => exact nomatch hg
    | vgroup b n =>
      have := List.mem_singleton.1 hg
      subst this
      dsimp only
      cases p <;> simp only [srcOpd, Option.some.injEq, reduceCtorEq] at hp
      all_goals first
        | (unfold srcVs1 at hp
           split at hp
           · split at hp <;> exact nomatch hp
           split at hp
           · injection hp with h1 h2
             exact ⟨.inr (.inl (h1 ▸ field_eq ..)), by omega⟩
           · injection hp with h1 h2
             refine ⟨.inr (.inl (h1 ▸ field_eq ..)), ?_⟩
             rcases hn (fM w || r.isAdwinit) with e | e <;> rcases hf with e' | e' | e' | e' <;> rw [e, e'] at h2 <;> omega)
        | (unfold srcVs2 at hp
           split at hp
           · split at hp <;> exact nomatch hp
           injection hp with h1 h2
           refine ⟨.inr (.inr (.inl (h1 ▸ field_eq ..))), ?_⟩
           rcases hn (fM w) with e | e <;> omega)
        | (unfold srcVs3 at hp
           injection hp with h1 h2
           refine ⟨.inr (.inr (.inr (h1 ▸ field_eq ..))), ?_⟩
           split at h2 <;> omega)
        | (unfold srcVd at hp
           injection hp with h1 h2
           refine ⟨.inl (h1 ▸ field_eq ..), ?_⟩
           rcases hn (fM w) with e | e <;> omega)
        | (unfold srcRs at hp
           split at hp <;> exact nomatch hp)

end Verif.Proofs
