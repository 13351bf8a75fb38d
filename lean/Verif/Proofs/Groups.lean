import Verif.Model.Decode
import Verif.Spec.Groups

/-! # Vector instructions depend on their operand groups only -/

namespace Verif.Proofs
open Verif Verif.Model

theorem alike_bind {α β γ δ : Type} {R : α → β → Prop} {S : γ → δ → Prop} {x : Outcome α} {y : Outcome β}
    {f : α → Outcome γ} {g : β → Outcome δ} (h : Spec.Alike R x y) (hf : ∀ a b, R a b → Spec.Alike S (f a) (g b)) :
    Spec.Alike S (x >>= f) (y >>= g) := by
  cases x <;> cases y <;> first | exact h.elim | exact trivial | exact hf _ _ h

theorem alike_refl {α : Type} (x : Outcome α) : Spec.Alike Eq x x := by cases x <;> trivial

/-- The first step does not depend on what differs. -/
theorem alike_step {α γ δ : Type} {S : γ → δ → Prop} (x : Outcome α) {f : α → Outcome γ} {g : α → Outcome δ}
    (hf : ∀ a, Spec.Alike S (f a) (g a)) : Spec.Alike S (x >>= f) (x >>= g) :=
  alike_bind (alike_refl x) (fun a _ e => e ▸ hf a)

theorem alike_ite {α β : Type} {R : α → β → Prop} (c : Prop) [Decidable c] {x y : Outcome α} {x' y' : Outcome β}
    (h : c → Spec.Alike R x x') (h' : ¬ c → Spec.Alike R y y') :
    Spec.Alike R (if c then x else y) (if c then x' else y') := by
  by_cases hc : c
  · rw [if_pos hc, if_pos hc]; exact h hc
  · rw [if_neg hc, if_neg hc]; exact h' hc

theorem alike_foldlM {α β ι : Type} {R : α → β → Prop} {f : α → ι → Outcome α} {g : β → ι → Outcome β}
    : ∀ (l : List ι) (_ : ∀ a b, ∀ i ∈ l, R a b → Spec.Alike R (f a i) (g b i)) (a : α) (b : β), R a b →
    Spec.Alike R (l.foldlM f a) (l.foldlM g b)
  | [], _, _, _, h => h
  | i :: l, hf, a, b, h => by
    rw [List.foldlM_cons, List.foldlM_cons]
    exact alike_bind (hf a b i (List.mem_cons_self ..) h)
      (fun a' b' h' => alike_foldlM l (fun a b j hj => hf a b j (List.mem_cons_of_mem _ hj)) a' b' h')

theorem sameOn_submit {V : Nat → Prop} : ∀ (bs : List VReg) (rf rf' : VRF) (first step : Nat), Spec.SameOn V rf rf' →
    Spec.SameOn V (submitAll rf first step bs) (submitAll rf' first step bs)
  | [], _, _, _, _, h => h
  | b :: bs, rf, rf', first, step, h => by
    refine sameOn_submit bs _ _ _ _ (fun q hq => ?_)
    show (if q = first then b else rf q) = if q = first then b else rf' q
    rw [h q hq]

/-- The registers of a source operand. -/
def srcGroups : Src → List (Nat × Nat)
  | .vec b n => [(b, n)]
  | .scalar _ => []

theorem readElt_same {V : Nat → Prop} {rf rf' : VRF} (h : Spec.SameOn V rf rf') (T : CTy) (s : Src)
    (hs : ∀ q, Spec.InGroups (srcGroups s) q → V q) (i : Nat) : readElt T rf s i = readElt T rf' s i := by
  cases s with
  | scalar x => rfl
  | vec b n =>
    unfold readElt
    by_cases hi : i / lanesOf T < n
    · simp only [if_pos hi]
      rw [h _ (hs _ ⟨(b, n), List.mem_singleton.2 rfl, Nat.le_add_right .., by show b + _ < b + n; omega⟩)]
    · simp only [if_neg hi]

/-- A getter that gives the same values in both register files. -/
def SameGetter (g : Getter) (rf rf' : VRF) : Prop := ∀ op e r, g rf op e r = g rf' op e r

theorem opReg_same {V : Nat → Prop} {rf rf' : VRF} (h : Spec.SameOn V rf rf') (Td : CTy) (vd n : Nat) (g1 g2 : Getter)
    (f : CVal → CVal → CVal → Outcome CVal) (op r : Nat) (hv : V (vd + (op + r * n))) (h1 : SameGetter g1 rf rf')
    (h2 : SameGetter g2 rf rf') : opReg Td vd n g1 g2 f rf op r = opReg Td vd n g1 g2 f rf' op r := by
  unfold opReg
  simp only [h1 op _ r, h2 op _ r, h _ hv]

theorem mapM_congr {α β : Type} {f g : α → Outcome β} : ∀ (l : List α), (∀ a ∈ l, f a = g a) → l.mapM f = l.mapM g
  | [], _ => rfl
  | a :: l, h => by
    rw [List.mapM_cons, List.mapM_cons, h a (List.mem_cons_self ..),
      mapM_congr l (fun b hb => h b (List.mem_cons_of_mem _ hb))]

theorem opStep_alike {V : Nat → Prop} (Td : CTy) (o : Operands) (n k : Nat) (g1 g2 : Getter)
    (f : CVal → CVal → CVal → Outcome CVal) (hd : ∀ q, Spec.InGroups [(o.vd, o.vdLen)] q → V q)
    (h1 : ∀ rf rf', Spec.SameOn V rf rf' → SameGetter g1 rf rf') (h2 : ∀ rf rf', Spec.SameOn V rf rf' → SameGetter g2 rf rf')
    (rf rf' : VRF) (op : Nat) (h : Spec.SameOn V rf rf') :
    Spec.Alike (Spec.SameOn V) (opStep Td o n k g1 g2 f rf op) (opStep Td o n k g1 g2 f rf' op) := by
  unfold opStep
  refine alike_ite _ (fun hc => ?_) (fun _ => trivial)
  have : (List.range k).mapM (opReg Td o.vd n g1 g2 f rf op) = (List.range k).mapM (opReg Td o.vd n g1 g2 f rf' op) := by
    refine mapM_congr _ (fun r hr => opReg_same h Td o.vd n g1 g2 f op r (hd _ ?_) (h1 _ _ h) (h2 _ _ h))
    have hr' : r ≤ k - 1 := by have := List.mem_range.1 hr; omega
    have := Nat.mul_le_mul_right n hr'
    exact ⟨_, List.mem_singleton.2 rfl, Nat.le_add_right .., by show o.vd + _ < o.vd + o.vdLen; omega⟩
  rw [this]
  exact alike_step _ (fun bufs => sameOn_submit bufs _ _ _ _ h)

theorem binOp_alike {V : Nat → Prop} (Td : CTy) (o : Operands) (n k : Nat) (g1 g2 : Getter)
    (f : CVal → CVal → CVal → Outcome CVal) (hd : ∀ q, Spec.InGroups [(o.vd, o.vdLen)] q → V q)
    (h1 : ∀ rf rf', Spec.SameOn V rf rf' → SameGetter g1 rf rf') (h2 : ∀ rf rf', Spec.SameOn V rf rf' → SameGetter g2 rf rf')
    (rf rf' : VRF) (h : Spec.SameOn V rf rf') :
    Spec.Alike (Spec.SameOn V) (binOp Td o n k g1 g2 f rf) (binOp Td o n k g1 g2 f rf') :=
  alike_foldlM _ (fun _ _ op _ hh => opStep_alike Td o n k g1 g2 f hd h1 h2 _ _ op hh) _ _ h

theorem exec_alike {V : Nat → Prop} (v : VOp) (sc st : Bool) (o : Operands)
    (hd : ∀ q, Spec.InGroups [(o.vd, o.vdLen)] q → V q) (h0 : ∀ q, Spec.InGroups (srcGroups o.src0) q → V q)
    (h1 : ∀ q, Spec.InGroups (srcGroups o.src1) q → V q) (rf rf' : VRF) (h : Spec.SameOn V rf rf') :
    Spec.Alike (Spec.SameOn V) (v.exec sc st o rf) (v.exec sc st o rf') := by
  have e0 := fun rf rf' (h : Spec.SameOn V rf rf') T i => readElt_same h T o.src0 h0 i
  have e1 := fun rf rf' (h : Spec.SameOn V rf rf') T i => readElt_same h T o.src1 h1 i
  have es : ∀ rf rf' (_ : Spec.SameOn V rf rf') T k i, readElt T rf (o.src k) i = readElt T rf' (o.src k) i := by
    intro rf rf' h T k i
    unfold Operands.src
    split
    · exact e0 rf rf' h T i
    · exact e1 rf rf' h T i
  cases v <;> refine binOp_alike _ _ _ _ _ _ _ hd ?_ ?_ rf rf' h <;> intro rf rf' h op e r <;>
    simp only [commonArg1, commonArg2, packedArg1, packedArg2, mvpArg, sransArg1, slidenArg1, slidepArg1, evnOddArg, evnoddArg,
      zipArg, e0 rf rf' h, e1 rf rf' h, es rf rf' h]

/-- Two states of a memory instruction that differ in vector registers outside `V` only. -/
def SameM (V : Nat → Prop) (s s' : MState) : Prop := s.x = s'.x ∧ s.mem = s'.mem ∧ Spec.SameOn V s.v s'.v

theorem vld_alike {V : Nat → Prop} (i : VMemInst) (maxPhys : Nat) (s s' : MState) (h : SameM V s s') :
    Spec.Alike (SameM V) (i.vld maxPhys s) (i.vld maxPhys s') := by
  obtain ⟨x, v, mem⟩ := s
  obtain ⟨x', v', mem'⟩ := s'
  obtain ⟨rfl, rfl, hv⟩ := h
  refine alike_step (i.elts _) fun n => alike_step (i.stride _) fun stride => alike_step _ fun addrs => ?_
  refine alike_bind (R := Spec.SameOn V) ?_ fun a b hab => alike_step (i.writeBack _ _ _ _ _) fun x' => ⟨rfl, rfl, hab⟩
  unfold vldRegWrite
  exact alike_ite _ (fun _ => sameOn_submit _ _ _ _ _ hv) (fun _ => trivial)

theorem vstOp_same {V : Nat → Prop} {v v' : VRF} (h : Spec.SameOn V v v') (T : CTy) (n stride : Nat) (quad : Bool) (vd len : Nat)
    (hd : ∀ q, Spec.InGroups [(vd, len)] q → V q) (st : StState) (op : Nat) :
    vstOp T n stride quad vd len v st op = vstOp T n stride quad vd len v' st op := by
  unfold vstOp
  by_cases hop : op < len
  · rw [if_pos hop, if_pos hop, h (vd + op) (hd _ ⟨_, List.mem_singleton.2 rfl, Nat.le_add_right .., Nat.add_lt_add_left hop _⟩)]
  · rw [if_neg hop, if_neg hop]

theorem vst_alike {V : Nat → Prop} (i : VMemInst) (quad : Bool) (maxPhys : Nat)
    (hd : ∀ q, Spec.InGroups [(i.vd, numOpsOf i.strip)] q → V q) (s s' : MState) (h : SameM V s s') :
    Spec.Alike (SameM V) (i.vstHelper quad maxPhys s) (i.vstHelper quad maxPhys s') := by
  obtain ⟨x, v, mem⟩ := s
  obtain ⟨x', v', mem'⟩ := s'
  obtain ⟨rfl, rfl, hv⟩ := h
  refine alike_step (i.elts _) fun n => alike_step (i.stride _) fun stride => ?_
  have : vstOp i.T n stride quad i.vd (numOpsOf i.strip) v = vstOp i.T n stride quad i.vd (numOpsOf i.strip) v' :=
    funext fun st => funext fun op => vstOp_same hv _ _ _ _ _ _ hd st op
  show Spec.Alike _ ((List.range (numOpsOf i.strip)).foldlM (vstOp i.T n stride quad i.vd (numOpsOf i.strip) v) _ >>= _) _
  rw [this]
  exact alike_step _ fun st => alike_step _ fun l => alike_step (i.writeBack _ _ _ _ _) fun x' => ⟨rfl, rfl, hv⟩

theorem vdup_alike {V : Nat → Prop} (T : CTy) (strip : Bool) (vd len : Nat) (x : BitVec 32) (v v' : VRF)
    (h : Spec.SameOn V v v') : Spec.Alike (Spec.SameOn V) (vdup T strip vd len x v) (vdup T strip vd len x v') :=
  alike_step (readElt T v (.scalar x) 0) fun _ =>
    alike_ite _ (fun _ => sameOn_submit _ _ _ _ _ h) (fun _ => trivial)

theorem vcget_alike {V : Nat → Prop} (vd len : Nat) (v v' : VRF) (acc : Acc) (h : Spec.SameOn V v v') :
    Spec.Alike (fun p q : VRF × Acc => Spec.SameOn V p.1 q.1 ∧ p.2 = q.2) (vcget vd len v acc) (vcget vd len v' acc) :=
  alike_ite _ (fun _ => ⟨sameOn_submit _ _ _ _ _ h, rfl⟩) (fun _ => trivial)

theorem in_group {V : Nat → Prop} {b n k : Nat} (hV : ∀ q, Spec.InGroups [(b, n)] q → V q) (hk : k < n) : V (b + k) :=
  hV _ ⟨_, List.mem_singleton.2 rfl, Nat.le_add_right .., Nat.add_lt_add_left hk _⟩

theorem foldlM_congr {α ι : Type} {f g : α → ι → Outcome α} : ∀ (l : List ι) (a : α), (∀ a, ∀ i ∈ l, f a i = g a i) →
    l.foldlM f a = l.foldlM g a
  | [], _, _ => rfl
  | i :: l, a, h => by
    rw [List.foldlM_cons, List.foldlM_cons, h a i (List.mem_cons_self ..)]
    congr 1
    funext b
    exact foldlM_congr l b (fun a j hj => h a j (List.mem_cons_of_mem _ hj))

theorem acset_same {V : Nat → Prop} (t : Bool) (vs len : Nat) (v v' : VRF) (acc : Acc) (h : Spec.SameOn V v v')
    (hV : ∀ q, Spec.InGroups [(vs, len)] q → V q) : acset t vs len v acc = acset t vs len v' acc := by
  unfold acset
  by_cases hl : 8 ≤ len
  · rw [if_pos hl, if_pos hl]
    refine foldlM_congr _ _ fun a op hop => ?_
    rw [h _ (in_group hV (by have := List.mem_range.1 hop; omega))]
  · rw [if_neg hl, if_neg hl]

theorem adwinit_alike {V : Nat → Prop} (vs vsLen vd vdLen : Nat) (fresh : Nat → VReg) (v v' : VRF) (acc : DwAcc)
    (h : Spec.SameOn V v v') (hV : ∀ q, Spec.InGroups [(vs, vsLen)] q → V q) :
    Spec.Alike (fun p q : VRF × DwAcc => Spec.SameOn V p.1 q.1 ∧ p.2 = q.2) (adwinit vs vsLen vd vdLen fresh v acc)
      (adwinit vs vsLen vd vdLen fresh v' acc) := by
  refine alike_ite _ (fun hl => ?_) (fun _ => trivial)
  refine alike_foldlM _ (fun p q k hk hpq => ?_) _ _ ⟨h, rfl⟩
  have hk := List.mem_range.1 hk
  have e := hpq.1 _ (in_group hV (show k < vsLen by omega))
  dsimp only
  rw [e, hpq.2]
  refine ⟨fun q' hq' => ?_, rfl⟩
  dsimp only
  rw [hpq.1 _ hq']

theorem bind_same {x : Outcome α} {f g : α → Outcome β} (h : ∀ a, f a = g a) : (x >>= f) = (x >>= g) := by
  rw [funext h]

theorem vconv_same {V : Nat → Prop} (c : BitVec 32) (vs1 len1 vs3 len3 : Nat) (v v' : VRF) (acc : Acc)
    (h : Spec.SameOn V v v') (h1 : ∀ q, Spec.InGroups [(vs1, len1)] q → V q) (h3 : ∀ q, Spec.InGroups [(vs3, len3)] q → V q) :
    vconv c vs1 len1 vs3 len3 v acc = vconv c vs1 len1 vs3 len3 v' acc := by
  unfold vconv
  extract_lets cmd
  generalize cmd = cmd
  by_cases c1 : cmd.mode ≠ 0
  · rw [if_pos c1, if_pos c1]
  by_cases c2 : cmd.start > cmd.stop
  · rw [if_neg c1, if_neg c1, if_pos c2, if_pos c2]
  by_cases c3 : cmd.start ≥ 8 ∨ cmd.stop ≥ 8
  · rw [if_neg c1, if_neg c1, if_neg c2, if_neg c2, if_pos c3, if_pos c3]
  rw [if_neg c1, if_neg c1, if_neg c2, if_neg c2, if_neg c3, if_neg c3]
  by_cases hl : 8 ≤ len1 ∧ cmd.stop - cmd.start < len3
  · rw [if_pos hl, if_pos hl]
    refine bind_same fun b1 => bind_same fun b2 => ?_
    refine congrArg (fun x : Outcome Acc => x >>= fun acc' => Outcome.ok (false, acc')) ?_
    refine foldlM_congr _ _ fun a k hk => foldlM_congr _ _ fun a i hi => foldlM_congr _ _ fun a j _ => ?_
    unfold convBody
    dsimp only
    have hi := List.mem_range.1 hi
    have hk := List.mem_range.1 hk
    rw [h _ (in_group h1 (show i < len1 by omega)),
      h _ (in_group h3 (show cmd.start + k - cmd.start < len3 by omega))]
  · rw [if_neg hl, if_neg hl]

theorem vdwconv_alike {V : Nat → Prop} (wr : Bool) (c : BitVec 32) (vs1 len1 vs3 len3 vd vdLen : Nat) (v v' : VRF) (acc : DwAcc)
    (h : Spec.SameOn V v v') (h1 : ∀ q, Spec.InGroups [(vs1, len1)] q → V q) (h3 : ∀ q, Spec.InGroups [(vs3, len3)] q → V q) :
    Spec.Alike (fun p q : Bool × VRF × DwAcc => p.1 = q.1 ∧ Spec.SameOn V p.2.1 q.2.1 ∧ p.2.2 = q.2.2)
      (vdwconv wr c vs1 len1 vs3 len3 vd vdLen v acc) (vdwconv wr c vs1 len1 vs3 len3 vd vdLen v' acc) := by
  unfold vdwconv
  dsimp only
  refine alike_ite _ (fun hl => ?_) (fun _ => trivial)
  rw [h _ (in_group h1 hl.1), h _ (in_group h1 hl.2.1), h _ (in_group h1 hl.2.2.1)]
  have : ∀ a (acc : DwAcc), (List.range 3).foldlM (fun acc r =>
      (List.range 32).foldlM (dwBody (DwCmd.of c) a (fun r => v (vs3 + r)) r) acc) acc =
      (List.range 3).foldlM (fun acc r =>
      (List.range 32).foldlM (dwBody (DwCmd.of c) a (fun r => v' (vs3 + r)) r) acc) acc := by
    intro a acc
    refine foldlM_congr _ _ fun acc r hr => foldlM_congr _ _ fun acc i _ => ?_
    unfold dwBody
    dsimp only
    have hr := List.mem_range.1 hr
    rw [h _ (in_group h3 (show r < len3 by omega))]
  rw [this]
  refine alike_step _ fun acc' => ?_
  refine alike_ite _ (fun _ => ?_) (fun _ => ⟨rfl, h, rfl⟩)
  refine alike_bind (R := Spec.SameOn V) ?_ (fun a b hab => ⟨rfl, hab, rfl⟩)
  unfold dwWrite
  exact alike_ite _ (fun _ => alike_step _ fun regs => sameOn_submit _ _ _ _ _ h) (fun _ => trivial)

end Verif.Proofs
