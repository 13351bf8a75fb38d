import Verif.Proofs.Wide

/-! # A strip-mined instruction is its four single-register instructions, in order -/

namespace Verif.Proofs
open Verif Verif.Model CVal

theorem mapM_congr' {α β : Type} (f g : α → Outcome β) : ∀ l : List α, (∀ a ∈ l, f a = g a) → l.mapM f = l.mapM g
  | [], _ => rfl
  | a :: l, h => by
    rw [List.mapM_cons, List.mapM_cons, h a (by simp), mapM_congr' f g l (fun x hx => h x (by simp [hx]))]

theorem foldlM_congr' {α β : Type} (f g : β → α → Outcome β) : ∀ (l : List α) (b : β), (∀ a ∈ l, ∀ b, f b a = g b a) →
    l.foldlM f b = l.foldlM g b
  | [], _, _ => rfl
  | a :: l, b, h => by
    rw [List.foldlM_cons, List.foldlM_cons, h a (by simp)]
    congr 1; funext c
    exact foldlM_congr' f g l c (fun x hx => h x (by simp [hx]))

theorem binOp_seq (Td : CTy) (o : Operands) (o' : Nat → Operands) (g1 g2 : Getter) (g1' g2' : Nat → Getter)
    (f : CVal → CVal → CVal → Outcome CVal) (rf : VRF) (hl : 4 ≤ o.vdLen)
    (hl' : ∀ j < 4, 1 ≤ (o' j).vdLen) (hv : ∀ j < 4, (o' j).vd = o.vd + j)
    (h1 : ∀ j < 4, ∀ rf : VRF, ∀ e < lanesOf Td, g1 rf j e 0 = g1' j rf 0 e 0)
    (h2 : ∀ j < 4, ∀ rf : VRF, ∀ e < lanesOf Td, g2 rf j e 0 = g2' j rf 0 e 0) :
    binOp Td o 4 1 g1 g2 f rf =
      (List.range 4).foldlM (fun rf j => binOp Td (o' j) 1 1 (g1' j) (g2' j) f rf) rf := by
  unfold binOp
  apply foldlM_congr'
  intro j hj rf
  have hj := List.mem_range.1 hj
  have e0 : (List.range 1).foldlM (opStep Td (o' j) 1 1 (g1' j) (g2' j) f) rf =
      opStep Td (o' j) 1 1 (g1' j) (g2' j) f rf 0 := by
    rw [show List.range 1 = [0] from rfl, List.foldlM_cons]
    cases opStep Td (o' j) 1 1 (g1' j) (g2' j) f rf 0 <;> simp
  rw [e0]
  unfold opStep
  have c1 : j + (1 - 1) * 4 < o.vdLen := by omega
  have c2 : 0 + (1 - 1) * 1 < (o' j).vdLen := by have := hl' j hj; omega
  rw [if_pos c1, if_pos c2]
  have e1 : (List.range 1).mapM (opReg Td o.vd 4 g1 g2 f rf j) =
      (List.range 1).mapM (opReg Td (o' j).vd 1 (g1' j) (g2' j) f rf 0) := by
    apply mapM_congr'
    intro r hr
    have : r = 0 := by have := List.mem_range.1 hr; omega
    subst this
    unfold opReg
    congr 1
    apply mapM_congr'
    intro e he
    have he := List.mem_range.1 he
    rw [h1 j hj rf e he, h2 j hj rf e he, hv j hj]
    simp
  rw [e1, hv j hj]
  cases h : (List.range 1).mapM (opReg Td (o.vd + j) 1 (g1' j) (g2' j) f rf 0) with
  | ub => rfl
  | abort => rfl
  | ok bs =>
    have hlen := (Outcome.mapM_eq_ok _ _ _ h).1
    have : ∃ b, bs = [b] := List.length_eq_one_iff.1 (by simpa using hlen)
    obtain ⟨b, rfl⟩ := this
    simp [submitAll]

theorem readElt_shift (T : CTy) (rf : VRF) (b j e : Nat) (hj : j < 4) (he : e < lanesOf T) :
    readElt T rf (.vec b 4) (j * lanesOf T + e) = readElt T rf (.vec (b + j) 1) (0 * lanesOf T + e) := by
  rw [readElt_vec T rf b 4 j e _ rfl he hj, readElt_vec T rf (b + j) 1 0 e _ rfl he (by omega)]; rfl

theorem common1_seq (Td T : CTy) (hz : Td.size = T.size) (o o' : Operands) (N b j : Nat) (hj : j < 4)
    (h0 : o.src0 = .vec b 4) (h0' : o'.src0 = .vec (b + j) 1) (rf : VRF) (e : Nat) (he : e < lanesOf Td) :
    commonArg1 Td T T o N rf j e 0 = commonArg1 Td T T o' 1 rf 0 e 0 := by
  have hl : lanesOf Td = lanesOf T := by rw [lanesOf, lanesOf, hz]
  rw [hl] at he
  rw [commonArg1_eq Td T hz o b 4 N h0 rf j e he hj, commonArg1_eq Td T hz o' (b + j) 1 1 h0' rf 0 e he (by omega)]
  rfl

theorem common2_seq (Td T : CTy) (hz : Td.size = T.size) (i : VInst) (hs : i.strip = true) (v : VOp)
    (j : Nat) (hj : j < 4) (rf : VRF) (e : Nat) (he : e < lanesOf Td) :
    commonArg2 Td T (i.operands v) i.scalar rf j e 0 =
      commonArg2 Td T ((regInst i j).operands v) (regInst i j).scalar rf 0 e 0 := by
  have hp : 0 < T.size := by cases T <;> decide
  have hl : lanesOf Td = lanesOf T := by rw [lanesOf, lanesOf, hz]
  rw [hl] at he
  unfold commonArg2 VInst.operands VInst.scalar
  cases h : i.op2 with
  | vreg b =>
    simp only [regInst, h, VInst.n, hs, numOpsOf, if_true, Bool.false_eq_true, if_false, hz, Nat.mul_div_cancel _ hp]
    exact readElt_shift T rf b j e hj he
  | scalar x => simp only [regInst, h, if_true]

theorem scalar_reg (i : VInst) (j : Nat) : (regInst i j).scalar = i.scalar := by
  unfold VInst.scalar regInst; cases i.op2 <;> rfl

theorem n_strip (i : VInst) (hs : i.strip = true) : i.n = 4 := by simp [VInst.n, numOpsOf, hs]

theorem bin_seq (k : BinK) (T : CTy) (i : VInst) (hs : i.strip = true) (rf : VRF) :
    (VOp.bin k T).run i rf = (List.range 4).foldlM (fun rf j => (VOp.bin k T).run (regInst i j) rf) rf := by
  obtain ⟨hz, hbd⟩ := dstTy_size k T
  have hk : regsPerOpOf false false (k.dstTy T) T = 1 := by simp [regsPerOpOf, hz]
  have hn := n_strip i hs
  simp only [VOp.run, VOp.exec, hk, hs]
  exact binOp_seq (k.dstTy T) (i.operands (.bin k T)) (fun j => (regInst i j).operands (.bin k T)) _ _
    (fun j => commonArg1 (k.dstTy T) T T ((regInst i j).operands (.bin k T)) 1)
    (fun j => commonArg2 (k.dstTy T) T ((regInst i j).operands (.bin k T)) (regInst i j).scalar) _ rf
    (by simp [VInst.operands, VOp.dstFactor, hn]) (by intros; simp [VInst.operands, VOp.dstFactor, VInst.n, regInst, numOpsOf])
    (by intros; rfl)
    (fun j hj rf e he => common1_seq _ T hz _ _ _ i.vs1 j hj (by simp [VInst.operands, VOp.src1Factor, hn])
      (by simp [VInst.operands, VOp.src1Factor, VInst.n, regInst, numOpsOf]) rf e he)
    (fun j hj rf e he => common2_seq _ T hz i hs _ j hj rf e he)

theorem ter_seq (k : TerK) (T : CTy) (i : VInst) (hs : i.strip = true) (rf : VRF) :
    (VOp.ter k T).run i rf = (List.range 4).foldlM (fun rf j => (VOp.ter k T).run (regInst i j) rf) rf := by
  have hk : regsPerOpOf false false T T = 1 := by simp [regsPerOpOf]
  have hn := n_strip i hs
  simp only [VOp.run, VOp.exec, hk, hs]
  exact binOp_seq T (i.operands (.ter k T)) (fun j => (regInst i j).operands (.ter k T)) _ _
    (fun j => commonArg1 T T T ((regInst i j).operands (.ter k T)) 1)
    (fun j => commonArg2 T T ((regInst i j).operands (.ter k T)) (regInst i j).scalar) _ rf
    (by simp [VInst.operands, VOp.dstFactor, hn]) (by intros; simp [VInst.operands, VOp.dstFactor, VInst.n, regInst, numOpsOf])
    (by intros; rfl)
    (fun j hj rf e he => common1_seq _ T rfl _ _ _ i.vs1 j hj (by simp [VInst.operands, VOp.src1Factor, hn])
      (by simp [VInst.operands, VOp.src1Factor, VInst.n, regInst, numOpsOf]) rf e he)
    (fun j hj rf e he => common2_seq _ T rfl i hs _ j hj rf e he)

theorem un_seq (k : UnK) (T : CTy) (i : VInst) (hs : i.strip = true) (rf : VRF) :
    (VOp.un k T).run i rf = (List.range 4).foldlM (fun rf j => (VOp.un k T).run (regInst i j) rf) rf := by
  have hn := n_strip i hs
  simp only [VOp.run, VOp.exec, hs]
  have h := fun j hj rf e he => common1_seq T T rfl (i.operands (.un k T)) ((regInst i j).operands (.un k T)) 4
      i.vs1 j hj (by simp [VInst.operands, VOp.src1Factor, hn])
      (by simp [VInst.operands, VOp.src1Factor, VInst.n, regInst, numOpsOf]) rf e he
  exact binOp_seq T (i.operands (.un k T)) (fun j => (regInst i j).operands (.un k T)) _ _
    (fun j => commonArg1 T T T ((regInst i j).operands (.un k T)) 1)
    (fun j => commonArg1 T T T ((regInst i j).operands (.un k T)) 1) _ rf
    (by simp [VInst.operands, VOp.dstFactor, hn]) (by intros; simp [VInst.operands, VOp.dstFactor, VInst.n, regInst, numOpsOf])
    (by intros; rfl) h h

end Verif.Proofs
