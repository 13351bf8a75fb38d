import Verif.Proofs.MatCore
import Verif.Props.KernelMat
import Verif.Props.RenodeCore

/-!
# Property C109: a matrix product carried out by the core

The program of C89 with its loop, in the memory of the first core: the five vector instructions of a tile, `sub rn, rn, rl`,
`bne rn, x0, start`, then `vcget`, the two stores and `mpause`. Each word is fetched, decoded and executed; first with `Run`,
then for a host that drives the core through the Renode agent.
-/

namespace Verif.Props
open Verif Verif.Model Verif.Model.Agent Verif.Model.RenodeCore Verif.Proofs Verif.Proofs.RenodeCore
open Verif.Spec.Program (word ebreak)
open Verif.Model.Top (St fresh)

/-- The words of the program. -/
def matWords (p : MatProg) (sub bne mpause : BitVec 32) : List (BitVec 32) :=
  p.body.map Inst.word ++ [sub, bne] ++ p.tail.map Inst.word ++ [mpause]

/-- The loop is entered with the count `K * rl` in `rn`, which is not one of the other registers of the program. -/
structure MatCount (p : MatProg) (rn K : Nat) (s : Arch) : Prop where
  free : rn ∉ [0, p.ra, p.rb, p.rd, p.rl, p.rc]
  pos : 0 < K
  fits : K * (s.x p.rl).toNat < 2 ^ 32
  xn : s.x rn = BitVec.ofNat 32 (K * (s.x p.rl).toNat)

/-- The product as an undisturbed execution: `7 * K + 3` instructions that ask for nothing, then the `mpause`. -/
theorem matrix_loop (P : VecParams) (p : MatProg) (B W : CTy) (hp : p.Ok B W) (hd : Known P (p.body ++ p.tail)) (rn : Nat)
    (sub bne mpause : BitVec 32) (hB : LoopBase P 5 rn p.rl sub bne mpause) (cmd : BitVec 32) (hc : ConvLegal cmd)
    (a b d K lim : Nat) (hlim : lim = if P.maxPhys ≤ 0x3fffff then 2 ^ 31 else 2 ^ 32) (ha : a + 256 * K ≤ lim)
    (hb : b + 256 * K ≤ lim) (hd' : d + 256 ≤ lim) (s : Arch) (hs : MatEntry p a b d cmd s) (hn : MatCount p rn K s)
    (pc : BitVec 32) (hw : CodeAt (matWords p sub bne mpause) s pc) (hcode : pc.toNat + 44 ≤ d ∨ d + 256 ≤ pc.toNat) :
    (∀ i < 7 * K + 3, (Spec.Program.next (vecSem P) (Spec.Program.run (vecSem P) i (s.machine pc))).2 = []) ∧
    (Spec.Program.next (vecSem P) (Spec.Program.run (vecSem P) (7 * K + 3) (s.machine pc))).2 = [.ev .userRequest] ∧
    Spec.Program.Steady (vecSem P) (s.machine pc) (7 * K + 3 + 1) ∧
    ∃ t : Arch, Spec.Program.run (vecSem P) (7 * K + 3 + 1) (s.machine pc) = t.machine (pc + 44) ∧
      (∀ i < 8, ∀ w < 8, Spec.loadLE 4 t.mem (d + 32 * Spec.cellRow i w + 4 * Spec.cellCol i w) =
        (s.acc (Spec.cellRow i w) (Spec.cellCol i w) + BitVec.ofInt 32 (matCell cmd s.mem a b K i w)).toNat) ∧
      (∀ q, (q < d ∨ d + 256 ≤ q) → t.mem q = s.mem q) ∧ (∀ r < 8, ∀ c < 8, t.acc r c = 0) ∧
      MatEntry p (a + 256 * K) (b + 256 * K) (d + 256) cmd t ∧ t.x rn = 0 ∧
      ∀ q, q ∉ [p.ra, p.rb, p.rd, rn] → t.x q = s.x q := by
  obtain ⟨free, pos, fits, xn⟩ := hn
  have free' := free
  simp only [List.mem_cons, List.not_mem_nil, or_false, not_or] at free'
  obtain ⟨q0, qa, qb, qd, ql, qc⟩ := free'
  have hr := hp.regs
  simp only [List.nodup_cons, List.mem_cons, List.not_mem_nil, or_false, not_or, not_false_eq_true] at hr
  obtain ⟨-, ⟨nab, nad, nal, nac⟩, ⟨nbd, nbl, nbc⟩, ⟨ndl, ndc⟩, nlc, -⟩ := hr
  have hrounds := mat_rounds P.maxPhys P.fresh p B W hp cmd hc.1 hc.2.1 hc.2.2 a b lim hlim s hs.xl hs.xc hs.xa hs.xb K ha hb
    rn free xn
  have hex : ∀ k, ∃ s', k ≤ K → times (loopBody P.maxPhys P.fresh p.body rn p.rl) k s = .ok s' ∧
      MatInv p (decide (Spec.bitsAt cmd 21 1 = 1)) (decide (Spec.bitsAt cmd 31 1 = 1)) (Spec.sbitsAt cmd 12 9)
        (Spec.sbitsAt cmd 22 9) (4 * Spec.bitsAt cmd 2 5) (4 * (Spec.bitsAt cmd 7 5 + 1 - Spec.bitsAt cmd 2 5)) a b
        { s with x := fun q => if q = rn then BitVec.ofNat 32 ((K - k) * (s.x p.rl).toNat) else s.x q } k s' := by
    intro k
    by_cases h : k ≤ K
    · obtain ⟨s', h'⟩ := hrounds k h
      exact ⟨s', fun _ => h'⟩
    · exact ⟨s, fun h' => absurd h' h⟩
  choose S hS using hex
  have hS0 : S 0 = s := by
    have := (hS 0 (Nat.zero_le _)).1
    simp only [times, Outcome.ok.injEq] at this
    exact this.symm
  have hstep : ∀ k < K, loopBody P.maxPhys P.fresh p.body rn p.rl (S k) = .ok (S (k + 1)) := by
    intro k hk
    have := (hS (k + 1) hk).1
    rwa [times, (hS k (by omega)).1, Outcome.ok_bind] at this
  have hmem : ∀ k ≤ K, (S k).mem = s.mem := fun k hk => (hS k hk).2.mem
  have hxn : ∀ k ≤ K, (S k).x rn = BitVec.ofNat 32 ((K - k) * (s.x p.rl).toNat) := fun k hk =>
    ((hS k hk).2.others rn qa qb).trans (if_pos rfl)
  have hlen : (matWords p sub bne mpause).length = 11 := rfl
  have hpc := hw.2
  rw [hlen] at hpc
  obtain ⟨C, hC⟩ : ∃ C : Nat → Prop, C = fun q => pc.toNat ≤ q ∧ q < pc.toNat + 44 := ⟨_, rfl⟩
  have inC : ∀ q, pc.toNat ≤ q → q < pc.toNat + 44 → C q := fun q h1 h2 => by rw [hC]; exact ⟨h1, h2⟩
  have hn : ∀ k, 0 < k → k < K → (S k).x rn ≠ 0 := by
    intro k _ hk h
    have h1 := congrArg BitVec.toNat ((hxn k (by omega)).symm.trans h)
    have h2 : (K - k) * (s.x p.rl).toNat ≤ K * (s.x p.rl).toNat := Nat.mul_le_mul_right _ (by omega)
    have h3 : 1 * 128 ≤ (K - k) * (s.x p.rl).toNat := Nat.mul_le_mul (by omega) hs.xl
    rw [BitVec.toNat_ofNat, Nat.mod_eq_of_lt (by omega)] at h1
    rw [show (0 : BitVec 32).toNat = 0 from rfl] at h1
    omega
  have h0 : (S K).x rn = 0 := by
    rw [hxn K (Nat.le_refl _), Nat.sub_self, Nat.zero_mul]
    rfl
  obtain ⟨g, r⟩ := loop P C [p.la0, p.la1, p.lb0, p.lb1] p.conv rn p.rl sub bne mpause p.get.word hB
    (fun j hj => hd j (List.mem_append_left _ hj))
    (by intro j hj
        simp only [stores, hp.ld j hj])
    S K hstep (fun k hk q _ => by rw [hmem k hk, hS0]) pc
    (by rw [hS0]
        intro k hk
        have hk' : k < 8 := hk
        rw [hw.1 k (by rw [hlen]; omega)]
        match k, hk' with
        | 0, _ | 1, _ | 2, _ | 3, _ | 4, _ | 5, _ | 6, _ | 7, _ => rfl)
    (by simp only [List.length_append, List.length_cons, List.length_nil]; omega)
    (fun q h1 h2 => inC q h1 (by simp only [List.length_append, List.length_cons, List.length_nil] at h2; omega)) pos hn h0
  have r' : Spec.Program.run (vecSem P) (7 * K) (s.machine pc) = (S K).machine (pc + BitVec.ofNat 32 28) := by
    rw [hS0] at r; exact r
  have g' : Good (vecSem P) C (s.machine pc) (7 * K) := by rw [hS0] at g; exact g
  have hI := (hS K (Nat.le_refl _)).2
  have hoth : ∀ q, q ≠ p.ra → q ≠ p.rb → q ≠ rn → (S K).x q = s.x q := fun q h1 h2 h3 => (hI.others q h1 h2).trans (if_neg h3)
  obtain ⟨t, ht, hm, hf, hz, hx, hk⟩ := mat_tail P.maxPhys P.fresh p B W hp d lim hlim hd' (S K)
    (by rw [hoth _ (Ne.symm nal) (Ne.symm nbl) (Ne.symm ql)]; exact hs.xl)
    (by rw [hoth _ (Ne.symm nad) (Ne.symm nbd) (Ne.symm qd)]; exact hs.xd)
  have hsK := hmem K (Nat.le_refl _)
  have out : ∀ q, C q → q < d ∨ d + 256 ≤ q := by rw [hC]; intro q hq; omega
  have e1 : (pc + BitVec.ofNat 32 28).toNat = pc.toNat + 28 := toNat_addOfNat (by omega)
  have e2 : (pc + BitVec.ofNat 32 40).toNat = pc.toNat + 40 := toNat_addOfNat (by omega)
  obtain ⟨g2, r2, c2⟩ := block P C p.tail (S K) t (pc + BitVec.ofNat 32 28) (fun j hj => hd j (List.mem_append_right _ hj)) ht
    (fun k _ t' ht' q hq => hk k t' ht' q (out q hq))
    (by intro k hk
        have hk' : k < 3 := hk
        rw [e1, hsK, show pc.toNat + 28 + 4 * k = pc.toNat + 4 * (k + 7) from by omega, hw.1 (k + 7) (by rw [hlen]; omega)]
        match k, hk' with
        | 0, _ | 1, _ | 2, _ => rfl)
    (by rw [e1, show p.tail.length = 3 from rfl]; omega)
    (fun q h1 h2 => by rw [e1] at h1 h2; rw [show p.tail.length = 3 from rfl] at h2; exact inC q (by omega) (by omega))
  have r3 : Spec.Program.run (vecSem P) (7 * K + 3) (s.machine pc) = t.machine (pc + BitVec.ofNat 32 40) := by
    rw [Top.run_add, r']
    refine r2.trans ?_
    rw [BitVec.add_assoc]
    rfl
  have g3 : Good (vecSem P) C (s.machine pc) (7 * K + 3) := g'.append (by rw [r']; intro q _; exact congrFun hsK q) (by rw [r']; exact g2)
  have ct : ∀ q, C q → t.mem q = s.mem q := fun q hq => (c2 q hq).trans (by rw [hsK])
  have hwm : word t.mem (pc + BitVec.ofNat 32 40).toNat = mpause := by
    rw [e2, word_congr (g := s.mem) (fun k hk => ct _ (inC _ (by omega) (by omega)))]
    exact hw.1 10 (by rw [hlen]; decide)
  have hnx := next_base P (hB.rows mpause (by simp)).1 (hB.rows mpause (by simp)).2 t _ hwm
  rw [hB.mpause, addOfNat_add4] at hnx
  have hcells : ∀ i < 8, ∀ w < 8, Spec.cellRow i w < 8 ∧ Spec.cellCol i w < 8 := by decide +kernel
  refine ⟨fun i hi => (g3 i hi).1, by rw [r3, hnx]; rfl, ?_, t, ?_, ?_, ?_, hz, ⟨?_, ?_, ?_, ?_, ?_⟩, ?_, ?_⟩
  · refine g3.steady (by rw [r3]; exact ct) (fun k hk => ?_)
    rw [r3]
    show C ((pc + BitVec.ofNat 32 40).toNat + k)
    exact inC _ (by omega) (by omega)
  · rw [Top.run_succ, r3, hnx]
    rfl
  · intro i hi w hw
    rw [hm _ (hcells i hi w hw).1 _ (hcells i hi w hw).2, hI.acc i hi w hw]
    rfl
  · intro q hq
    rw [hf q hq, hsK]
  · rw [hx, if_neg nad, hI.xa]
  · rw [hx, if_neg nbd, hI.xb]
  · rw [hx, if_pos rfl]
  · rw [hx, if_neg (Ne.symm ndc), hoth _ (Ne.symm nac) (Ne.symm nbc) (Ne.symm qc), hs.xc]
  · rw [hx, if_neg (Ne.symm ndl), hoth _ (Ne.symm nal) (Ne.symm nbl) (Ne.symm ql)]; exact hs.xl
  · rw [hx, if_neg qd, h0]
  · intro q hq
    simp only [List.mem_cons, List.not_mem_nil, or_false, not_or] at hq
    rw [hx, if_neg hq.2.2.1, hoth q hq.1 hq.2.1 hq.2.2.2]

/-- C109: `Run` of the whole program, for any number of tiles. The core stops by itself behind the `mpause`: the 64 words of the
result are the words of the accumulator on entry plus the cells of the product, modulo 2^32; no other byte of memory has
changed (in particular none of the code); the accumulator is cleared; the three addresses have moved on, the count is 0, and no
other scalar register has changed; the retired-instruction count is seven for each tile and four for the end. Needed: the
result is apart from the code (it may overlap the sources), and the base instructions mean what the RISC-V manual says. -/
theorem C109_run (env : Top.Env VecRegs) (P : VecParams) (henv : env.sem = vecSem P) (p : MatProg) (B W : CTy) (hp : p.Ok B W)
    (hd : Known P (p.body ++ p.tail)) (rn : Nat) (sub bne mpause : BitVec 32) (hB : LoopBase P 5 rn p.rl sub bne mpause)
    (cmd : BitVec 32) (hc : ConvLegal cmd) (a b d K lim : Nat) (hlim : lim = if P.maxPhys ≤ 0x3fffff then 2 ^ 31 else 2 ^ 32)
    (ha : a + 256 * K ≤ lim) (hb : b + 256 * K ≤ lim) (hd' : d + 256 ≤ lim) (s : Arch) (hs : MatEntry p a b d cmd s)
    (hn : MatCount p rn K s) (pc : BitVec 32) (hw : CodeAt (matWords p sub bne mpause) s pc)
    (hcode : pc.toNat + 44 ≤ d ∨ d + 256 ≤ pc.toNat) (limit : Nat) (hl : 7 * K + 3 < limit) :
    ∃ s', Top.runHalt env limit (Top.fresh (s.machine pc)) = .ok (.ok (), s') ∧
      (∀ i < 8, ∀ w < 8, Spec.loadLE 4 s'.m.mem (d + 32 * Spec.cellRow i w + 4 * Spec.cellCol i w) =
        (s.acc (Spec.cellRow i w) (Spec.cellCol i w) + BitVec.ofInt 32 (matCell cmd s.mem a b K i w)).toNat) ∧
      (∀ q, (q < d ∨ d + 256 ≤ q) → s'.m.mem q = s.mem q) ∧ (∀ r < 8, ∀ c < 8, s'.m.regs.acc r c = 0) ∧
      s'.m.pc = pc + 44 ∧ s'.m.regs.x p.ra = BitVec.ofNat 32 (a + 256 * K) ∧ s'.m.regs.x p.rb = BitVec.ofNat 32 (b + 256 * K) ∧
      s'.m.regs.x p.rd = BitVec.ofNat 32 (d + 256) ∧ s'.m.regs.x rn = 0 ∧
      (∀ q, q ∉ [p.ra, p.rb, p.rd, rn] → s'.m.regs.x q = s.x q) ∧
      s'.status = .halted ∧ s'.reason = .userRequest ∧ s'.instret = 7 * K + 4 := by
  obtain ⟨hq, hl1, hst, t, ht, h1, h2, h3, h4, h5, h6⟩ := matrix_loop P p B W hp hd rn sub bne mpause hB cmd hc a b d K lim hlim ha hb
    hd' s hs hn pc hw hcode
  rw [← henv] at hq hl1 hst ht
  obtain ⟨s', e, hm, hst, hr, -, -, hin⟩ := Top.run_stops env (Top.fresh (s.machine pc)) (7 * K + 3) limit hl (by simp [Top.fresh])
    rfl hq hl1 (fun i hi w hw => nomatch hw) hst
  rw [show (Top.fresh (s.machine pc)).m = s.machine pc from rfl, ht] at hm
  refine ⟨s', e, ?_, ?_, ?_, ?_, ?_, ?_, ?_, ?_, ?_, hst, hr, by rw [hin]; simp [Top.fresh]⟩ <;> rw [hm]
  · exact h1
  · exact h2
  · exact h3
  · rfl
  · exact h4.xa
  · exact h4.xb
  · exact h4.xd
  · exact h5
  · exact h6

/-! ## The product carried out for the host -/

/-- What the host does: load the program and the two matrices, set the registers and the pc, step in pieces of any sizes, fetch
the result. -/
def product (nb : Numbering) (id : BitVec 32) (p : MatProg) (rn : Nat) (code A B : List (BitVec 8)) (cmd : BitVec 32)
    (pc a b d K : Nat) (ns : List (BitVec 64)) (n : BitVec 64) : List Call :=
  [.writeMemory id (BitVec.ofNat 64 pc) code, .writeMemory id (BitVec.ofNat 64 a) A, .writeMemory id (BitVec.ofNat 64 b) B,
   .writeRegister id (nb.num (.x (Fin.ofNat 32 p.ra))) (BitVec.ofNat 64 a),
   .writeRegister id (nb.num (.x (Fin.ofNat 32 p.rb))) (BitVec.ofNat 64 b),
   .writeRegister id (nb.num (.x (Fin.ofNat 32 p.rd))) (BitVec.ofNat 64 d),
   .writeRegister id (nb.num (.x (Fin.ofNat 32 p.rl))) 128,
   .writeRegister id (nb.num (.x (Fin.ofNat 32 p.rc))) (BitVec.ofNat 64 cmd.toNat),
   .writeRegister id (nb.num (.x (Fin.ofNat 32 rn))) (BitVec.ofNat 64 (K * 128)),
   .writeRegister id (nb.num .pc) (BitVec.ofNat 64 pc)] ++
  (ns.map (fun k => Call.step id k false) ++ .step id n false :: [.readMemory id (BitVec.ofNat 64 d) 256])

/-- The cell of the product of two matrices given as bytes. -/
def cellOf (cmd : BitVec 32) (A B : List (BitVec 8)) (K i w : Nat) : Int :=
  matCell cmd (fun q => (A ++ B).getD q 0) 0 (256 * K) K i w

/-- Little-endian word at `q` of the bytes. -/
def wordOf (D : List (BitVec 8)) (q : Nat) : Nat := Spec.loadLE 4 (fun q => D.getD q 0) q

theorem memElem8_eq (s : Bool) {m m' : Nat → BitVec 8} {p p' : Nat} (h : m p = m' p') :
    Spec.memElem s 8 m p = Spec.memElem s 8 m' p' := by
  unfold Spec.memElem
  simp only [Nat.reduceDiv, Spec.loadLE, h]

theorem matCell_eq (cmd : BitVec 32) (hc : ConvLegal cmd) (A B : List (BitVec 8)) (K a b : Nat) (mem : Nat → BitVec 8)
    (hA : A.length = 256 * K) (hmA : ∀ q, a ≤ q → q < a + 256 * K → mem q = A.getD (q - a) 0)
    (hmB : ∀ q, b ≤ q → q < b + 256 * K → mem q = B.getD (q - b) 0) (i w : Nat) (hi : i < 8) (hw : w < 8) :
    matCell cmd mem a b K i w = cellOf cmd A B K i w := by
  unfold cellOf matCell Spec.matDot
  refine sum_congr (fun t ht => sum_congr (fun n hn => ?_))
  have hn' : n < 32 - 4 * Spec.bitsAt cmd 2 5 := by have := hc.2; omega
  congr 2
  · refine memElem8_eq _ ?_
    rw [hmA _ (by omega) (by omega), List.getD_append _ _ _ _ (by omega)]
    congr 1
    omega
  · refine memElem8_eq _ ?_
    rw [hmB _ (by omega) (by omega), List.getD_append_right _ _ _ _ (by omega), hA]
    congr 1
    omega

/-- C109: a matrix product carried out for the host, from an instance as `construct` makes it: every call succeeds, every step
but the last reports its full number, the last one what was left of `7 * K + 4`, and the 256 bytes fetched at the end are the
accumulator the instance came with plus the product of the two matrices sent. Needed: there is a tile; code, matrices and result
lie in the memory, code and matrices apart from each other, the result apart from the code; the steps asked for reach the end
only with the last. -/
theorem C109_product (R : Params VecRegs) (P : VecParams) (henv : R.env.sem = vecSem P) (hP : P.maxPhys = 0x3fffff)
    (hset : ∀ r i v, R.setX r i v = { r with x := fun q => if q = i.val then v else r.x q })
    (p : MatProg) (T W : CTy) (hp : p.Ok T W) (hd : Known P (p.body ++ p.tail)) (rn : Nat) (hrn : rn < 32)
    (hfree : rn ∉ [0, p.ra, p.rb, p.rd, p.rl, p.rc]) (sub bne mpause : BitVec 32) (hB : LoopBase P 5 rn p.rl sub bne mpause)
    (cmd : BitVec 32) (hc : ConvLegal cmd) (a b d pc K : Nat) (hK : 0 < K) (A B : List (BitVec 8)) (hA : A.length = 256 * K)
    (hB' : B.length = 256 * K) (hia : a + 256 * K ≤ 0x400000) (hib : b + 256 * K ≤ 0x400000) (hid : d + 256 ≤ 0x400000)
    (hpc : pc + 44 ≤ 0x400000) (hab : a + 256 * K ≤ b ∨ b + 256 * K ≤ a) (hca : pc + 44 ≤ a ∨ a + 256 * K ≤ pc)
    (hcb : pc + 44 ≤ b ∨ b + 256 * K ≤ pc) (hcd : pc + 44 ≤ d ∨ d + 256 ≤ pc)
    (ns : List (BitVec 64)) (n : BitVec 64) (h0 : ∀ k ∈ ns, 0 < k.toNat)
    (hns : (ns.map BitVec.toNat).sum ≤ 7 * K + 3) (hn : 7 * K + 3 < (ns.map BitVec.toNat).sum + n.toNat)
    (ag : Agent (St VecRegs)) (id : BitVec 32) (m : Spec.Program.Machine VecRegs) (hag : ag.inst id = some (fresh m)) :
    ∃ tr ag' D, calls (core R) (product R.nb id p rn (bytesOf (matWords p sub bne mpause)) A B cmd pc a b d K ns n) ag =
        .ok (tr, ag') ∧
      tr.map Prod.snd = [{ ret := 44 }, { ret := BitVec.ofNat 64 (256 * K) }, { ret := BitVec.ofNat 64 (256 * K) }, { ret := 0 },
          { ret := 0 }, { ret := 0 }, { ret := 0 }, { ret := 0 }, { ret := 0 }, { ret := 0 }] ++
          (ns.map (fun k => { ret := k, status := some 0 }) ++
          [{ ret := BitVec.ofNat 64 (7 * K + 4 - (ns.map BitVec.toNat).sum), status := some 0 },
           { ret := 256, bytes := some D }]) ∧
      D.length = 256 ∧ ∀ i < 8, ∀ w < 8, wordOf D (32 * Spec.cellRow i w + 4 * Spec.cellCol i w) =
        (m.regs.acc (Spec.cellRow i w) (Spec.cellCol i w) + BitVec.ofInt 32 (cellOf cmd A B K i w)).toNat := by
  obtain ⟨ws, hws⟩ : ∃ ws, ws = matWords p sub bne mpause := ⟨_, rfl⟩
  have hcl : (bytesOf ws).length = 44 := by rw [hws]; rfl
  have h64 : ∀ q, q < 2 ^ 32 → (BitVec.ofNat 64 q).toNat = q := fun q hq => by
    rw [BitVec.toNat_ofNat]; exact Nat.mod_eq_of_lt (by omega)
  have h32 : ∀ q, (BitVec.ofNat 64 q).truncate 32 = BitVec.ofNat 32 q := fun q => by
    apply BitVec.eq_of_toNat_eq
    simp
  -- the machine after the set-up
  obtain ⟨mem, hmem⟩ : ∃ mem, mem = Proofs.DebugMem.put (Proofs.DebugMem.put (Proofs.DebugMem.put m.mem pc (bytesOf ws)) a A) b B :=
    ⟨_, rfl⟩
  obtain ⟨x, hx⟩ : ∃ x : Nat → BitVec 32, x = fun q => if q = rn then BitVec.ofNat 32 (K * 128) else
    if q = p.rc then BitVec.ofNat 32 cmd.toNat else if q = p.rl then 128#32 else if q = p.rd then BitVec.ofNat 32 d else
    if q = p.rb then BitVec.ofNat 32 b else if q = p.ra then BitVec.ofNat 32 a else m.regs.x q := ⟨_, rfl⟩
  obtain ⟨s, hs⟩ : ∃ s : Arch, s = { x, v := m.regs.v, mem, acc := m.regs.acc, dw := m.regs.dw } := ⟨_, rfl⟩
  have hmB : ∀ q, b ≤ q → q < b + 256 * K → mem q = B.getD (q - b) 0 := by
    intro q h1 h2
    rw [hmem]; unfold Proofs.DebugMem.put
    rw [dif_pos (by omega), List.getD_eq_getElem]
  have hmA : ∀ q, a ≤ q → q < a + 256 * K → mem q = A.getD (q - a) 0 := by
    intro q h1 h2
    rw [hmem]; unfold Proofs.DebugMem.put
    rw [dif_neg (by omega), dif_pos (by omega), List.getD_eq_getElem]
  have hmC : ∀ q, pc ≤ q → q < pc + 44 → mem q = (bytesOf ws).getD (q - pc) 0 := by
    intro q h1 h2
    rw [hmem]; unfold Proofs.DebugMem.put
    rw [dif_neg (by omega), dif_neg (by omega), dif_pos (by omega), List.getD_eq_getElem]
  have hpc32 : (BitVec.ofNat 32 pc).toNat = pc := by
    rw [BitVec.toNat_ofNat]; exact Nat.mod_eq_of_lt (by omega)
  have hcode : CodeAt (matWords p sub bne mpause) s (BitVec.ofNat 32 pc) := by
    rw [← hws]
    have hwl : ws.length = 11 := by rw [hws]; rfl
    refine ⟨fun k hk => ?_, by rw [hpc32, hwl]; omega⟩
    rw [hpc32, hs]
    exact word_bytesOf mem pc ws (by rw [hwl]; exact hmC) k hk
  have hreg := hp.regs
  simp only [List.nodup_cons, List.mem_cons, List.not_mem_nil, or_false, not_or, List.nodup_nil, and_true] at hreg
  obtain ⟨-, ⟨nab, nad, nal, nac⟩, ⟨nbd, nbl, nbc⟩, ⟨ndl, ndc⟩, nlc, -⟩ := hreg
  have hfree' := hfree
  simp only [List.mem_cons, List.not_mem_nil, or_false, not_or] at hfree'
  obtain ⟨q0, qa, qb, qd, ql, qc⟩ := hfree'
  have xl : s.x p.rl = 128#32 := by
    rw [hs, hx]; dsimp only
    rw [if_neg (Ne.symm ql), if_neg nlc, if_pos rfl]
  have hentry : MatEntry p a b d cmd s := by
    refine ⟨?_, ?_, ?_, ?_, by rw [xl]; decide⟩ <;> rw [hs, hx] <;> dsimp only
    · rw [if_neg (Ne.symm qa), if_neg nac, if_neg nal, if_neg nad, if_neg nab, if_pos rfl]
    · rw [if_neg (Ne.symm qb), if_neg nbc, if_neg nbl, if_neg nbd, if_pos rfl]
    · rw [if_neg (Ne.symm qd), if_neg ndc, if_neg ndl, if_pos rfl]
    · rw [if_neg (Ne.symm qc), if_pos rfl, BitVec.ofNat_toNat, BitVec.setWidth_eq]
  have hcount : MatCount p rn K s := by
    refine ⟨hfree, hK, ?_, ?_⟩ <;> rw [xl]
    · show K * 128 < _
      omega
    · rw [hs, hx]; dsimp only
      rw [if_pos rfl]
      rfl
  have hlim : ∀ q, q ≤ 0x400000 → q ≤ if P.maxPhys ≤ 0x3fffff then 2 ^ 31 else 2 ^ 32 := by
    intro q hq
    rw [hP, if_pos (by decide)]
    omega
  obtain ⟨hq, hl1, hst, t, ht, hM, -⟩ := matrix_loop P p T W hp hd rn sub bne mpause hB cmd hc a b d K _ rfl (hlim _ hia)
    (hlim _ hib) (hlim _ hid) s hentry hcount (BitVec.ofNat 32 pc) hcode (by rw [hpc32]; exact hcd)
  rw [← henv] at hq hl1 hst ht
  obtain ⟨s', e1, e2, e3⟩ := calls_steps R (s.machine (BitVec.ofNat 32 pc)) (7 * K + 3) (by omega) hq hl1 hst id n ag
    [.readMemory id (BitVec.ofNat 64 d) 256] ns 0 (fresh (s.machine (BitVec.ofNat 32 pc))) h0 (by omega) (by omega)
    (At.fresh R _ _)
  have hmem' : s'.m.mem = t.mem := by rw [e2, ht]; rfl
  obtain ⟨D, hD⟩ : ∃ D, D = (List.range 256).map fun k => s'.m.mem (d + k) := ⟨_, rfl⟩
  have h256 : (256 : BitVec 64).toNat = 256 := rfl
  have hpeek := call_peek R id (BitVec.ofNat 64 d) 256 (by decide)
    (by rw [h64 _ (by omega), h256]; exact hid) ag s' e1
  rw [h64 _ (by omega), h256, ← hD] at hpeek
  obtain ⟨tr, f1, f2⟩ := e3 _ _ (calls_cons hpeek rfl)
  have hfin : ∀ q, q < 32 → (Fin.ofNat 32 q).val = q := fun q hq => Nat.mod_eq_of_lt hq
  have b5 : ∀ w : BitVec 32, ∀ l, Spec.bitsAt w l 5 < 32 := fun w l => Nat.mod_lt _ (by decide)
  rw [← hws]
  have hsetup : fresh (s.machine (BitVec.ofNat 32 pc)) = fresh
      { pc := BitVec.ofNat 32 pc, mem := mem, regs := { m.regs with x := x } : Spec.Program.Machine VecRegs } := by rw [hs]; rfl
  have hstart : seat ag id (fresh m) = ag := seat_self ag id _ hag
  obtain ⟨ag1, hag1⟩ : ∃ ag1, ag1 = seat ag id (fresh m) := ⟨_, rfl⟩
  suffices hcalls : ∃ tr', calls (core R) (product R.nb id p rn (bytesOf ws) A B cmd pc a b d K ns n) ag1 = .ok (tr', seat ag id s') ∧
      tr'.map Prod.snd = { ret := BitVec.ofNat 64 (bytesOf ws).length } :: { ret := BitVec.ofNat 64 A.length } ::
        { ret := BitVec.ofNat 64 B.length } :: zero :: zero :: zero :: zero :: zero :: zero :: zero :: tr.map Prod.snd by
    rw [hcl, hA, hB', hag1, hstart] at hcalls
    obtain ⟨tr', g1, g2⟩ := hcalls
    refine ⟨tr', _, D, g1, ?_, by rw [hD]; simp, ?_⟩
    · rw [g2, f2, Nat.zero_add]
      rfl
    · intro i hi w hw
      have hcells : ∀ i < 8, ∀ w < 8, Spec.cellRow i w < 8 ∧ Spec.cellCol i w < 8 := by decide +kernel
      have hcell := hcells i hi w hw
      have key : ∀ q, q < 256 → D.getD q 0 = t.mem (d + q) := by
        intro q hq
        rw [hD, List.getD_eq_getElem _ _ (by simp; omega), List.getElem_map, List.getElem_range, hmem']
      have hl : ∀ k q, q + k ≤ 256 → Spec.loadLE k (fun q => D.getD q 0) q = Spec.loadLE k t.mem (d + q) := by
        intro k
        induction k with
        | zero => intro q _; rfl
        | succ k ih =>
          intro q hq
          unfold Spec.loadLE
          rw [ih (q + 1) (by omega), show (fun q => D.getD q 0) q = t.mem (d + q) from key q (by omega), Nat.add_assoc d q 1]
      have := hM i hi w hw
      rw [hs] at this
      dsimp only at this
      rw [matCell_eq cmd hc A B K a b mem hA hmA hmB i w hi hw] at this
      rw [← this, wordOf, hl 4 _ (by omega), Nat.add_assoc]
  rw [hag1]
  refine replies_cons (call_poke R id (BitVec.ofNat 64 pc) (bytesOf ws) (by intro h; rw [h] at hcl; cases hcl)
    (by rw [h64 _ (by omega), hcl]; exact hpc) ag m) ?_
  refine replies_cons (call_poke R id (BitVec.ofNat 64 a) A (by intro h; rw [h] at hA; simp at hA; omega)
    (by rw [h64 _ (by omega), hA]; exact hia) ag _) ?_
  refine replies_cons (call_poke R id (BitVec.ofNat 64 b) B (by intro h; rw [h] at hB'; simp at hB'; omega)
    (by rw [h64 _ (by omega), hB']; exact hib) ag _) ?_
  refine replies_cons (call_setX R id _ (BitVec.ofNat 64 a) ag _) ?_
  refine replies_cons (call_setX R id _ (BitVec.ofNat 64 b) ag _) ?_
  refine replies_cons (call_setX R id _ (BitVec.ofNat 64 d) ag _) ?_
  refine replies_cons (call_setX R id _ 128 ag _) ?_
  refine replies_cons (call_setX R id _ (BitVec.ofNat 64 cmd.toNat) ag _) ?_
  refine replies_cons (call_setX R id _ (BitVec.ofNat 64 (K * 128)) ag _) ?_
  refine replies_cons (call_setPc R id (BitVec.ofNat 64 pc) ag _) ?_
  rw [hsetup, hmem, hx] at f1
  simp only [hset, h32, h64 pc (by omega), h64 a (by omega), h64 b (by omega), hfin p.ra (b5 _ _), hfin p.rb (b5 _ _),
    hfin p.rd (b5 _ _), hfin p.rl (b5 _ _), hfin p.rc (b5 _ _), hfin rn hrn, show (128 : BitVec 64).truncate 32 = 128#32 from rfl]
  exact ⟨tr, f1, rfl⟩

/-! ## Examples -/

/-- `sub x10, x10, x5` and `bne x10, x0, -24`. -/
def matSub : BitVec 32 := 0x40550533#32
def matBne : BitVec 32 := 0xfe0514e3#32

/-- A decoder for the program `matBytes`, and the three base instructions. -/
def matParams : VecParams where
  dec := fun w => ((matBytes.body ++ matBytes.tail).find? fun i => i.word == w).map Inst.row
  base := { inst := fun w a m =>
    if w = matSub then ({ m with regs := { m.regs with x := writeX m.regs.x 10 (m.regs.x 10 - m.regs.x 5) } }, [])
    else if w = matBne then (if m.regs.x 10 = 0 then m else { m with pc := BitVec.ofNat 32 (a - 24) }, [])
    else (m, [.userRequest]) }
  und := { inst := fun _ _ m => (m, []) }
  maxPhys := 0x3fffff
  fresh := fun _ => 0

theorem matParams_known : Known matParams (matBytes.body ++ matBytes.tail) := fun i hi =>
  ⟨matBytes_ok.dec i hi, by
    have h : ∀ i ∈ matBytes.body ++ matBytes.tail, matParams.dec i.word = some i.row := by decide +kernel
    exact h i hi⟩

theorem matParams_base : LoopBase matParams 5 10 matBytes.rl matSub matBne mpauseWord where
  rows := by
    have h : ([matSub, matBne, mpauseWord].all fun w => w != ebreak && (matParams.dec w).isNone) = true := by decide +kernel
    intro w hw
    have h := List.all_eq_true.1 h w hw
    simp only [Bool.and_eq_true, bne_iff_ne, Option.isNone_iff_eq_none] at h
    exact ⟨h.1, fun r hr => by rw [h.2] at hr; cases hr⟩
  marks := by
    intro w hw
    simp only [List.mem_cons, List.not_mem_nil, or_false] at hw
    rcases hw with rfl | rfl | rfl <;> decide
  sub := fun _ _ => rfl
  bne := fun _ _ => rfl
  mpause := fun _ _ => rfl

/-- The base words decode as the base instructions they are meant to be. -/
example : (allRows.filter fun r => r.matches matSub).map Row.sem = [.scalar] ∧
    (allRows.filter fun r => r.matches matBne).map Row.sem = [.scalar] := by decide +kernel

/-- A core with the instructions of `matBytes`. -/
def matCore (keep : Nat → Nat → Bool) (m : Spec.Program.Machine VecRegs) : Params VecRegs :=
  { addCore keep m with env := ⟨vecSem matParams, keep⟩ }

/-- Signed bytes, no bias, all eight words of a row. -/
def matCmd : BitVec 32 := 0x80200380#32

/-- One instance is made, and two matrices of 8 rows of 320 bytes (10 tiles) are multiplied, in pieces of 20, 30 and up to 1000
instructions: the last piece executes 24. -/
example (keep : Nat → Nat → Bool) (m : Spec.Program.Machine VecRegs) (hz : ∀ r c, m.regs.acc r c = 0) (A B : List (BitVec 8))
    (hA : A.length = 2560) (hB : B.length = 2560) :
    ∃ tr ag' D, calls (core (matCore keep m)) (.construct 32 none :: product dwarf 0 matBytes 10
        (bytesOf (matWords matBytes matSub matBne mpauseWord)) A B matCmd 0x100 0x1000 0x2000 0x3000 10 [20, 30] 1000) empty =
        .ok (tr, ag') ∧
      tr.map Prod.snd = [{ ret := 0 }, { ret := 44 }, { ret := 2560 }, { ret := 2560 }, { ret := 0 }, { ret := 0 }, { ret := 0 },
        { ret := 0 }, { ret := 0 }, { ret := 0 }, { ret := 0 }, { ret := 20, status := some 0 }, { ret := 30, status := some 0 },
        { ret := 24, status := some 0 }, { ret := 256, bytes := some D }] ∧
      ∀ i < 8, ∀ w < 8, wordOf D (32 * Spec.cellRow i w + 4 * Spec.cellCol i w) =
        (BitVec.ofInt 32 (cellOf matCmd A B 10 i w)).toNat := by
  obtain ⟨tr, ag', D, e1, e2, -, e4⟩ := C109_product (matCore keep m) matParams rfl rfl (fun _ _ _ => rfl) matBytes .i8 .i32
    matBytes_ok matParams_known 10 (by decide) (by decide +kernel) _ _ _ matParams_base matCmd (by decide +kernel)
    0x1000 0x2000 0x3000 0x100 10 (by decide) A B hA hB (by decide) (by decide) (by decide) (by decide) (by decide) (by decide)
    (by decide) (by decide) [20, 30] 1000 (by simp) (by simp) (by simp)
    (construct (core (matCore keep m)) 32 none empty).2 0 m rfl
  have hc : call (core (matCore keep m)) (.construct 32 none) empty =
      .ok ({ ret := 0 }, (construct (core (matCore keep m)) 32 none empty).2) := rfl
  refine ⟨_, ag', D, calls_cons hc e1, ?_, fun i hi w hw => ?_⟩
  · rw [List.map_cons, e2]
    rfl
  · rw [e4 i hi w hw, hz, show (0 : BitVec 32) = 0#32 from rfl, BitVec.zero_add]

/-- Two matrices of 8 rows of 32 bytes, all 3 and all -2: every cell is `32 * 3 * -2`. -/
example : ∀ i < 8, ∀ w < 8, cellOf matCmd (List.replicate 256 3) (List.replicate 256 0xfe) 1 i w = -192 := by decide +kernel

end Verif.Props
