import Verif.Proofs.Debugged
import Verif.Proofs.Footprint
import Verif.Proofs.VecCore

/-! # The loops of vector instructions under the debugger -/

namespace Verif.Proofs

open Verif Verif.Model
open Verif.Spec.Program (Machine Ev word ebreak next run TameAt)

theorem runAll_take (maxPhys : Nat) (fresh : Nat → VReg) : ∀ (is : List Inst) (k : Nat) (s t : Arch),
    runAll maxPhys fresh is s = .ok t → ∃ t', runAll maxPhys fresh (is.take k) s = .ok t'
  | [], k, s, t, _ => ⟨s, by simp [runAll]⟩
  | i :: is, 0, s, t, _ => ⟨s, rfl⟩
  | i :: is, k + 1, s, t, h => by
    rw [runAll] at h
    obtain ⟨s1, h1, h2⟩ := bind_ok_inv h
    obtain ⟨t', ht'⟩ := runAll_take maxPhys fresh is k s1 t h2
    exact ⟨t', by rw [List.take_succ_cons, runAll, h1, Outcome.ok_bind, ht']⟩

/-- The bytes of an access in the length form. -/
theorem feet_lp (maxPhys : Nat) (w : BitVec 32) (T : CTy) (hT : T.bits ≤ 32) (strip : Bool) (x : Nat → BitVec 32)
    (h1 : Spec.bitsAt w 15 5 ≠ 0) (h2 : Spec.bitsAt w 20 5 ≠ 0) (base cnt : Nat)
    (hb : Spec.effBase maxPhys (x (Spec.bitsAt w 15 5)) = base)
    (hc : min (x (Spec.bitsAt w 20 5)).toNat ((if strip then 4 else 1) * Spec.lanes T.bits) = cnt)
    (hr : base + cnt * (T.bits / 8) ≤ 2 ^ 32) (q : Nat)
    (hq : (Spec.accessOf maxPhys T true false strip w x).Touches (Spec.lanes T.bits) q) :
    base ≤ q ∧ q < base + cnt * (T.bits / 8) := by
  have e1 : Spec.addrScalar w x = x (Spec.bitsAt w 15 5) := by
    unfold Spec.addrScalar
    rw [if_neg]
    unfold Spec.bitsAt at *
    omega
  have e2 : Spec.argScalar w x = x (Spec.bitsAt w 20 5) := by
    unfold Spec.argScalar
    rw [if_neg]
    unfold Spec.bitsAt at *
    omega
  obtain ⟨e, he, c1, c2⟩ := hq
  have hcount : (Spec.accessOf maxPhys T true false strip w x).count = cnt := by
    show min (Spec.argScalar w x).toNat _ = cnt
    rw [e2]; exact hc
  rw [hcount] at he
  have ha : (Spec.accessOf maxPhys T true false strip w x).addr (Spec.lanes T.bits) e = base + e * (T.bits / 8) := by
    show Spec.elemAddr (Spec.effBase maxPhys (Spec.addrScalar w x)) _ _ _ _ = _
    rw [e1, hb]
    exact unit_addr T hT base cnt e he hr
  rw [ha] at c1 c2
  change q < base + e * (T.bits / 8) + T.bits / 8 at c2
  have : (e + 1) * (T.bits / 8) ≤ cnt * (T.bits / 8) := Nat.mul_le_mul_right _ he
  rw [Nat.add_mul] at this
  omega

/-- The bytes the loop over two arrays has to do with, in one round with `n` elements left. -/
theorem map_feet (maxPhys : Nat) (fresh : Nat → VReg) (p : MapLoop) (T : CTy) (v : VOp) (strip : Bool) (hp : p.Ok T v strip)
    (n a b d lim : Nat) (hlim : lim = if maxPhys ≤ 0x3fffff then 2 ^ 31 else 2 ^ 32)
    (ha : a + n * (T.bits / 8) < lim) (hb : b + n * (T.bits / 8) < lim) (hd : d + n * (T.bits / 8) < lim) (s : Arch)
    (xn : s.x p.rn = BitVec.ofNat 32 n) (xa : s.x p.ra = BitVec.ofNat 32 a) (xb : s.x p.rb = BitVec.ofNat 32 b)
    (xd : s.x p.rd = BitVec.ofNat 32 d) (j : Nat) (hj : j < p.insts.length) (t : Arch)
    (ht : runAll maxPhys fresh (p.insts.take j) s = .ok t) (q : Nat) :
    (Spec.Reads maxPhys p.insts[j].row.sem p.insts[j].word t.x q →
      (a ≤ q ∧ q < a + n * (T.bits / 8)) ∨ (b ≤ q ∧ q < b + n * (T.bits / 8))) ∧
    (Spec.Writes maxPhys p.insts[j].row.sem p.insts[j].word t.x q → d ≤ q ∧ q < d + n * (T.bits / 8)) := by
  have hT : T.bits ≤ 32 :=
    (exec_vld maxPhys fresh (hp.dec p.lda (by simp [MapLoop.insts])).1 (hp.dec p.lda (by simp [MapLoop.insts])).2.1 hp.lda s).1.1
  have hsz : 1 ≤ T.bits / 8 := by cases T <;> decide
  have hlim32 : lim ≤ 2 ^ 32 := by subst hlim; split <;> decide
  have hN : n < 2 ^ 32 := by
    have : n * 1 ≤ n * (T.bits / 8) := Nat.mul_le_mul_left _ hsz
    omega
  have hr := hp.regs
  simp only [List.nodup_cons, List.mem_cons, List.not_mem_nil, not_or, or_false, List.nodup_nil] at hr
  obtain ⟨⟨z1, z2, z3, z4, z5⟩, ⟨n1, n2, n3, n4⟩, ⟨l1, l2, l3⟩, ⟨a1, a2⟩, b1, -⟩ := hr
  obtain ⟨c, hc⟩ : ∃ c, c = min n ((if strip then 4 else 1) * Spec.lanes T.bits) := ⟨_, rfl⟩
  have hcn : c * (T.bits / 8) ≤ n * (T.bits / 8) := Nat.mul_le_mul_right _ (by omega)
  -- getvl
  obtain ⟨s1, r1, v1, m1, x1, o1⟩ := run_getvl maxPhys fresh (hp.dec p.vl (by simp [MapLoop.insts])) hp.vl
    (Ne.symm z1) (Ne.symm z2) s
  have x1' : (s1.x p.rl).toNat = c := by
    show (s1.x (Spec.bitsAt p.vl.word 7 5)).toNat = c
    rw [x1]
    show min (s.x p.rn).toNat _ = c
    rw [xn, BitVec.toNat_ofNat, Nat.mod_eq_of_lt (by omega), hc]
  have o1' : ∀ q, q ≠ p.rl → s1.x q = s.x q := o1
  have hca : ∀ (t : BitVec 32), t.toNat = c → min t.toNat ((if strip then 4 else 1) * Spec.lanes T.bits) = c := by
    intro t ht; omega
  have ka : Spec.effBase maxPhys (s1.x p.ra) = a := by
    rw [o1' _ (Ne.symm l1), xa]; exact effBase_small hlim (by omega)
  have ca : min (s1.x (Spec.bitsAt p.lda.word 20 5)).toNat ((if strip then 4 else 1) * Spec.lanes T.bits) = c := by
    rw [hp.len p.lda (by simp)]; exact hca _ x1'
  obtain ⟨s2, r2, -, -, -, x2⟩ := run_vldLp maxPhys fresh (hp.dec p.lda (by simp [MapLoop.insts])) hp.lda
    (Ne.symm z3) (by rw [hp.len p.lda (by simp)]; exact Ne.symm z2) s1 a c ka ca (by omega)
  have x2' : ∀ q, s2.x q = if q = p.ra then BitVec.ofNat 32 (a + c * (T.bits / 8)) else s1.x q := x2
  have kb : Spec.effBase maxPhys (s2.x p.rb) = b := by
    rw [x2', if_neg (Ne.symm a1), o1' _ (Ne.symm l2), xb]; exact effBase_small hlim (by omega)
  have cb : min (s2.x (Spec.bitsAt p.ldb.word 20 5)).toNat ((if strip then 4 else 1) * Spec.lanes T.bits) = c := by
    rw [hp.len p.ldb (by simp)]; exact hca _ (by rw [x2', if_neg l1]; exact x1')
  obtain ⟨s3, r3, -, -, -, x3⟩ := run_vldLp maxPhys fresh (hp.dec p.ldb (by simp [MapLoop.insts])) hp.ldb
    (Ne.symm z4) (by rw [hp.len p.ldb (by simp)]; exact Ne.symm z2) s2 b c kb cb (by omega)
  have x3' : ∀ q, s3.x q = if q = p.rb then BitVec.ofNat 32 (b + c * (T.bits / 8)) else s2.x q := x3
  match j, hj with
  | 0, _ =>
    show (Spec.Reads maxPhys p.vl.row.sem p.vl.word t.x q → _) ∧ (Spec.Writes maxPhys p.vl.row.sem p.vl.word t.x q → _)
    rw [hp.vl]
    exact ⟨fun h => h.elim, fun h => h.elim⟩
  | 1, _ =>
    show (Spec.Reads maxPhys p.lda.row.sem p.lda.word t.x q → _) ∧ (Spec.Writes maxPhys p.lda.row.sem p.lda.word t.x q → _)
    rw [hp.lda]
    simp only [MapLoop.insts, List.take_succ_cons, List.take_zero, runAll, r1, Outcome.ok_bind, Outcome.ok.injEq] at ht
    subst ht
    refine ⟨fun h => .inl ?_, fun h => h.elim⟩
    have := feet_lp maxPhys p.lda.word T hT strip s1.x (Ne.symm z3) (by rw [hp.len p.lda (by simp)]; exact Ne.symm z2) a c ka ca
      (by omega) q h
    omega
  | 2, _ =>
    show (Spec.Reads maxPhys p.ldb.row.sem p.ldb.word t.x q → _) ∧ (Spec.Writes maxPhys p.ldb.row.sem p.ldb.word t.x q → _)
    rw [hp.ldb]
    simp only [MapLoop.insts, List.take_succ_cons, List.take_zero, runAll, r1, r2, Outcome.ok_bind, Outcome.ok.injEq] at ht
    subst ht
    refine ⟨fun h => .inr ?_, fun h => h.elim⟩
    have := feet_lp maxPhys p.ldb.word T hT strip s2.x (Ne.symm z4) (by rw [hp.len p.ldb (by simp)]; exact Ne.symm z2) b c kb cb
      (by omega) q h
    omega
  | 3, _ =>
    show (Spec.Reads maxPhys p.op.row.sem p.op.word t.x q → _) ∧ (Spec.Writes maxPhys p.op.row.sem p.op.word t.x q → _)
    rw [hp.op]
    exact ⟨fun h => h.elim, fun h => h.elim⟩
  | 4, _ =>
    show (Spec.Reads maxPhys p.st.row.sem p.st.word t.x q → _) ∧ (Spec.Writes maxPhys p.st.row.sem p.st.word t.x q → _)
    rw [hp.st]
    refine ⟨fun h => h.elim, fun h => ?_⟩
    simp only [MapLoop.insts, List.take_succ_cons, List.take_zero, runAll, r1, r2, r3, Outcome.ok_bind] at ht
    obtain ⟨s4, r4, ht⟩ := bind_ok_inv ht
    simp only [Outcome.ok.injEq] at ht
    subst ht
    have x4 : s4.x = s3.x := by
      have he := run_exec r4
      simp only [execRow, hp.op, Option.some.injEq] at he
      obtain ⟨v, -, hv⟩ := bind_ok_inv he
      cases hv; rfl
    have := feet_lp maxPhys p.st.word T hT strip s4.x (Ne.symm z5) (by rw [hp.len p.st (by simp)]; exact Ne.symm z2) d c
      (by
        show Spec.effBase maxPhys (s4.x p.rd) = _
        rw [x4, x3', if_neg (Ne.symm b1), x2', if_neg (Ne.symm a2), o1' _ (Ne.symm l3), xd]
        exact effBase_small hlim (by omega))
      (by
        rw [hp.len p.st (by simp)]
        exact hca _ (by rw [x4, x3', if_neg l2, x2', if_neg l1]; exact x1'))
      (by omega) q h
    omega
  | j + 5, hj => exact absurd hj (by simp [MapLoop.insts])

/-- A base instruction that leaves memory alone. -/
theorem tame_base (P : VecParams) {w : BitVec 32} (hr : ∀ r, P.dec w = some r → r.sem = .scalar) (C : Nat → Bool)
    (m : Machine VecRegs) (hw : word m.mem m.pc.toNat = w) (hne : w ≠ ebreak) (hpc : m.pc.toNat % 4 = 0) (hC : C m.pc.toNat = true)
    (pc' : BitVec 32 → VecRegs → BitVec 32) (regs' : VecRegs → VecRegs) (l : List Ev)
    (hb : ∀ m', P.base w m.pc.toNat m' = ({ pc := pc' m'.pc m'.regs, mem := m'.mem, regs := regs' m'.regs }, l)) :
    TameAt (vecSem P) C m := by
  have e : ∀ m', vecSem P w m.pc.toNat m' = P.base w m.pc.toNat m' := by
    intro m'
    unfold vecSem
    dsimp only
    cases hd : P.dec w with
    | none => rfl
    | some r =>
      rw [Option.bind_some]
      simp only [execRow, hr r hd]
  refine Top.tameAt_inst (by rw [hw]; exact hne) hpc hC fun mem' hm => ?_
  rw [hw, e, e, hb, hb]
  refine congrArg (fun z => ((⟨_, z, _⟩ : Machine VecRegs), l)) ?_
  funext q
  show mem' q = if C (q / 4 * 4) = true then mem' q else m.mem q
  cases hc : C (q / 4 * 4) with
  | true => rfl
  | false => rw [if_neg (by simp)]; exact hm q hc

/-- The states inside a round. -/
theorem round_mid (P : VecParams) (C : Nat → Prop) (js : List Inst) (i : Inst) (hd : ∀ j ∈ js ++ [i], j.Ok ∧ P.dec j.word = some j.row)
    (hs : ∀ j ∈ js, stores j = false) (s u : Arch) (hu : runAll P.maxPhys P.fresh (js ++ [i]) s = .ok u)
    (hC : ∀ q, C q → u.mem q = s.mem q) (pc : BitVec 32) (hw : InMem ((js ++ [i]).map Inst.word) s.mem pc.toNat)
    (hpc : pc.toNat + 4 * (js ++ [i]).length < 2 ^ 32)
    (hcode : ∀ q, pc.toNat ≤ q → q < pc.toNat + 4 * (js ++ [i]).length → C q) (k : Nat) (hk : k ≤ (js ++ [i]).length) :
    ∃ t, runAll P.maxPhys P.fresh ((js ++ [i]).take k) s = .ok t ∧
      run (vecSem P) k (s.machine pc) = t.machine (pc + BitVec.ofNat 32 (4 * k)) ∧ ∀ q, C q → t.mem q = s.mem q := by
  obtain ⟨t, ht⟩ := runAll_take P.maxPhys P.fresh (js ++ [i]) k s u hu
  have hl : ((js ++ [i]).take k).length = k := by rw [List.length_take]; omega
  obtain ⟨-, r, c⟩ := block P C ((js ++ [i]).take k) s t pc (fun j hj => hd j (List.mem_of_mem_take hj)) ht
    (fun k' hk' t' ht' => keeps_last P.maxPhys P.fresh C js i s u hs hu hC k' (by omega) t' (by
      rw [List.take_take, hl] at *
      rwa [show min k' k = k' by omega] at ht'))
    (fun k' hk' => by
      have hk2 : k' < k := by rw [List.length_map, hl] at hk'; exact hk'
      rw [hw k' (by rw [List.length_map]; omega)]
      simp only [List.getElem_map, List.getElem_take])
    (by rw [hl]; omega) (fun q h1 h2 => hcode q h1 (by rw [hl] at h2; omega))
  rw [hl] at r
  exact ⟨t, ht, r, c⟩

/-- The state at the beginning of every round of a loop. -/
theorem loop_at (P : VecParams) (C : Nat → Prop) (js : List Inst) (i : Inst) (rn rl : Nat) (sub bne mp : BitVec 32)
    (hB : LoopBase P (js ++ [i]).length rn rl sub bne mp) (hd : ∀ j ∈ js ++ [i], j.Ok ∧ P.dec j.word = some j.row)
    (hs : ∀ j ∈ js, stores j = false) (S : Nat → Arch)
    (hS : ∀ k, loopBody P.maxPhys P.fresh (js ++ [i]) rn rl (S k) = .ok (S (k + 1)))
    (hC : ∀ k q, C q → (S k).mem q = (S 0).mem q) (pc : BitVec 32)
    (hw : InMem ((js ++ [i]).map Inst.word ++ [sub, bne, mp]) (S 0).mem pc.toNat)
    (hpc : pc.toNat + 4 * (js ++ [i]).length + 12 < 2 ^ 32)
    (hcode : ∀ q, pc.toNat ≤ q → q < pc.toNat + 4 * (js ++ [i]).length + 12 → C q) (K : Nat)
    (hn : ∀ k, 0 < k → k < K → (S k).x rn ≠ 0) : ∀ k, k < K →
    run (vecSem P) (((js ++ [i]).length + 2) * k) ((S 0).machine pc) = (S k).machine pc := by
  intro k
  induction k with
  | zero => exact fun _ => rfl
  | succ k ih =>
    intro hk
    obtain ⟨-, r1⟩ := round P C js i rn rl sub bne mp mp hB hd hs (S k) (S (k + 1)) (hS k)
      (fun q hq => (hC _ q hq).trans (hC k q hq).symm) pc
      (fun j hj => by
        have hj' : j < (js ++ [i]).length + 3 := by simpa using hj
        rw [word_congr (g := (S 0).mem) (fun k hk => hC _ _ (hcode _ (by omega) (by omega)))]
        exact hw j hj) hpc hcode
    rw [if_neg (hn (k + 1) (by omega) hk)] at r1
    rw [Nat.mul_succ, Top.run_add, ih (by omega), r1]

end Verif.Proofs
