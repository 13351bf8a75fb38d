import Verif.Model.KernelMat
import Verif.Spec.KernelMat
import Verif.Proofs.Kernel
import Verif.Proofs.ConvAux
import Verif.Proofs.DecodeTotal

/-! # A matrix product program -/

namespace Verif.Proofs
open Verif Verif.Model

theorem run_mem_acc {maxPhys : Nat} {fresh : Nat → VReg} {i : Inst} {s s' : Arch} {m : Outcome MState}
    (he : execRow maxPhys fresh i.row i.word s = some (do let m ← m; .ok (false, memBack s m)))
    (h : i.run maxPhys fresh s = .ok s') : s'.acc = s.acc := by
  rw [Inst.run, he] at h
  cases m with
  | ok m =>
    simp only [Outcome.ok_bind] at h
    cases h; rfl
  | ub => exact nomatch h
  | abort => exact nomatch h

/-- Two strip-mined byte loads fill 8 registers with 256 consecutive bytes. -/
theorem load_tile (maxPhys : Nat) (fresh : Nat → VReg) {i0 i1 : Inst} (h0 : i0.Ok) (h1 : i1.Ok) {B : CTy}
    (hB : B.bits = 8) (hs0 : i0.row.sem = .vld B true false true true true)
    (hs1 : i1.row.sem = .vld B true false true true true) {r l v : Nat} (hr0 : r ≠ 0) (hl0 : l ≠ 0) (hrl : l ≠ r)
    (er0 : Spec.bitsAt i0.word 15 5 = r) (er1 : Spec.bitsAt i1.word 15 5 = r) (el0 : Spec.bitsAt i0.word 20 5 = l)
    (el1 : Spec.bitsAt i1.word 20 5 = l) (ev0 : Spec.bitsAt i0.word 6 6 = v) (ev1 : Spec.bitsAt i1.word 6 6 = v + 4)
    (s : Arch) (base lim : Nat) (hlim : lim = if maxPhys ≤ 0x3fffff then 2 ^ 31 else 2 ^ 32)
    (hb : base + 256 ≤ lim) (hx : s.x r = BitVec.ofNat 32 base) (hl : 128 ≤ (s.x l).toNat) :
    ∃ s', runAll maxPhys fresh [i0, i1] s = .ok s' ∧ s'.mem = s.mem ∧ s'.acc = s.acc ∧
      (∀ i < 8, ∀ j < 32, ∀ sg, Spec.lane sg 8 (s'.v (v + i)) j = Spec.memElem sg 8 s.mem (base + 32 * i + j)) ∧
      Spec.Frame v 8 s.v s'.v ∧ ∀ q, s'.x q = if q = r then BitVec.ofNat 32 (base + 256) else s.x q := by
  have hlim32 : lim ≤ 2 ^ 32 := by subst hlim; split <;> decide
  have hln : Spec.lanes B.bits = 32 := by rw [hB]; rfl
  have hsz : B.bits / 8 = 1 := by rw [hB]
  have hc : ∀ t : Arch, 128 ≤ (t.x l).toNat →
      min (t.x l).toNat ((if true then 4 else 1) * Spec.lanes B.bits) = 128 := by
    intro t ht
    rw [hln, if_pos rfl]
    omega
  obtain ⟨s1, r1, m1, g1, f1, x1⟩ := run_vldLp maxPhys fresh h0 hs0 (by rw [er0]; exact hr0) (by rw [el0]; exact hl0) s base 128
    (by rw [er0, hx]; exact effBase_small hlim (by omega)) (by rw [el0]; exact hc s hl) (by rw [hsz]; omega)
  rw [er0] at x1
  have x1r : s1.x r = BitVec.ofNat 32 (base + 128) := by rw [x1, if_pos rfl, hsz]
  have x1l : s1.x l = s.x l := by rw [x1, if_neg hrl]
  obtain ⟨s2, r2, m2, g2, f2, x2⟩ := run_vldLp maxPhys fresh h1 hs1 (by rw [er1]; exact hr0) (by rw [el1]; exact hl0) s1
    (base + 128) 128 (by rw [er1, x1r]; exact effBase_small hlim (by omega))
    (by rw [el1]; exact hc s1 (by rw [x1l]; exact hl)) (by rw [hsz]; omega)
  have a1 := run_mem_acc (exec_vld maxPhys fresh h0.1 h0.2.1 hs0 s).2 r1
  have a2 := run_mem_acc (exec_vld maxPhys fresh h1.1 h1.2.1 hs1 s1).2 r2
  rw [er1] at x2
  rw [ev0, if_pos rfl] at f1
  rw [ev1, if_pos rfl] at f2
  rw [hB, ev0] at g1
  rw [hB, ev1] at g2
  refine ⟨s2, ?_, by rw [m2, m1], by rw [a2, a1], ?_, ?_, ?_⟩
  · simp only [runAll, r1, Outcome.ok_bind, r2]
  · intro i hi j hj sg
    rw [Spec.lane, Spec.memElem, ← value_ofNat]
    congr 2
    rcases Nat.lt_or_ge i 4 with h | h
    · rw [f2 (v + i) (by omega)]
      have := g1 (32 * i + j) (by omega)
      rw [Spec.groupNat, show Spec.lanes 8 = 32 from rfl, show (32 * i + j) / 32 = i from by omega,
        show (32 * i + j) % 32 = j from by omega] at this
      rw [this, show base + (32 * i + j) * (8 / 8) = base + 32 * i + j from by omega]
    · have := g2 (32 * (i - 4) + j) (by omega)
      rw [Spec.groupNat, show Spec.lanes 8 = 32 from rfl, show (32 * (i - 4) + j) / 32 = i - 4 from by omega,
        show (32 * (i - 4) + j) % 32 = j from by omega, show v + 4 + (i - 4) = v + i from by omega, m1] at this
      rw [this, show base + 128 + (32 * (i - 4) + j) * (8 / 8) = base + 32 * i + j from by omega]
  · intro q hq
    rw [f2 q (by omega), f1 q (by omega)]
  · intro q
    rw [x2, x1, hsz]
    split <;> rfl

theorem sum_congr {n : Nat} {f g : Nat → Int} (h : ∀ k < n, f k = g k) : Spec.sum n f = Spec.sum n g := by
  induction n with
  | zero => rfl
  | succ n ih => rw [sum_succ, sum_succ, ih (fun k hk => h k (by omega)), h n (by omega)]

theorem sum_flat (m n : Nat) (hn : 0 < n) (f : Nat → Nat → Int) :
    (Spec.sum m fun k => Spec.sum n fun b => f k b) = Spec.sum (n * m) fun e => f (e / n) (e % n) := by
  induction m with
  | zero => rfl
  | succ m ih =>
    rw [sum_succ, ih]
    have : ∀ j ≤ n, Spec.sum (n * m + j) (fun e => f (e / n) (e % n)) =
        Spec.sum (n * m) (fun e => f (e / n) (e % n)) + Spec.sum j (fun b => f m b) := by
      intro j
      induction j with
      | zero => intro _; simp [Spec.sum]
      | succ j ih =>
        intro hj
        rw [← Nat.add_assoc, sum_succ, ih (by omega), sum_succ, Nat.mul_add_div hn, Nat.mul_add_mod,
          Nat.div_eq_of_lt (by omega), Nat.mod_eq_of_lt (by omega), Nat.add_zero, Int.add_assoc]
    rw [Nat.mul_succ, this n (Nat.le_refl _)]

/-- What is true after `t` tiles. -/
structure MatInv (p : MatProg) (s1 s2 : Bool) (b1 b2 : Int) (start N a b : Nat) (s0 : Arch) (t : Nat) (s : Arch) : Prop where
  xa : s.x p.ra = BitVec.ofNat 32 (a + 256 * t)
  xb : s.x p.rb = BitVec.ofNat 32 (b + 256 * t)
  others : ∀ q, q ≠ p.ra → q ≠ p.rb → s.x q = s0.x q
  mem : s.mem = s0.mem
  acc : ∀ i < 8, ∀ w < 8, s.acc (Spec.cellRow i w) (Spec.cellCol i w) = s0.acc (Spec.cellRow i w) (Spec.cellCol i w) +
    BitVec.ofInt 32 (Spec.matDot s1 s2 b1 b2 start N s0.mem a b i w t)

theorem matDot_succ (s1 s2 : Bool) (b1 b2 : Int) (start N : Nat) (mem : Nat → BitVec 8) (a b i w t : Nat) :
    Spec.matDot s1 s2 b1 b2 start N mem a b i w (t + 1) = Spec.matDot s1 s2 b1 b2 start N mem a b i w t +
      Spec.sum N fun n => (Spec.memElem s1 8 mem (a + 256 * t + 32 * i + (start + n)) + b1) *
      (Spec.memElem s2 8 mem (b + 256 * t + 32 * (n / 4) + 4 * w + n % 4) + b2) := sum_succ ..

/-- One tile. -/
theorem mat_step (maxPhys : Nat) (fresh : Nat → VReg) (p : MatProg) (B W : CTy) (hp : p.Ok B W) (cmd : BitVec 32)
    (hc1 : Spec.bitsAt cmd 0 2 = 0) (hc2 : Spec.bitsAt cmd 2 5 ≤ Spec.bitsAt cmd 7 5) (hc3 : Spec.bitsAt cmd 7 5 < 8)
    (a b lim : Nat) (hlim : lim = if maxPhys ≤ 0x3fffff then 2 ^ 31 else 2 ^ 32) (s0 s : Arch) (t : Nat)
    (ha : a + 256 * (t + 1) ≤ lim) (hb : b + 256 * (t + 1) ≤ lim)
    (hl : 128 ≤ (s0.x p.rl).toNat) (hcmd : s0.x p.rc = cmd)
    (hI : MatInv p (decide (Spec.bitsAt cmd 21 1 = 1)) (decide (Spec.bitsAt cmd 31 1 = 1)) (Spec.sbitsAt cmd 12 9)
      (Spec.sbitsAt cmd 22 9) (4 * Spec.bitsAt cmd 2 5) (4 * (Spec.bitsAt cmd 7 5 + 1 - Spec.bitsAt cmd 2 5)) a b s0 t s) :
    ∃ s', runAll maxPhys fresh p.body s = .ok s' ∧
      MatInv p (decide (Spec.bitsAt cmd 21 1 = 1)) (decide (Spec.bitsAt cmd 31 1 = 1)) (Spec.sbitsAt cmd 12 9)
      (Spec.sbitsAt cmd 22 9) (4 * Spec.bitsAt cmd 2 5) (4 * (Spec.bitsAt cmd 7 5 + 1 - Spec.bitsAt cmd 2 5)) a b s0
      (t + 1) s' := by
  have ea : a + 256 * (t + 1) = a + 256 * t + 256 := by rw [Nat.mul_succ, Nat.add_assoc]
  have eb : b + 256 * (t + 1) = b + 256 * t + 256 := by rw [Nat.mul_succ, Nat.add_assoc]
  have ha' : a + 256 * t + 256 ≤ lim := ea ▸ ha
  have hb' : b + 256 * t + 256 ≤ lim := eb ▸ hb
  have hr := hp.regs
  simp only [List.nodup_cons, List.mem_cons, List.not_mem_nil, or_false, not_or, not_false_eq_true] at hr
  obtain ⟨⟨n0a, n0b, n0d, n0l, n0c⟩, ⟨nab, nad, nal, nac⟩, ⟨nbd, nbl, nbc⟩, ⟨ndl, ndc⟩, nlc, -⟩ := hr
  have dec : ∀ i ∈ p.body, i.Ok := fun i hi => hp.dec i (List.mem_append_left _ hi)
  obtain ⟨t1, r1, m1, ac1, v1, f1, x1⟩ := load_tile maxPhys fresh (dec p.la0 (by simp [MatProg.body]))
    (dec p.la1 (by simp [MatProg.body])) hp.byte (hp.ld p.la0 (by simp)) (hp.ld p.la1 (by simp)) (r := p.ra) (l := p.rl)
    (v := p.va) (Ne.symm n0a) (Ne.symm n0l) (Ne.symm nal) rfl hp.a1.1 rfl (hp.len p.la1 (by simp)) rfl hp.a1.2 s (a + 256 * t) lim hlim
    ha' hI.xa (by rw [hI.others _ (Ne.symm nal) (Ne.symm nbl)]; exact hl)
  obtain ⟨t2, r2, m2, ac2, v2, f2, x2⟩ := load_tile maxPhys fresh (dec p.lb0 (by simp [MatProg.body]))
    (dec p.lb1 (by simp [MatProg.body])) hp.byte (hp.ld p.lb0 (by simp)) (hp.ld p.lb1 (by simp)) (r := p.rb) (l := p.rl)
    (v := p.vb) (Ne.symm n0b) (Ne.symm n0l) (Ne.symm nbl) rfl hp.b1.1 (hp.len p.lb0 (by simp)) (hp.len p.lb1 (by simp)) rfl hp.b1.2 t1
    (b + 256 * t) lim hlim hb' (by rw [x1, if_neg (Ne.symm nab)]; exact hI.xb)
    (by rw [x1, if_neg (Ne.symm nal), hI.others _ (Ne.symm nal) (Ne.symm nbl)]; exact hl)
  have hx2 : xs2 p.conv.word t2 = cmd := by
    have h5 := fVs2_mod p.conv.word
    have : Spec.bitsAt p.conv.word 20 5 = p.rc := rfl
    rw [this] at h5
    rw [xs2, if_neg (by intro h; rw [h] at h5; exact n0c h5), h5, x2, if_neg (Ne.symm nbc), x1, if_neg (Ne.symm nac),
      hI.others _ (Ne.symm nac) (Ne.symm nbc), hcmd]
  have dconv := dec p.conv (by simp [MatProg.body])
  obtain ⟨n, hn, he⟩ := exec_aconv maxPhys fresh dconv.1 dconv.2.1 hp.conv t2
  have e1 : fVs1 p.conv.word = p.va := (field_eq ..).trans hp.narrow
  have e3 : fVs3 p.conv.word = p.vb := (field_eq ..).trans hp.wide
  obtain ⟨acc', hv, hacc⟩ := vconv_run cmd p.va p.vb t2.v t2.acc hc1 hc2 hc3
  rw [hx2, e1, e3, vconv_len _ _ _ _ hn, hv] at he
  have hrun : p.conv.run maxPhys fresh t2 = .ok { t2 with acc := acc' } := by rw [Inst.run, he]; rfl
  have e12 : p.body = [p.la0, p.la1] ++ ([p.lb0, p.lb1] ++ [p.conv]) := rfl
  refine ⟨{ t2 with acc := acc' }, ?_, ?_, ?_, ?_, ?_, ?_⟩
  · rw [e12, runAll_append, r1, Outcome.ok_bind, runAll_append, r2, Outcome.ok_bind]
    simp only [runAll, hrun, Outcome.ok_bind]
  · show t2.x p.ra = _
    rw [x2, if_neg nab, x1, if_pos rfl, ea]
  · show t2.x p.rb = _
    rw [x2, if_pos rfl, eb]
  · intro q h1 h2
    show t2.x q = _
    rw [x2, if_neg h2, x1, if_neg h1, hI.others q h1 h2]
  · show t2.mem = _
    rw [m2, m1, hI.mem]
  · intro i hi w hw
    show acc' _ _ = _
    rw [hacc i hi w hw, ac2, ac1, hI.acc i hi w hw, matDot_succ, BitVec.ofInt_add, BitVec.add_assoc]
    congr 3
    unfold Spec.convDot
    rw [sum_flat _ 4 (by omega) (fun k b => _ * _)]
    refine sum_congr (fun e he => ?_)
    have hap := hp.apart
    unfold Spec.Apart at hap
    simp only [Spec.biased]
    rw [f2 (p.va + i) (by omega), v1 i hi _ (by omega), v2 (e / 4) (by omega) _ (by omega), m1, hI.mem]
    rw [show a + 256 * t + 32 * i + (4 * (Spec.bitsAt cmd 2 5 + e / 4) + e % 4) = a + 256 * t + 32 * i + (4 * Spec.bitsAt cmd 2 5 + e) from by omega,
      show b + 256 * t + 32 * (e / 4) + (4 * w + e % 4) = b + 256 * t + 32 * (e / 4) + 4 * w + e % 4 from by omega]

theorem mat_times (maxPhys : Nat) (fresh : Nat → VReg) (p : MatProg) (B W : CTy) (hp : p.Ok B W) (cmd : BitVec 32)
    (hc1 : Spec.bitsAt cmd 0 2 = 0) (hc2 : Spec.bitsAt cmd 2 5 ≤ Spec.bitsAt cmd 7 5) (hc3 : Spec.bitsAt cmd 7 5 < 8)
    (a b lim : Nat) (hlim : lim = if maxPhys ≤ 0x3fffff then 2 ^ 31 else 2 ^ 32) (s : Arch)
    (hl : 128 ≤ (s.x p.rl).toNat) (hcmd : s.x p.rc = cmd) (hxa : s.x p.ra = BitVec.ofNat 32 a)
    (hxb : s.x p.rb = BitVec.ofNat 32 b) (K : Nat) (ha : a + 256 * K ≤ lim) (hb : b + 256 * K ≤ lim) :
    ∃ s', times (runAll maxPhys fresh p.body) K s = .ok s' ∧
      MatInv p (decide (Spec.bitsAt cmd 21 1 = 1)) (decide (Spec.bitsAt cmd 31 1 = 1)) (Spec.sbitsAt cmd 12 9)
      (Spec.sbitsAt cmd 22 9) (4 * Spec.bitsAt cmd 2 5) (4 * (Spec.bitsAt cmd 7 5 + 1 - Spec.bitsAt cmd 2 5)) a b s K s' := by
  induction K with
  | zero =>
    refine ⟨s, rfl, hxa, hxb, fun _ _ _ => rfl, rfl, fun i _ w _ => ?_⟩
    show _ = _ + BitVec.ofInt 32 0
    simp
  | succ K ih =>
    obtain ⟨s1, h1, hI⟩ := ih (by omega) (by omega)
    obtain ⟨s2, h2, hI2⟩ := mat_step maxPhys fresh p B W hp cmd hc1 hc2 hc3 a b lim hlim s s1 K ha hb hl hcmd hI
    exact ⟨s2, by rw [times, h1]; exact h2, hI2⟩

/-- The tail: the accumulator goes to memory, row by row, and is cleared. -/
theorem mat_tail (maxPhys : Nat) (fresh : Nat → VReg) (p : MatProg) (B W : CTy) (hp : p.Ok B W) (d lim : Nat)
    (hlim : lim = if maxPhys ≤ 0x3fffff then 2 ^ 31 else 2 ^ 32) (hd : d + 256 ≤ lim) (s : Arch)
    (hl : 128 ≤ (s.x p.rl).toNat) (hx : s.x p.rd = BitVec.ofNat 32 d) :
    ∃ s', runAll maxPhys fresh p.tail s = .ok s' ∧
      (∀ r < 8, ∀ c < 8, Spec.loadLE 4 s'.mem (d + 32 * r + 4 * c) = (s.acc r c).toNat) ∧
      (∀ q, (q < d ∨ d + 256 ≤ q) → s'.mem q = s.mem q) ∧ (∀ r < 8, ∀ c < 8, s'.acc r c = 0) ∧
      (∀ q, s'.x q = if q = p.rd then BitVec.ofNat 32 (d + 256) else s.x q) ∧
      ∀ k t', runAll maxPhys fresh (p.tail.take k) s = .ok t' → ∀ q, (q < d ∨ d + 256 ≤ q) → t'.mem q = s.mem q := by
  have hr := hp.regs
  simp only [List.nodup_cons, List.mem_cons, List.not_mem_nil, or_false, not_or, not_false_eq_true] at hr
  obtain ⟨⟨n0a, n0b, n0d, n0l, n0c⟩, ⟨nab, nad, nal, nac⟩, ⟨nbd, nbl, nbc⟩, ⟨ndl, ndc⟩, nlc, -⟩ := hr
  have hlim32 : lim ≤ 2 ^ 32 := by subst hlim; split <;> decide
  have dec : ∀ i ∈ p.tail, i.Ok := fun i hi => hp.dec i (List.mem_append_right _ hi)
  have hln : Spec.lanes W.bits = 8 := by rw [hp.word]; rfl
  have hsz : W.bits / 8 = 4 := by rw [hp.word]
  have hc : ∀ t : Arch, 128 ≤ (t.x p.rl).toNat →
      min (t.x p.rl).toNat ((if true then 4 else 1) * Spec.lanes W.bits) = 32 := by
    intro t ht
    rw [hln, if_pos rfl]
    omega
  have dget := dec p.get (by simp [MatProg.tail])
  have dst0 := dec p.st0 (by simp [MatProg.tail])
  have dst1 := dec p.st1 (by simp [MatProg.tail])
  have hs0 := hp.st p.st0 (by simp)
  have hs1 := hp.st p.st1 (by simp)
  obtain ⟨rf', hv, hreg, -⟩ := vcget_run p.vd s.v s.acc
  have eg := exec_vcget maxPhys fresh dget.1 hp.get (w := p.get.word) s
  rw [show fVd p.get.word = p.vd from field_eq .., hv] at eg
  obtain ⟨acc0, hacc0⟩ : ∃ acc0 : Acc, acc0 = fun r c => if r < 8 ∧ c < 8 then 0 else s.acc r c := ⟨_, rfl⟩
  obtain ⟨t0, ht0⟩ : ∃ t0 : Arch, t0 = { s with v := rf', acc := acc0 } := ⟨_, rfl⟩
  have r0 : p.get.run maxPhys fresh s = .ok t0 := by rw [Inst.run, eg, ht0, hacc0]; rfl
  have x0 : t0.x = s.x := by rw [ht0]
  have hl1 : Spec.bitsAt p.st0.word 20 5 = p.rl := hp.len p.st0 (by simp)
  have hl2 : Spec.bitsAt p.st1.word 20 5 = p.rl := hp.len p.st1 (by simp)
  obtain ⟨t1, r1, v1, g1, q1, x1⟩ := run_vstLp maxPhys fresh dst0 hs0 (Ne.symm n0d) (by rw [hl1]; exact Ne.symm n0l) t0 d 32
    (by show Spec.effBase maxPhys (t0.x p.rd) = d; rw [x0, hx]; exact effBase_small hlim (by omega))
    (by rw [hl1]; exact hc t0 (by rw [x0]; exact hl)) (by rw [hsz]; omega)
  rw [show Spec.bitsAt p.st0.word 15 5 = p.rd from rfl, x0] at x1
  have x1d : t1.x p.rd = BitVec.ofNat 32 (d + 128) := by rw [x1, if_pos rfl, hsz]
  have x1l : t1.x p.rl = s.x p.rl := by rw [x1, if_neg (Ne.symm ndl)]
  obtain ⟨t2, r2, v2, g2, q2, x2⟩ := run_vstLp maxPhys fresh dst1 hs1 (by rw [hp.d1.1]; exact Ne.symm n0d)
    (by rw [hl2]; exact Ne.symm n0l) t1 (d + 128) 32
    (by rw [hp.d1.1, x1d]; exact effBase_small hlim (by omega))
    (by rw [hl2]; exact hc t1 (by rw [x1l]; exact hl)) (by rw [hsz]; omega)
  have a1 := run_mem_acc (exec_vst maxPhys fresh dst0.1 dst0.2.1 hs0 t0).2 r1
  have a2 := run_mem_acc (exec_vst maxPhys fresh dst1.1 dst1.2.1 hs1 t1).2 r2
  rw [hp.word, hp.d0] at g1
  rw [hp.word, hp.d1.2, v1] at g2
  rw [hsz] at q1 q2 x1 x2
  have hgrp : ∀ r < 8, ∀ c < 8, ((t0.v (p.vd + r)).extractLsb' (c * 32) 32).toNat = (s.acc r c).toNat := by
    intro r hr c hc
    rw [ht0]
    exact congrArg _ (hreg r hr c hc)
  refine ⟨t2, ?_, ?_, ?_, ?_, ?_, ?_⟩
  · show runAll maxPhys fresh [p.get, p.st0, p.st1] s = _
    simp only [runAll, r0, r1, r2, Outcome.ok_bind]
  · intro r hr c hc
    rw [← hgrp r hr c hc]
    rcases Nat.lt_or_ge r 4 with h | h
    · have := g1 (8 * r + c) (by omega)
      rw [Spec.groupNat, show Spec.lanes 32 = 8 from rfl, show (8 * r + c) / 8 = r from by omega,
        show (8 * r + c) % 8 = c from by omega, show d + (8 * r + c) * (32 / 8) = d + 32 * r + 4 * c from by omega] at this
      rw [← this]
      refine loadLE_congr _ _ (fun q h1 h2 => q2 q (by omega))
    · have := g2 (8 * (r - 4) + c) (by omega)
      rw [Spec.groupNat, show Spec.lanes 32 = 8 from rfl, show (8 * (r - 4) + c) / 8 = r - 4 from by omega,
        show (8 * (r - 4) + c) % 8 = c from by omega, show p.vd + 4 + (r - 4) = p.vd + r from by omega,
        show d + 128 + (8 * (r - 4) + c) * (32 / 8) = d + 32 * r + 4 * c from by omega] at this
      exact this
  · intro q hq
    rw [q2 q (by omega), q1 q (by omega), ht0]
  · intro r hr c hc
    rw [a2, a1, ht0, hacc0]
    exact if_pos ⟨hr, hc⟩
  · intro q
    rw [x2, hp.d1.1, x1]
    split <;> rfl
  · intro k t' h q hq
    match k with
    | 0 => cases h; rfl
    | 1 =>
      simp only [MatProg.tail, List.take_succ_cons, List.take_zero, runAll, r0, Outcome.ok_bind, Outcome.ok.injEq] at h
      rw [← h, ht0]
    | 2 =>
      simp only [MatProg.tail, List.take_succ_cons, List.take_zero, runAll, r0, r1, Outcome.ok_bind, Outcome.ok.injEq] at h
      rw [← h, q1 q (by omega), ht0]
    | k + 3 =>
      simp only [MatProg.tail, List.take_succ_cons, List.take_nil, runAll, r0, r1, r2, Outcome.ok_bind, Outcome.ok.injEq] at h
      rw [← h, q2 q (by omega), q1 q (by omega), ht0]

end Verif.Proofs
