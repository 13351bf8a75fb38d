import Verif.Model.KernelDw
import Verif.Props.Conv
import Verif.Props.Kernel
import Verif.Proofs.KernelMat

/-!
# Property C90: a depthwise convolution program

The program of the depthwise unit (`DwProg`, `Verif/Model/KernelDw.lean`): a load, `adwinit`, `adwconv`, `vdwconv` and a
store, executed through the decode table, the operand getters and the semantic functions.
-/

namespace Verif.Props
open Verif Verif.Model Verif.Proofs

/-- The command word of a convolution instruction: the scalar register it names, 0 for `x0`. -/
def tapCmd (i : Inst) (x : Nat → BitVec 32) : BitVec 32 :=
  if Spec.bitsAt i.word 20 5 = 0 then 0 else x (Spec.bitsAt i.word 20 5)

/-- The three products that one convolution instruction adds in lane `e`. -/
def tapSum (i : Inst) (x : Nat → BitVec 32) (rf : VRF) (e : Nat) : Int :=
  Spec.sum 3 (dwProduct (tapCmd i x) (Spec.bitsAt i.word 14 6) (Spec.bitsAt i.word 26 6) rf e)

/-- What a list of convolution instructions adds in lane `e`. -/
def tapsSum (is : List Inst) (x : Nat → BitVec 32) (rf : VRF) (e : Nat) : Int := (is.map fun i => tapSum i x rf e).sum

/-- The state in which the program is entered. -/
structure DwEntry (p : DwProg) (b d : Nat) (s : Arch) : Prop where
  xb : s.x p.rb = BitVec.ofNat 32 b
  xd : s.x p.rd = BitVec.ofNat 32 d
  xl : 32 ≤ (s.x p.rl).toNat
  legal : ∀ i ∈ p.taps, Spec.bitsAt (tapCmd i s.x) 2 2 ≠ 3

theorem dwProduct_congr {cmd : BitVec 32} {vs1 vs3 : Nat} {rf rf' : VRF} (h1 : ∀ k < 9, rf (vs1 + k) = rf' (vs1 + k)) {r : Nat}
    (h3 : rf (vs3 + r) = rf' (vs3 + r)) (e : Nat) : dwProduct cmd vs1 vs3 rf e r = dwProduct cmd vs1 vs3 rf' e r := by
  have hb : Spec.bitsAt cmd 4 4 < 16 := by rw [← field_eq]; exact field_lt cmd 4 4
  have hk : ∀ base < 16, ∀ n < 3, (Spec.dwRegs base).getD n 0 < 9 := by decide +kernel
  unfold dwProduct
  rw [h1 _ (hk _ hb 0 (by decide)), h1 _ (hk _ hb 1 (by decide)), h1 _ (hk _ hb 2 (by decide)), h3]

theorem tapSum_bounds (i : Inst) (x : Nat → BitVec 32) (rf : VRF) (e : Nat) :
    -1000000 ≤ tapSum i x rf e ∧ tapSum i x rf e ≤ 1000000 := by
  have h1 := C34_safe (tapCmd i x) (Spec.bitsAt i.word 14 6) (Spec.bitsAt i.word 26 6) rf e
    (BitVec.ofInt 32 (-2 ^ 31 + 1000000)) (by decide) (by decide) 3 (by decide)
  have h2 := C34_safe (tapCmd i x) (Spec.bitsAt i.word 14 6) (Spec.bitsAt i.word 26 6) rf e
    (BitVec.ofInt 32 (2 ^ 31 - 1000001)) (by decide) (by decide) 3 (by decide)
  rw [show (BitVec.ofInt 32 (-2 ^ 31 + 1000000)).toInt = -2 ^ 31 + 1000000 from by decide] at h1
  rw [show (BitVec.ofInt 32 (2 ^ 31 - 1000001)).toInt = 2 ^ 31 - 1000001 from by decide] at h2
  unfold tapSum
  omega

theorem tapsSum_bounds (is : List Inst) (x : Nat → BitVec 32) (rf : VRF) (e : Nat) :
    -1000000 * (is.length : Int) ≤ tapsSum is x rf e ∧ tapsSum is x rf e ≤ 1000000 * (is.length : Int) := by
  induction is with
  | nil => simp [tapsSum]
  | cons i is ih =>
    have := tapSum_bounds i x rf e
    rw [tapsSum, List.map_cons, List.sum_cons, List.length_cons]
    unfold tapsSum at ih
    push_cast
    omega

/-- One convolution instruction. -/
theorem run_tap (maxPhys : Nat) (fresh : Nat → VReg) {i : Inst} (hi : i.Ok) {wr : Bool} (hs : i.row.sem = .dwconv wr) (s : Arch)
    (hl : Spec.bitsAt (tapCmd i s.x) 2 2 ≠ 3) (c : Nat → BitVec 32) (hc : ∀ q < 32, s.dw q = some (c q))
    (hfit : ∀ e < 32, -2 ^ 31 + 1000000 ≤ (c (dwCell e)).toInt ∧ (c (dwCell e)).toInt < 2 ^ 31 - 1000000) :
    ∃ (rf' : VRF) (dw' : DwAcc) (c' : Nat → BitVec 32), i.run maxPhys fresh s = .ok { s with v := rf', dw := dw' } ∧
      (∀ q < 32, dw' q = some (c' q)) ∧ (∀ e < 32, (c' (dwCell e)).toInt = (c (dwCell e)).toInt + tapSum i s.x s.v e) ∧
      (wr = false → rf' = s.v) ∧
      (wr = true → (∀ k < 4, ∀ e < 8, (rf' (Spec.bitsAt i.word 6 6 + k)).extractLsb' (e * 32) 32 = c' (8 * k + e)) ∧
        Spec.Frame (Spec.bitsAt i.word 6 6) 4 s.v rf') := by
  have he := exec_dwconv maxPhys fresh hi.1 hi.2.1 hs s
  have ex : xr s (fRs2 i.word) = tapCmd i s.x := by
    unfold xr tapCmd
    rw [show fRs2 i.word = Spec.bitsAt i.word 20 5 from field_eq ..]
  obtain ⟨rf', dw', c', h, h1, h2, h3, h4⟩ := C34_dwconv_partial wr (tapCmd i s.x) hl (Spec.bitsAt i.word 14 6)
    (Spec.bitsAt i.word 26 6) (Spec.bitsAt i.word 6 6) s.v s.dw c hc (fun e he => C34_safe _ _ _ _ _ _ (hfit e he).1 (hfit e he).2)
  refine ⟨rf', dw', c', ?_, h1, h2, h3, h4⟩
  rw [ex, show fVs1 i.word = Spec.bitsAt i.word 14 6 from field_eq .., show fVs3 i.word = Spec.bitsAt i.word 26 6 from field_eq ..,
    show fVd i.word = Spec.bitsAt i.word 6 6 from field_eq .., h, Outcome.ok_bind] at he
  rw [Inst.run, he]
  rfl

/-- Any number of `adwconv`. -/
theorem run_taps (maxPhys : Nat) (fresh : Nat → VReg) (is : List Inst) : ∀ (s : Arch) (c : Nat → BitVec 32),
    (∀ i ∈ is, i.Ok ∧ i.row.sem = .dwconv false ∧ Spec.bitsAt (tapCmd i s.x) 2 2 ≠ 3) → (∀ q < 32, s.dw q = some (c q)) →
    (∀ e < 32, -2 ^ 31 + 1000000 * (is.length : Int) ≤ (c (dwCell e)).toInt ∧
      (c (dwCell e)).toInt < 2 ^ 31 - 1000000 * (is.length : Int)) →
    ∃ (dw' : DwAcc) (c' : Nat → BitVec 32), runAll maxPhys fresh is s = .ok { s with dw := dw' } ∧
      (∀ q < 32, dw' q = some (c' q)) ∧ ∀ e < 32, (c' (dwCell e)).toInt = (c (dwCell e)).toInt + tapsSum is s.x s.v e := by
  induction is with
  | nil => exact fun s c _ hc _ => ⟨s.dw, c, rfl, hc, fun e _ => by simp [tapsSum]⟩
  | cons i is ih =>
    intro s c hi hc hfit
    obtain ⟨o, hs, hl⟩ := hi i (by simp)
    rw [List.length_cons] at hfit
    push_cast at hfit
    obtain ⟨rf1, dw1, c1, r1, g1, v1, k1, -⟩ := run_tap maxPhys fresh o hs s hl c hc (fun e he => by have := hfit e he; omega)
    rw [k1 rfl] at r1
    obtain ⟨dw2, c2, r2, g2, v2⟩ := ih { s with dw := dw1 } c1 (fun j hj => hi j (List.mem_cons_of_mem _ hj)) g1
      (fun e he => by have := hfit e he; have := tapSum_bounds i s.x s.v e; rw [v1 e he]; omega)
    refine ⟨dw2, c2, ?_, g2, ?_⟩
    · rw [runAll, r1, Outcome.ok_bind]
      exact r2
    · intro e he
      rw [v2 e he, v1 e he, tapsSum, tapsSum, List.map_cons, List.sum_cons, Int.add_assoc]

/-- C90: for any number of convolution instructions, any contents of memory and registers and any legal commands, the program
leaves in memory, for each of the 32 lanes, its bias plus the sum of three products for each convolution instruction, at the
place of the lane in the accumulator, which is that of its bias. The biases must be a million times the number of convolution
instructions away from the ends of the 32-bit range (what lies beyond may overflow, `C34_overflow_ub`). The result may overwrite
the biases. No other byte of memory changes, the accumulator keeps the result, and of the scalar registers only the two
addresses move. -/
theorem C90_filter (maxPhys : Nat) (fresh : Nat → VReg) (p : DwProg) (W : CTy) (hp : p.Ok W) (b d lim : Nat)
    (hlim : lim = if maxPhys ≤ 0x3fffff then 2 ^ 31 else 2 ^ 32) (hb : b + 128 ≤ lim) (hd : d + 128 ≤ lim) (s : Arch)
    (hs : DwEntry p b d s)
    (hfit : ∀ q < 32, -2 ^ 31 + 1000000 * (p.taps.length : Int) ≤ Spec.memElem true 32 s.mem (b + 4 * q) ∧
      Spec.memElem true 32 s.mem (b + 4 * q) < 2 ^ 31 - 1000000 * (p.taps.length : Int)) :
    ∃ s', runAll maxPhys fresh p.insts s = .ok s' ∧
      (∀ e < 32, Spec.memElem true 32 s'.mem (d + 4 * dwCell e) =
        Spec.memElem true 32 s.mem (b + 4 * dwCell e) + tapsSum p.taps s.x s.v e) ∧
      (∀ q, (q < d ∨ d + 128 ≤ q) → s'.mem q = s.mem q) ∧
      (∀ q < 32, s'.dw q = some (BitVec.ofInt 32 (Spec.memElem true 32 s'.mem (d + 4 * q)))) ∧
      (∀ q, q ≠ p.rb → q ≠ p.rd → s'.x q = s.x q) ∧ s'.x p.rb = BitVec.ofNat 32 (b + 128) ∧
      s'.x p.rd = BitVec.ofNat 32 (d + 128) ∧
      ∀ q, (∀ g ∈ [p.vb, p.vi, p.vd], q < g ∨ g + 4 ≤ q) → s'.v q = s.v q := by
  have hr := hp.regs
  simp only [List.nodup_cons, List.mem_cons, List.not_mem_nil, or_false, not_or, not_false_eq_true] at hr
  obtain ⟨⟨n0b, n0d, n0l⟩, ⟨nbd, nbl⟩, ndl, -⟩ := hr
  have hlim32 : lim ≤ 2 ^ 32 := by subst hlim; split <;> decide
  have hln : Spec.lanes W.bits = 8 := by rw [hp.word]; rfl
  have hsz : W.bits / 8 = 4 := by rw [hp.word]
  have hcnt : ∀ t : Arch, 32 ≤ (t.x p.rl).toNat →
      min (t.x p.rl).toNat ((if true then 4 else 1) * Spec.lanes W.bits) = 32 := by
    intro t ht
    rw [hln, if_pos rfl]
    omega
  have dec := hp.dec
  unfold DwProg.insts at dec
  -- the biases
  obtain ⟨s1, r1, m1, g1, f1, x1⟩ := run_vldLp maxPhys fresh (dec p.ld (by simp)) hp.ld (Ne.symm n0b) (Ne.symm n0l) s b 32
    (by show Spec.effBase maxPhys (s.x p.rb) = b; rw [hs.xb]; exact effBase_small hlim (by omega)) (hcnt s hs.xl) (by rw [hsz]; omega)
  rw [hsz] at g1 x1
  rw [if_pos rfl] at f1
  rw [hp.word] at g1
  change ∀ e < 32, Spec.groupNat 32 s1.v p.vb e = _ at g1
  change Spec.Frame p.vb 4 s.v s1.v at f1
  change ∀ q, s1.x q = if q = p.rb then _ else _ at x1
  -- adwinit
  have dinit := dec p.init (by simp)
  obtain ⟨n, hn, he⟩ := exec_adwinit maxPhys fresh dinit.1 (w := p.init.word)
    ⟨(field_eq ..).trans hp.form.1, (field_eq ..).trans hp.form.2⟩ hp.init s1
  obtain ⟨rf2, dw2, h2, c2, -, f2⟩ := C34_adwinit p.vb p.vi
    (by have h := hp.over; unfold Spec.NoOverlap at h; intro j i hj hi; omega) fresh s1.v s1.dw
  rw [show fVs1 p.init.word = p.vb from (field_eq ..).trans hp.bias, show fVd p.init.word = p.vi from field_eq ..,
    adwinit_len _ _ _ hn, h2, Outcome.ok_bind] at he
  obtain ⟨s2, hs2⟩ : ∃ t : Arch, t = { s1 with v := rf2, dw := dw2 } := ⟨_, rfl⟩
  have r2 : p.init.run maxPhys fresh s1 = .ok s2 := by rw [Inst.run, he, hs2]; rfl
  have hsame : ∀ i ∈ p.taps, tapCmd i s2.x = tapCmd i s.x ∧
      (∀ k < 9, s2.v (Spec.bitsAt i.word 14 6 + k) = s.v (Spec.bitsAt i.word 14 6 + k)) ∧
      (∀ k < 3, s2.v (Spec.bitsAt i.word 26 6 + k) = s.v (Spec.bitsAt i.word 26 6 + k)) := by
    intro i hi
    have hdb := hp.data i hi p.vb (by simp)
    have hdi := hp.data i hi p.vi (by simp)
    unfold Spec.Apart at hdb hdi
    refine ⟨?_, ?_, ?_⟩
    · unfold tapCmd
      rw [hs2]
      show (if _ then _ else s1.x _) = _
      rw [x1, if_neg (hp.cmds i hi)]
    · intro k hk
      rw [hs2]
      show rf2 _ = _
      rw [f2 _ (by omega), f1 _ (by omega)]
    · intro k hk
      rw [hs2]
      show rf2 _ = _
      rw [f2 _ (by omega), f1 _ (by omega)]
  have hsum : ∀ i ∈ p.taps, ∀ e, tapSum i s2.x s2.v e = tapSum i s.x s.v e := by
    intro i hi e
    obtain ⟨e1, e2, e3⟩ := hsame i hi
    unfold tapSum
    rw [e1]
    exact sum_congr (fun r hr => dwProduct_congr e2 (e3 r hr) e)
  have hsums : ∀ e, tapsSum p.taps s2.x s2.v e = tapsSum p.taps s.x s.v e := by
    intro e
    unfold tapsSum
    exact congrArg List.sum (List.map_congr_left (fun i hi => hsum i hi e))
  -- the accumulator after adwinit
  let c : Nat → BitVec 32 := fun q => BitVec.ofNat 32 (Spec.loadLE 4 s.mem (b + 4 * q))
  have hc : ∀ q < 32, s2.dw q = some (c q) := by
    intro q hq
    have := c2 (q / 8) (by omega) (q % 8) (by omega)
    rw [show 8 * (q / 8) + q % 8 = q from by omega] at this
    rw [hs2]
    show dw2 q = _
    rw [this]
    have g := g1 q hq
    unfold Spec.groupNat at g
    rw [show Spec.lanes 32 = 8 from rfl] at g
    show some _ = some (BitVec.ofNat 32 _)
    rw [Nat.mul_comm q 4] at g
    rw [← g, BitVec.ofNat_toNat, BitVec.setWidth_eq]
  have hci : ∀ q, (c q).toInt = Spec.memElem true 32 s.mem (b + 4 * q) := fun q => rfl
  have hcell : ∀ e < 32, dwCell e < 32 := by decide +kernel
  have hlen : p.taps.length = p.convs.length + 1 := by simp [DwProg.taps]
  rw [hlen] at hfit
  push_cast at hfit
  -- the convolutions
  obtain ⟨dw3, c3, r3, g3, v3⟩ := run_taps maxPhys fresh p.convs s2 c
    (fun i hi => by
      have hm : i ∈ p.taps := by simp [DwProg.taps, hi]
      exact ⟨dec i (by simp [hm]), hp.convs i hi, by rw [(hsame i hm).1]; exact hs.legal i hm⟩) hc
    (fun e he => by have := hfit _ (hcell e he); rw [hci]; omega)
  have hmo : p.out ∈ p.taps := by simp [DwProg.taps]
  obtain ⟨rf4, dw4, c4, r4, g4, v4, -, w4⟩ := run_tap maxPhys fresh (dec p.out (by simp [hmo])) hp.out { s2 with dw := dw3 }
    (by show Spec.bitsAt (tapCmd p.out s2.x) 2 2 ≠ 3; rw [(hsame _ hmo).1]; exact hs.legal _ hmo) c3 g3
    (fun e he => by
      have := hfit _ (hcell e he)
      have := tapsSum_bounds p.convs s2.x s2.v e
      rw [v3 e he, hci]
      omega)
  obtain ⟨w4, f4⟩ := w4 rfl
  change Spec.Frame p.vd 4 s2.v rf4 at f4
  obtain ⟨s4, hs4⟩ : ∃ t : Arch, t = { s2 with v := rf4, dw := dw4 } := ⟨_, rfl⟩
  have x4 : s4.x = s1.x := by rw [hs4, hs2]
  have m4 : s4.mem = s.mem := by rw [hs4, hs2]; exact m1
  -- the store
  obtain ⟨s5, r5, v5, g5, q5, x5⟩ := run_vstLp maxPhys fresh (dec p.st (by simp)) hp.st (Ne.symm n0d)
    (by rw [hp.len]; exact Ne.symm n0l) s4 d 32
    (by show Spec.effBase maxPhys (s4.x p.rd) = d; rw [x4, x1, if_neg (Ne.symm nbd), hs.xd]; exact effBase_small hlim (by omega))
    (by rw [hp.len]; exact hcnt s4 (by rw [x4, x1, if_neg (Ne.symm nbl)]; exact hs.xl)) (by rw [hsz]; omega)
  rw [hsz] at g5 q5 x5
  rw [hp.word, hp.result] at g5
  change ∀ q, s5.x q = if q = p.rd then _ else _ at x5
  have hstep : s5.dw = s4.dw := by
    have he := (exec_vst maxPhys fresh (dec p.st (by simp)).1 (dec p.st (by simp)).2.1 hp.st s4).2
    rw [Inst.run, he] at r5
    revert r5
    generalize VMemInst.vst _ _ _ = m
    intro r5
    cases m with
    | ok m => simp only [Outcome.ok_bind] at r5; cases r5; rfl
    | ub => exact nomatch r5
    | abort => exact nomatch r5
  have hword : ∀ q < 32, BitVec.ofNat 32 (Spec.loadLE 4 s5.mem (d + 4 * q)) = c4 q := by
    intro q hq
    have h := g5 q hq
    rw [Spec.groupNat, show Spec.lanes 32 = 8 from rfl, Nat.mul_comm q 4] at h
    rw [h, BitVec.ofNat_toNat, BitVec.setWidth_eq, hs4]
    show (rf4 _).extractLsb' _ _ = _
    rw [show p.vd + q / 8 = Spec.bitsAt p.out.word 6 6 + q / 8 from rfl, w4 (q / 8) (by omega) (q % 8) (by omega),
      show 8 * (q / 8) + q % 8 = q from by omega]
  have hmem : ∀ q < 32, Spec.memElem true 32 s5.mem (d + 4 * q) = (c4 q).toInt := by
    intro q hq
    rw [← hword q hq]; rfl
  refine ⟨s5, ?_, ?_, ?_, ?_, ?_, ?_, ?_, ?_⟩
  · unfold DwProg.insts DwProg.taps
    rw [runAll_append, runAll, r1, Outcome.ok_bind, runAll, r2, Outcome.ok_bind, runAll, Outcome.ok_bind, runAll_append,
      runAll_append, r3, Outcome.ok_bind, runAll, r4, Outcome.ok_bind, runAll, Outcome.ok_bind]
    show runAll maxPhys fresh [p.st] { s2 with v := rf4, dw := dw4 } = _
    rw [← hs4, runAll, r5, Outcome.ok_bind, runAll]
  · intro e he
    rw [hmem _ (hcell e he), v4 e he, v3 e he, hci, ← hsums, Int.add_assoc]
    congr 1
    simp only [tapsSum, DwProg.taps, List.map_append, List.sum_append, List.map_cons, List.map_nil, List.sum_cons, List.sum_nil,
      Int.add_zero]
  · intro q hq
    rw [q5 q (by omega), m4]
  · intro q hq
    rw [hstep, hs4, hmem q hq, BitVec.ofInt_toInt]
    exact g4 q hq
  · intro q h1 h2
    rw [x5, if_neg h2, x4, x1, if_neg h1]
  · rw [x5, if_neg nbd, x4, x1, if_pos rfl]
  · rw [x5, if_pos rfl]
  · intro q hq
    have hb := hq p.vb (by simp)
    have hi := hq p.vi (by simp)
    have hd := hq p.vd (by simp)
    rw [v5, hs4]
    show rf4 q = _
    rw [f4 q hd, hs2]
    show rf2 q = _
    rw [f2 q hi, f1 q hb]

/-- C90: every word of the result belongs to exactly one lane. -/
theorem C90_complete (q : Nat) (hq : q < 32) : ∃ e, (e < 32 ∧ dwCell e = q) ∧ ∀ e' < 32, dwCell e' = q → e' = e := C34_cells q hq

theorem perm_sum {l l' : List Int} (h : l.Perm l') : l.sum = l'.sum := by
  induction h with
  | nil => rfl
  | cons x _ ih => rw [List.sum_cons, List.sum_cons, ih]
  | swap x y l => simp only [List.sum_cons]; omega
  | trans _ _ h1 h2 => exact h1.trans h2

/-- C90: the order of the `adwconv` instructions does not matter: two programs that differ in it only leave the same memory. -/
theorem C90_order (maxPhys : Nat) (fresh : Nat → VReg) (p p' : DwProg) (W : CTy) (hp : p.Ok W) (hp' : p'.Ok W)
    (hld : p'.ld = p.ld) (hst : p'.st = p.st) (hperm : p'.taps.Perm p.taps) (b d lim : Nat)
    (hlim : lim = if maxPhys ≤ 0x3fffff then 2 ^ 31 else 2 ^ 32) (hb : b + 128 ≤ lim) (hd : d + 128 ≤ lim) (s : Arch)
    (hs : DwEntry p b d s)
    (hfit : ∀ q < 32, -2 ^ 31 + 1000000 * (p.taps.length : Int) ≤ Spec.memElem true 32 s.mem (b + 4 * q) ∧
      Spec.memElem true 32 s.mem (b + 4 * q) < 2 ^ 31 - 1000000 * (p.taps.length : Int)) :
    ∃ s1 s2, runAll maxPhys fresh p.insts s = .ok s1 ∧ runAll maxPhys fresh p'.insts s = .ok s2 ∧
      (∀ q < 32, Spec.memElem true 32 s1.mem (d + 4 * q) = Spec.memElem true 32 s2.mem (d + 4 * q)) ∧
      ∀ q, (q < d ∨ d + 128 ≤ q) → s1.mem q = s2.mem q := by
  obtain ⟨s1, r1, v1, f1, -⟩ := C90_filter maxPhys fresh p W hp b d lim hlim hb hd s hs hfit
  obtain ⟨s2, r2, v2, f2, -⟩ := C90_filter maxPhys fresh p' W hp' b d lim hlim hb hd s
    ⟨by unfold DwProg.rb; rw [hld]; exact hs.xb, by unfold DwProg.rd; rw [hst]; exact hs.xd,
      by unfold DwProg.rl; rw [hld]; exact hs.xl, fun i hi => hs.legal i (hperm.mem_iff.1 hi)⟩ (by rw [hperm.length_eq]; exact hfit)
  refine ⟨s1, s2, r1, r2, fun q hq => ?_, fun q hq => by rw [f1 q hq, f2 q hq]⟩
  obtain ⟨e, ⟨he, rfl⟩, -⟩ := C34_cells q hq
  rw [v1 e he, v2 e he]
  congr 1
  exact (perm_sum (hperm.map _)).symm

/-- `vld.w.lp.xx.m v60, x7, x5; adwinit v56, v60; adwconv v48, v0, x10, v16; adwconv v48, v0, x11, v20;
vdwconv v48, v0, x12, v24; vst.w.lp.xx.m v48, x9, x5`: nine taps a lane. -/
def nineTaps : DwProg where
  ld := ⟨⟨[.vld, .w, .lp, .xx, .m], [.vld, .w, .lp, .xx, .m], 3, [⟨26, 6, 5⟩, ⟨12, 2, 2⟩, ⟨5, 1, 1⟩, ⟨2, 3, 7⟩, ⟨0, 2, 3⟩],
    [⟨20, 6, 0⟩], [.vs1, .vs2], [.vs1, .vd], .vld .i32 true false true true true⟩, 0x1453af3f#32⟩
  init := ⟨⟨[.adwinit], [.adwinit, .v], 3, [⟨26, 6, 18⟩, ⟨20, 6, 0⟩, ⟨14, 2, 0⟩, ⟨12, 2, 0⟩, ⟨5, 1, 0⟩, ⟨6, 2, 0⟩], [], [.vs1], [.vd],
    .adwinit⟩, 0x480f0e06#32⟩
  convs := [⟨convRow, 0x42a02c15#32⟩, ⟨convRow, 0x52b02c15#32⟩]
  out := ⟨⟨[.vdwconv, .vxv], [.adwconv, .vxv], 2, [⟨12, 2, 2⟩, ⟨3, 2, 2⟩, ⟨6, 2, 0⟩, ⟨25, 1, 0⟩, ⟨5, 1, 0⟩, ⟨0, 3, 5⟩], [],
    [.vs1, .rs2, .vs3], [.vd], .dwconv true⟩, 0x60c02c15#32⟩
  st := ⟨⟨[.vst, .w, .lp, .xx, .m], [.vst, .w, .lp, .xx, .m], 3, [⟨26, 6, 13⟩, ⟨12, 2, 2⟩, ⟨5, 1, 1⟩, ⟨2, 3, 7⟩, ⟨0, 2, 3⟩],
    [⟨20, 6, 0⟩], [.vd, .vs1, .vs2], [.vs1], .vst .i32 true false true true true⟩, 0x3454ac3f#32⟩
where
  convRow : Row := ⟨[.adwconv, .vxv], [.adwconv, .vxv], 2, [⟨12, 2, 2⟩, ⟨3, 2, 2⟩, ⟨6, 2, 0⟩, ⟨25, 1, 1⟩, ⟨5, 1, 0⟩, ⟨0, 3, 5⟩], [],
    [.vs1, .rs2, .vs3], [.vd], .dwconv false⟩

set_option maxRecDepth 100000 in
theorem nineTaps_ok : nineTaps.Ok .i32 where
  dec := fun i hi => decodesB_ok (List.all_eq_true.1 (by decide +kernel : nineTaps.insts.all decodesB = true) i hi)
  word := rfl
  ld := rfl
  init := rfl
  form := by decide +kernel
  convs := by intro i hi; simp only [nineTaps, List.mem_cons, List.not_mem_nil, or_false] at hi; rcases hi with h | h <;> subst h <;> rfl
  out := rfl
  st := rfl
  len := by decide +kernel
  bias := by decide +kernel
  over := .inl (by decide +kernel)
  result := by decide +kernel
  regs := by decide +kernel
  cmds := by decide +kernel
  data := by
    have : nineTaps.taps.all (fun i => [nineTaps.vb, nineTaps.vi].all fun g =>
        decide (Spec.bitsAt i.word 14 6 + 9 ≤ g) && decide (Spec.bitsAt i.word 26 6 + 3 ≤ g)) = true := by decide +kernel
    intro i hi g hg
    have h := List.all_eq_true.1 (List.all_eq_true.1 this i hi) g hg
    simp only [Bool.and_eq_true, decide_eq_true_eq] at h
    exact ⟨.inl h.1, .inl h.2⟩

/-- The state of the example: biases at 0x1000, the result at 0x2000, activations 200 (read as signed: -56) in `v0` to `v8`,
weights 3 elsewhere, the accumulator uninitialised; the activations of the three instructions are taken from the register bases 0, 3 and 6. -/
def nineTapsState : Arch where
  x := fun n => [0, 0, 0, 0, 0, 32#32, 0, 0x1000#32, 0, 0x2000#32, 0x00200000#32, 0x00200030#32, 0x00200060#32].getD n 0
  v := fun q => if q < 9 then BitVec.ofNat 256 (200 * ((2 ^ 256 - 1) / 255)) else BitVec.ofNat 256 (3 * ((2 ^ 256 - 1) / 255))
  mem := fun q => if q = 0x1000 + 4 * 9 then 100#8 else 0
  acc := fun _ _ => 0
  dw := fun _ => none

set_option maxRecDepth 100000 in
/-- Nine taps of -56 * 3 in lane 5, whose accumulator word, the number 17, has the bias 0, and in lane 6, whose word is 9, with
bias 100. -/
example (fresh : Nat → VReg) :
    ∃ s', runAll 0x3fffff fresh nineTaps.insts nineTapsState = .ok s' ∧
      Spec.memElem true 32 s'.mem (0x2000 + 4 * 17) = 9 * (-56 * 3) ∧
      Spec.memElem true 32 s'.mem (0x2000 + 4 * 9) = 9 * (-56 * 3) + 100 ∧ s'.x 9 = 0x2080#32 := by
  obtain ⟨s', h, hv, -, -, -, -, hd, -⟩ := C90_filter 0x3fffff fresh nineTaps .i32 nineTaps_ok 0x1000 0x2000 _ rfl (by decide)
    (by decide) nineTapsState ⟨by decide +kernel, by decide +kernel, by decide +kernel, by decide +kernel⟩ (by decide +kernel)
  refine ⟨s', h, (hv 5 (by decide)).trans ?_, (hv 6 (by decide)).trans ?_, hd⟩
  · decide +kernel
  · decide +kernel

end Verif.Props
