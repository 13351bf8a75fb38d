import Verif.Proofs.KernelMat
import Verif.Props.Conv
import Verif.Props.Kernel

/-!
# Property C89: a matrix product program

The program of the convolution unit (`MatProg`, `Verif/Model/KernelMat.lean`): loads, `aconv`, `vcget` and stores, executed
through the decode table, the operand getters and the semantic functions.
-/

namespace Verif.Props
open Verif Verif.Model Verif.Proofs

/-- The state in which the program is entered: the two matrices at `a` and `b`, the result at `d`, the command `cmd`, and a
length of at least 128. -/
structure MatEntry (p : MatProg) (a b d : Nat) (cmd : BitVec 32) (s : Arch) : Prop where
  xa : s.x p.ra = BitVec.ofNat 32 a
  xb : s.x p.rb = BitVec.ofNat 32 b
  xd : s.x p.rd = BitVec.ofNat 32 d
  xc : s.x p.rc = cmd
  xl : 128 ≤ (s.x p.rl).toNat

/-- The cell of row `i` and column `w` of the product of the matrices at `a` and `b`, under the command `cmd`. -/
def matCell (cmd : BitVec 32) (mem : Nat → BitVec 8) (a b K i w : Nat) : Int :=
  Spec.matDot (decide (Spec.bitsAt cmd 21 1 = 1)) (decide (Spec.bitsAt cmd 31 1 = 1)) (Spec.sbitsAt cmd 12 9)
    (Spec.sbitsAt cmd 22 9) (4 * Spec.bitsAt cmd 2 5) (4 * (Spec.bitsAt cmd 7 5 + 1 - Spec.bitsAt cmd 2 5)) mem a b i w K

/-- C89: for any number of tiles and any contents of memory, the program leaves the product of the two matrices in memory:
the 64 words of the result are the words of the accumulator on entry plus the cells of the product, modulo 2^32, each at the
place of its accumulator cell. No other byte of memory changes (the result may overwrite the sources: they have all been
read), the accumulator is cleared, and of the scalar registers only the three addresses move. -/
theorem C89_product (maxPhys : Nat) (fresh : Nat → VReg) (p : MatProg) (B W : CTy) (hp : p.Ok B W) (cmd : BitVec 32)
    (hc : ConvLegal cmd) (a b d K lim : Nat) (hlim : lim = if maxPhys ≤ 0x3fffff then 2 ^ 31 else 2 ^ 32)
    (ha : a + 256 * K ≤ lim) (hb : b + 256 * K ≤ lim) (hd : d + 256 ≤ lim) (s : Arch) (hs : MatEntry p a b d cmd s) :
    ∃ s', p.run maxPhys fresh K s = .ok s' ∧
      (∀ i < 8, ∀ w < 8, Spec.loadLE 4 s'.mem (d + 32 * Spec.cellRow i w + 4 * Spec.cellCol i w) =
        (s.acc (Spec.cellRow i w) (Spec.cellCol i w) + BitVec.ofInt 32 (matCell cmd s.mem a b K i w)).toNat) ∧
      (∀ q, (q < d ∨ d + 256 ≤ q) → s'.mem q = s.mem q) ∧ (∀ r < 8, ∀ c < 8, s'.acc r c = 0) ∧
      MatEntry p (a + 256 * K) (b + 256 * K) (d + 256) cmd s' ∧
      ∀ q, q ∉ [p.ra, p.rb, p.rd] → s'.x q = s.x q := by
  have hr := hp.regs
  simp only [List.nodup_cons, List.mem_cons, List.not_mem_nil, or_false, not_or, not_false_eq_true] at hr
  obtain ⟨-, ⟨nab, nad, nal, nac⟩, ⟨nbd, nbl, nbc⟩, ⟨ndl, ndc⟩, nlc, -⟩ := hr
  obtain ⟨s1, h1, hI⟩ := mat_times maxPhys fresh p B W hp cmd hc.1 hc.2.1 hc.2.2 a b lim hlim s hs.xl hs.xc hs.xa hs.xb K ha hb
  have hoth := hI.others
  obtain ⟨s2, h2, hm, hf, hz, hx, -⟩ := mat_tail maxPhys fresh p B W hp d lim hlim hd s1
    (by rw [hoth _ (Ne.symm nal) (Ne.symm nbl)]; exact hs.xl) (by rw [hoth _ (Ne.symm nad) (Ne.symm nbd)]; exact hs.xd)
  have hcells : ∀ i < 8, ∀ w < 8, Spec.cellRow i w < 8 ∧ Spec.cellCol i w < 8 := by decide +kernel
  refine ⟨s2, by rw [MatProg.run, h1, Outcome.ok_bind, h2], ?_, ?_, hz, ⟨?_, ?_, ?_, ?_, ?_⟩, ?_⟩
  · intro i hi w hw
    rw [hm _ (hcells i hi w hw).1 _ (hcells i hi w hw).2, hI.acc i hi w hw]
    rfl
  · intro q hq
    rw [hf q hq, hI.mem]
  · rw [hx, if_neg nad, hI.xa]
  · rw [hx, if_neg nbd, hI.xb]
  · rw [hx, if_pos rfl]
  · rw [hx, if_neg (Ne.symm ndc), hoth _ (Ne.symm nac) (Ne.symm nbc), hs.xc]
  · rw [hx, if_neg (Ne.symm ndl), hoth _ (Ne.symm nal) (Ne.symm nbl)]; exact hs.xl
  · intro q hq
    simp only [List.mem_cons, List.not_mem_nil, or_false, not_or] at hq
    rw [hx, if_neg hq.2.2, hoth q hq.1 hq.2.1]

/-- C89: every word of the result is the cell of exactly one row and column of the product. -/
theorem C89_complete (d q : Nat) (h1 : d ≤ q) (h2 : q < d + 256) (h3 : (q - d) % 4 = 0) :
    ∃ i w, (i < 8 ∧ w < 8 ∧ d + 32 * Spec.cellRow i w + 4 * Spec.cellCol i w = q) ∧
      ∀ i' < 8, ∀ w' < 8, d + 32 * Spec.cellRow i' w' + 4 * Spec.cellCol i' w' = q → i' = i ∧ w' = w := by
  obtain ⟨i, w, ⟨hi, hw, e1, e2⟩, hu⟩ := C31_cells ((q - d) / 32) ((q - d) % 32 / 4) (by omega) (by omega)
  have hcells : ∀ i < 8, ∀ w < 8, Spec.cellRow i w < 8 ∧ Spec.cellCol i w < 8 := by decide +kernel
  refine ⟨i, w, ⟨hi, hw, by rw [e1, e2]; omega⟩, fun i' hi' w' hw' h => hu i' hi' w' hw' ?_ ?_⟩
  all_goals
    have := hcells i' hi' w' hw'
    omega

/-- C89: the program may be run again at once. The accumulator has been cleared, so the second result is the product alone,
of the matrices that follow the first two in memory, and the first result is still in its place if the second does not
reach it. -/
theorem C89_again (maxPhys : Nat) (fresh : Nat → VReg) (p : MatProg) (B W : CTy) (hp : p.Ok B W) (cmd : BitVec 32)
    (hc : ConvLegal cmd) (a b d K lim : Nat) (hlim : lim = if maxPhys ≤ 0x3fffff then 2 ^ 31 else 2 ^ 32)
    (ha : a + 256 * (K + K) ≤ lim) (hb : b + 256 * (K + K) ≤ lim) (hd : d + 512 ≤ lim)
    (hda : d + 256 ≤ a ∨ a + 256 * (K + K) ≤ d) (hdb : d + 256 ≤ b ∨ b + 256 * (K + K) ≤ d)
    (s : Arch) (hs : MatEntry p a b d cmd s) (hz : ∀ r < 8, ∀ c < 8, s.acc r c = 0) :
    ∃ s1 s2, p.run maxPhys fresh K s = .ok s1 ∧ p.run maxPhys fresh K s1 = .ok s2 ∧
      ∀ i < 8, ∀ w < 8,
        Spec.loadLE 4 s2.mem (d + 32 * Spec.cellRow i w + 4 * Spec.cellCol i w) =
          (BitVec.ofInt 32 (matCell cmd s.mem a b K i w)).toNat ∧
        Spec.loadLE 4 s2.mem (d + 256 + 32 * Spec.cellRow i w + 4 * Spec.cellCol i w) =
          (BitVec.ofInt 32 (matCell cmd s.mem (a + 256 * K) (b + 256 * K) K i w)).toNat := by
  obtain ⟨s1, r1, m1, f1, z1, e1, -⟩ := C89_product maxPhys fresh p B W hp cmd hc a b d K lim hlim (by omega) (by omega)
    (by omega) s hs
  obtain ⟨s2, r2, m2, f2, -, -, -⟩ := C89_product maxPhys fresh p B W hp cmd hc (a + 256 * K) (b + 256 * K) (d + 256) K lim hlim
    (by omega) (by omega) (by omega) s1 e1
  have hcells : ∀ i < 8, ∀ w < 8, Spec.cellRow i w < 8 ∧ Spec.cellCol i w < 8 := by decide +kernel
  refine ⟨s1, s2, r1, r2, fun i hi w hw => ⟨?_, ?_⟩⟩
  · have := hcells i hi w hw
    rw [loadLE_congr (m' := s1.mem) _ _ (fun q h1 h2 => f2 q (by omega)), m1 i hi w hw, hz _ this.1 _ this.2, show (0 : BitVec 32) = 0#32 from rfl, BitVec.zero_add]
  · rw [m2 i hi w hw, z1 _ (hcells i hi w hw).1 _ (hcells i hi w hw).2, show (0 : BitVec 32) = 0#32 from rfl, BitVec.zero_add]
    refine congrArg (fun x => (BitVec.ofInt 32 x).toNat) ?_
    unfold matCell Spec.matDot
    refine sum_congr (fun t ht => sum_congr (fun n hn => ?_))
    have hn' : n < 32 - 4 * Spec.bitsAt cmd 2 5 := by have := hc.2; omega
    rw [memElem_congr (m := s1.mem) (m' := s.mem) (fun q h1 h2 => f1 q (by omega)),
      memElem_congr (m := s1.mem) (m' := s.mem) (fun q h1 h2 => f1 q (by omega))]

/-- `vld.b.lp.xx.m v0, x7, x5; vld.b.lp.xx.m v4, x7, x5; vld.b.lp.xx.m v16, x8, x5; vld.b.lp.xx.m v20, x8, x5;
aconv.vxv v48, v0, x6, v16`, and after the tiles `vcget v48; vst.w.lp.xx.m v48, x9, x5; vst.w.lp.xx.m v52, x9, x5`. -/
def matBytes : MatProg where
  la0 := ⟨ldRow, 0x1453803f#32⟩
  la1 := ⟨ldRow, 0x1453813f#32⟩
  lb0 := ⟨ldRow, 0x1454043f#32⟩
  lb1 := ⟨ldRow, 0x1454053f#32⟩
  conv := ⟨⟨[.aconv, .vxv], [.aconv, .vxv], 2, [⟨12, 2, 2⟩, ⟨3, 2, 0⟩, ⟨6, 6, 48⟩, ⟨14, 4, 0⟩, ⟨26, 3, 0⟩, ⟨5, 1, 0⟩, ⟨0, 3, 5⟩],
    [⟨20, 6, 0⟩], [.vs1, .vs2, .vs3], [.vd], .aconv⟩, 0x40602c05#32⟩
  get := ⟨⟨[.vcget], [.vcget], 3, [⟨26, 6, 20⟩, ⟨20, 6, 0⟩, ⟨14, 6, 0⟩, ⟨6, 6, 48⟩, ⟨2, 3, 7⟩, ⟨0, 2, 3⟩], [], [], [.vd], .vcget⟩,
    0x50000c1f#32⟩
  st0 := ⟨stRow, 0x3454ac3f#32⟩
  st1 := ⟨stRow, 0x3454ad3f#32⟩
where
  ldRow : Row := ⟨[.vld, .b, .lp, .xx, .m], [.vld, .b, .lp, .xx, .m], 3, [⟨26, 6, 5⟩, ⟨12, 2, 0⟩, ⟨5, 1, 1⟩, ⟨2, 3, 7⟩, ⟨0, 2, 3⟩],
    [⟨20, 6, 0⟩], [.vs1, .vs2], [.vs1, .vd], .vld .i8 true false true true true⟩
  stRow : Row := ⟨[.vst, .w, .lp, .xx, .m], [.vst, .w, .lp, .xx, .m], 3, [⟨26, 6, 13⟩, ⟨12, 2, 2⟩, ⟨5, 1, 1⟩, ⟨2, 3, 7⟩, ⟨0, 2, 3⟩],
    [⟨20, 6, 0⟩], [.vd, .vs1, .vs2], [.vs1], .vst .i32 true false true true true⟩

set_option maxRecDepth 100000 in
theorem matBytes_ok : matBytes.Ok .i8 .i32 where
  dec := fun i hi => decodesB_ok (List.all_eq_true.1
    (by decide +kernel : (matBytes.body ++ matBytes.tail).all decodesB = true) i hi)
  ld := by intro i hi; simp only [List.mem_cons, List.not_mem_nil, or_false] at hi; rcases hi with h | h | h | h <;> subst h <;> rfl
  conv := rfl
  get := rfl
  st := by intro i hi; simp only [List.mem_cons, List.not_mem_nil, or_false] at hi; rcases hi with h | h <;> subst h <;> rfl
  byte := rfl
  word := rfl
  len := by decide +kernel
  a1 := by decide +kernel
  b1 := by decide +kernel
  d1 := by decide +kernel
  d0 := by decide +kernel
  narrow := by decide +kernel
  wide := by decide +kernel
  regs := by decide +kernel
  apart := .inl (by decide +kernel)

/-- Three tiles (a product of 8 x 96 and 96 x 8 bytes) at 0x1000 and 0x2000, steps 0 to 7, the left matrix signed and full of
-2 with bias 1, the right matrix unsigned with the byte 200 everywhere but the biased 201 in the second byte of column 3:
cell (5, 3), at row 7 and column 2 of the result, is -96 * 200 - 1. -/
example (fresh : Nat → VReg) (s : Arch) (h5 : s.x 5 = 128#32) (h6 : s.x 6 = 0x00201380#32) (h7 : s.x 7 = 0x1000#32)
    (h8 : s.x 8 = 0x2000#32) (h9 : s.x 9 = 0x3000#32) (hz : ∀ r c, s.acc r c = 0)
    (hm : s.mem = fun q => if q < 0x2000 then 254#8 else if q = 0x200d then 201#8 else 200#8) :
    ∃ s', matBytes.run 0x3fffff fresh 3 s = .ok s' ∧
      Spec.loadLE 4 s'.mem (0x3000 + 32 * 7 + 4 * 2) = 2 ^ 32 - (96 * 200 + 1) ∧ s'.x 7 = 0x1300#32 := by
  obtain ⟨s', h, hv, -, -, he, -⟩ := C89_product 0x3fffff fresh matBytes .i8 .i32 matBytes_ok 0x00201380#32 (by decide) 0x1000
    0x2000 0x3000 3 _ rfl (by decide) (by decide) (by decide) s ⟨h7, h8, h9, h6, by
      rw [show matBytes.rl = 5 from by decide +kernel, h5]; decide⟩
  refine ⟨s', h, ?_, he.xa⟩
  have := hv 5 (by decide) 3 (by decide)
  rw [hz, hm] at this
  exact this.trans (by decide +kernel)

end Verif.Props
