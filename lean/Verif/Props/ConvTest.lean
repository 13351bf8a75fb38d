import Verif.Props.Conv
import Verif.Spec.ConvTest

/-!
# C118: the repository's convolution test passes for every data

The test of the convolution instructions fills registers with constants and ascending bytes and compares
the accumulators (and the destination registers) with the values these produce.  Here the comparisons are
proved for arbitrary data in the layout of the test.
-/

namespace Verif.Props.ConvTest
open Verif Verif.Model Verif.Proofs Verif.Spec.ConvTest

/-- Value of a byte of the data (`sdata1` is bit 21 of the command) or of a filter (`sdata2`, bit 31). -/
def byteVal (cmd : BitVec 32) (bit : Nat) (b : BitVec 8) : Int :=
  Spec.value (decide (Spec.bitsAt cmd bit 1 = 1)) 8 b

/-- What the test expects to be added at element `i`. -/
def expected (cmd : BitVec 32) (p c n : Nat → BitVec 8) (f : Nat → Nat → BitVec 8) (i : Nat) : Int :=
  Spec.sum 3 fun r => (byteVal cmd 21 (tap (Spec.bitsAt cmd 2 2) p c n r i) + Spec.sbitsAt cmd 12 9) *
    (byteVal cmd 31 (f r i) + Spec.sbitsAt cmd 22 9)

theorem cell_place : ∀ i < 32, place i < 32 ∧ dwCell (place i) = i ∧ place i / 4 = i % 8 ∧
    place i % 4 = Spec.swap12 (i / 8) := by decide +kernel

theorem place_word : ∀ i < 32, ∀ k < 8, place (8 * (i / 8) + k) = 4 * k + Spec.swap12 (i / 8) := by decide +kernel

/-- Byte `swap12 (i / 8)` of word `k` of a register that holds `x` is element `k` of the group of `i`. -/
theorem word_byte {v : BitVec 256} {x : Nat → BitVec 8} (h : Holds v x) (i : Nat) (hi : i < 32) (k : Nat) (hk : k < 8) :
    ((v.extractLsb' (k * 32) 32).extractLsb' (Spec.swap12 (i / 8) * 8) 8) = x (8 * (i / 8) + k) := by
  have hs : Spec.swap12 (i / 8) < 4 := by
    have : ∀ j < 4, Spec.swap12 j < 4 := by decide
    exact this _ (by omega)
  rw [← h (8 * (i / 8) + k) (by omega), place_word i hi k hk]
  apply BitVec.eq_of_getLsbD_eq
  intro j hj
  simp only [BitVec.getLsbD_extractLsb', hj, decide_true, Bool.true_and]
  rw [show decide (Spec.swap12 (i / 8) * 8 + j < 32) = true by simp; omega, Bool.true_and]
  congr 1
  omega

theorem tap_eq (cmd : BitVec 32) (h : Spec.bitsAt cmd 2 2 ≠ 3) (v0 v1 v2 : BitVec 256) (p c n : Nat → BitVec 8)
    (hp : Holds v0 p) (hc : Holds v1 c) (hn : Holds v2 n) (i : Nat) (hi : i < 32) (r : Nat) (hr : r < 3) :
    (Spec.dwWord (Spec.bitsAt cmd 2 2) v0 v1 v2 r (i % 8)).extractLsb' (Spec.swap12 (i / 8) * 8) 8 =
      tap (Spec.bitsAt cmd 2 2) p c n r i := by
  have hb : Spec.bitsAt cmd 2 2 < 4 := by rw [← field_eq]; exact field_lt cmd 2 2
  have hb : Spec.bitsAt cmd 2 2 = 0 ∨ Spec.bitsAt cmd 2 2 = 1 ∨ Spec.bitsAt cmd 2 2 = 2 := by omega
  have hm : i % 8 < 8 := Nat.mod_lt _ (by decide)
  have hr : r = 0 ∨ r = 1 ∨ r = 2 := by omega
  have key : ∀ (rs : List (BitVec 256)) (q : Nat) (v : BitVec 256) (x : Nat → BitVec 8) (d : Nat),
      rs.getD (q / 8) 0 = v → Holds v x → d = 8 * (i / 8) + q % 8 →
      (Spec.catWord rs q).extractLsb' (Spec.swap12 (i / 8) * 8) 8 = x d := by
    intro rs q v x d h1 h2 h3
    rw [Spec.catWord, h1, h3]
    exact word_byte h2 i hi _ (Nat.mod_lt _ (by decide))
  rcases hb with hb | hb | hb <;> rcases hr with rfl | rfl | rfl <;> rw [hb] <;> simp only [Spec.dwWord, tap]
  · exact key _ _ v0 p _ (by rw [show (8 * 0 + i % 8) / 8 = 0 by omega]; rfl) hp (by omega)
  · exact key _ _ v1 c _ (by rw [show (8 * 1 + i % 8) / 8 = 1 by omega]; rfl) hc (by omega)
  · exact key _ _ v2 n _ (by rw [show (8 * 2 + i % 8) / 8 = 2 by omega]; rfl) hn (by omega)
  · split
    · exact key _ _ v0 p _ (by rw [show (7 + 0 + i % 8) / 8 = 0 by omega]; rfl) hp (by omega)
    · exact key _ _ v1 c _ (by rw [show (7 + 0 + i % 8) / 8 = 1 by omega]; rfl) hc (by omega)
  · exact key _ _ v1 c _ (by rw [show (7 + 1 + i % 8) / 8 = 1 by omega]; rfl) hc (by omega)
  · split
    · exact key _ _ v2 n _ (by rw [show (7 + 2 + i % 8) / 8 = 2 by omega]; rfl) hn (by omega)
    · exact key _ _ v1 c _ (by rw [show (7 + 2 + i % 8) / 8 = 1 by omega]; rfl) hc (by omega)
  · exact key _ _ v0 p _ (by rw [show (0 + i % 8) / 8 = 0 by omega]; rfl) hp (by omega)
  · split
    · exact key _ _ v1 c _ (by rw [show (1 + i % 8) / 8 = 1 by omega]; rfl) hc (by omega)
    · exact key _ _ v0 p _ (by rw [show (1 + i % 8) / 8 = 0 by omega]; rfl) hp (by omega)
  · split
    · exact key _ _ v1 c _ (by rw [show (2 + i % 8) / 8 = 1 by omega]; rfl) hc (by omega)
    · exact key _ _ v0 p _ (by rw [show (2 + i % 8) / 8 = 0 by omega]; rfl) hp (by omega)

/-- The test gives the instruction three filter registers instead of four. -/
theorem vdwconv_len3 (writeAcc : Bool) (cmd : BitVec 32) (vs1 len1 vs3 vd vdLen : Nat) (rf : VRF) (acc : DwAcc) :
    vdwconv writeAcc cmd vs1 len1 vs3 3 vd vdLen rf acc = vdwconv writeAcc cmd vs1 len1 vs3 4 vd vdLen rf acc := by
  unfold vdwconv
  simp

/-- C118: for every legal command word and every data and filters in the layout of the test, the
accumulator word of every element grows by the value the test expects, and with `kWriteAcc` the
destination registers hold the accumulator in order, while no other register changes; without it, no
register changes. The accumulator may start with anything not too close to the ends of the range. -/
theorem C118_dwconv (writeAcc : Bool) (cmd : BitVec 32) (h : Spec.bitsAt cmd 2 2 ≠ 3) (vs1 vs3 vd : Nat) (rf : VRF)
    (p c n : Nat → BitVec 8) (f : Nat → Nat → BitVec 8)
    (hp : Holds (rf (vs1 + (Spec.dwRegs (Spec.bitsAt cmd 4 4)).getD 0 0)) p)
    (hc : Holds (rf (vs1 + (Spec.dwRegs (Spec.bitsAt cmd 4 4)).getD 1 0)) c)
    (hn : Holds (rf (vs1 + (Spec.dwRegs (Spec.bitsAt cmd 4 4)).getD 2 0)) n)
    (hf : ∀ r < 3, Holds (rf (vs3 + r)) (f r))
    (a : Nat → BitVec 32) (ha : ∀ i < 32, -2 ^ 31 + 1000000 ≤ (a i).toInt ∧ (a i).toInt < 2 ^ 31 - 1000000) :
    ∃ (rf' : VRF) (acc' : DwAcc) (a' : Nat → BitVec 32),
      vdwconv writeAcc cmd vs1 9 vs3 3 vd 4 rf (fun q => some (a q)) = .ok (false, rf', acc') ∧
      (∀ i < 32, acc' i = some (a' i) ∧ (a' i).toInt = (a i).toInt + expected cmd p c n f i) ∧
      (writeAcc = false → rf' = rf) ∧
      (writeAcc = true → (∀ i < 32, (rf' (vd + i / 8)).extractLsb' (i % 8 * 32) 32 = a' i) ∧
        Spec.Frame vd 4 rf rf') := by
  have hcell : ∀ i < 32, dwCell i < 32 := by decide +kernel
  obtain ⟨rf', acc', a', h1, h2, h3, h4, h5⟩ := C34_dwconv_partial writeAcc cmd h vs1 vs3 vd rf (fun q => some (a q)) a
    (fun _ _ => rfl) (fun i hi => C34_safe cmd vs1 vs3 rf i (a (dwCell i)) (ha _ (hcell i hi)).1 (ha _ (hcell i hi)).2)
  refine ⟨rf', acc', a', (vdwconv_len3 ..).trans h1, ?_, h4, ?_⟩
  · intro i hi
    refine ⟨h2 i hi, ?_⟩
    obtain ⟨c1, c2, c3, c4⟩ := cell_place i hi
    have := h3 (place i) c1
    rw [c2] at this
    rw [this]
    congr 1
    have hprod : ∀ r < 3, dwProduct cmd vs1 vs3 rf (place i) r =
        (byteVal cmd 21 (tap (Spec.bitsAt cmd 2 2) p c n r i) + Spec.sbitsAt cmd 12 9) *
          (byteVal cmd 31 (f r i) + Spec.sbitsAt cmd 22 9) := by
      intro r hr
      unfold dwProduct Spec.wordByte Spec.biased byteVal Spec.lane
      rw [c3, c4, tap_eq cmd h _ _ _ p c n hp hc hn i hi r hr, hf r hr i hi]
    simp only [expected, Spec.sum, List.range, List.range.loop, List.map_cons, List.map_nil]
    rw [hprod 0 (by decide), hprod 1 (by decide), hprod 2 (by decide)]
  · intro hw
    refine ⟨fun i hi => ?_, (h5 hw).2⟩
    have := (h5 hw).1 (i / 8) (by omega) (i % 8) (by omega)
    rw [this]
    congr 1
    omega

/-- C118: when the other two filters cancel their bias everywhere, as in every case of the test, the
expected value is the one remaining product. -/
theorem C118_single (cmd : BitVec 32) (p c n : Nat → BitVec 8) (f : Nat → Nat → BitVec 8) (k : Nat) (hk : k < 3) (i : Nat)
    (h0 : ∀ r < 3, r ≠ k → byteVal cmd 31 (f r i) + Spec.sbitsAt cmd 22 9 = 0) :
    expected cmd p c n f i = (byteVal cmd 21 (tap (Spec.bitsAt cmd 2 2) p c n k i) + Spec.sbitsAt cmd 12 9) *
      (byteVal cmd 31 (f k i) + Spec.sbitsAt cmd 22 9) := by
  simp only [expected, Spec.sum, List.range, List.range.loop, List.map_cons, List.map_nil, List.sum_cons, List.sum_nil]
  have hk : k = 0 ∨ k = 1 ∨ k = 2 := by omega
  rcases hk with rfl | rfl | rfl
  · rw [h0 1 (by decide) (by decide), h0 2 (by decide) (by decide)]; simp
  · rw [h0 0 (by decide) (by decide), h0 2 (by decide) (by decide)]; simp
  · rw [h0 0 (by decide) (by decide), h0 1 (by decide) (by decide)]; simp

/-- The values of `VDwconvSparsity1`, first case (test.cc 474-491): 42 at the start of every group of eight, and
otherwise the element to the left. -/
example (i : Nat) (hi : i < 32) : expected 4#32 (fun _ => 42) (fun i => BitVec.ofNat 8 (i + 1)) (fun _ => 0)
    (fun r _ => if r = 0 then 1 else 0) i = if i % 8 = 0 then 42 else i := by
  have key : ∀ i < 32, expected 4#32 (fun _ => 42) (fun i => BitVec.ofNat 8 (i + 1)) (fun _ => 0)
    (fun r _ => if r = 0 then 1 else 0) i = if i % 8 = 0 then 42 else i := by decide +kernel
  exact key i hi

/-- The last case of `VDwconvSparsity2` (test.cc 566-585). -/
example : ∀ i < 32, expected 8#32 (fun i => BitVec.ofNat 8 i) (fun _ => 42) (fun _ => 0)
    (fun r _ => if r = 2 then 1 else 0) i = if i % 8 ≥ 6 then 42 else i + 2 := by decide +kernel

/-- `VDwconvSignBiases` with both biases 5 (test.cc 143-169): signed data `i + 1 - 5` and filters `1 - 5` and `-5`. -/
example : ∀ i < 32, expected 0x81605000#32 (fun i => BitVec.ofInt 8 (i + 1 - 5)) (fun _ => BitVec.ofInt 8 (-5))
    (fun _ => BitVec.ofInt 8 (-5)) (fun r _ => if r = 0 then BitVec.ofInt 8 (1 - 5) else BitVec.ofInt 8 (-5)) i = i + 1 := by
  decide +kernel

/-- A register in the layout of the test exists for every 32 elements, so the hypotheses of `C118_dwconv`
are met by every data. -/
theorem C118_layout (x : Nat → BitVec 8) : ∃ v, Holds v x := by
  refine ⟨packReg .u8 ((List.range 32).map fun b => ⟨.u8, (x (dwCell b)).toNat⟩), fun i hi => ?_⟩
  obtain ⟨c1, c2, -, -⟩ := cell_place i hi
  have := packReg_extract .u8 ((List.range 32).map fun b => ⟨.u8, (x (dwCell b)).toNat⟩) (place i) c1 (by simpa using c1)
  refine this.trans ?_
  simp only [List.getElem_map, List.getElem_range, c2]
  apply BitVec.eq_of_toNat_eq
  simp [CTy.bits, CTy.size]

/-- `C118_dwconv` applies to any three data registers and three filters with register base 0, from the zero
accumulator of the test. -/
example (cmd : BitVec 32) (h : Spec.bitsAt cmd 2 2 ≠ 3) (hb : Spec.bitsAt cmd 4 4 = 0) (p c n : Nat → BitVec 8)
    (f : Nat → Nat → BitVec 8) : ∃ (rf rf' : VRF) (acc' : DwAcc) (a' : Nat → BitVec 32),
      vdwconv true cmd 0 9 16 3 48 4 rf (fun _ => some 0) = .ok (false, rf', acc') ∧
      ∀ i < 32, acc' i = some (a' i) ∧ (a' i).toInt = expected cmd p c n f i := by
  obtain ⟨vp, hp⟩ := C118_layout p
  obtain ⟨vc, hc⟩ := C118_layout c
  obtain ⟨vn, hn⟩ := C118_layout n
  have hf : ∀ r, ∃ v, Holds v (f r) := fun r => C118_layout (f r)
  choose vf hf using hf
  obtain ⟨rf', acc', a', h1, h2, -⟩ := C118_dwconv true cmd h 0 16 48
    (fun q => if q = 0 then vp else if q = 1 then vc else if q = 2 then vn else vf (q - 16)) p c n f
    (by rw [hb]; exact hp) (by rw [hb]; exact hc) (by rw [hb]; exact hn)
    (by intro r hr; rw [if_neg (by omega), if_neg (by omega), if_neg (by omega), Nat.add_sub_cancel_left]; exact hf r)
    (fun _ => 0) (fun _ _ => by decide)
  exact ⟨_, rf', acc', a', h1, fun i hi => ⟨(h2 i hi).1, by simpa using (h2 i hi).2⟩⟩

/-! ## The accumulating convolution -/

/-- The dot product of narrow row `i` and column word `w` that a command selects. -/
def dot (cmd : BitVec 32) (narrow wide : Nat → BitVec 256) (i w : Nat) : Int :=
  Spec.convDot (decide (Spec.bitsAt cmd 21 1 = 1)) (decide (Spec.bitsAt cmd 31 1 = 1)) (Spec.sbitsAt cmd 12 9)
    (Spec.sbitsAt cmd 22 9) (Spec.bitsAt cmd 2 5) (Spec.bitsAt cmd 7 5 + 1 - Spec.bitsAt cmd 2 5) narrow wide i w

/-- C118: `VConv` is executed twice with the operands exchanged, from a zero accumulator. For every legal
command and all data, every cell is the sum of the two dot products modulo 2^32. -/
theorem C118_conv (cmd : BitVec 32) (h : ConvLegal cmd) (vs1 vs3 : Nat) (rf : VRF) :
    ∃ acc1 acc2, vconv cmd vs1 8 vs3 8 rf (fun _ _ => 0) = .ok (false, acc1) ∧
      vconv cmd vs3 8 vs1 8 rf acc1 = .ok (false, acc2) ∧
      ∀ i < 8, ∀ w < 8, acc2 (Spec.cellRow i w) (Spec.cellCol i w) = BitVec.ofInt 32
        (dot cmd (fun k => rf (vs1 + k)) (fun k => rf (vs3 + k)) i w +
          dot cmd (fun k => rf (vs3 + k)) (fun k => rf (vs1 + k)) i w) := by
  obtain ⟨acc1, h1, h2⟩ := C31_aconv cmd h vs1 vs3 rf (fun _ _ => 0)
  obtain ⟨acc2, h3, h4⟩ := C31_aconv cmd h vs3 vs1 rf acc1
  refine ⟨acc1, acc2, h1, h3, fun i hi w hw => ?_⟩
  rw [h4 i hi w hw, h2 i hi w hw, BitVec.ofInt_add]
  simp [dot]

/-- C118: `VConvWrongMode`, `VConvTooLargeStop` and `VConvWrongStop` for all command words: the first of the two
instructions traps exactly for the commands that are not legal, whatever the data. -/
theorem C118_trap (cmd : BitVec 32) (vs1 vs3 : Nat) (rf : VRF) (acc : Acc) :
    (∃ acc', vconv cmd vs1 8 vs3 8 rf acc = .ok (true, acc')) ↔ ¬ ConvLegal cmd := by
  constructor
  · rintro ⟨acc', h⟩ hl
    obtain ⟨acc'', h', -⟩ := C31_aconv cmd hl vs1 vs3 rf acc
    rw [h'] at h
    simp at h
  · intro h
    exact ⟨acc, C32_aconv cmd h ..⟩

example : ConvLegal 0xaf056380#32 ∧ ¬ ConvLegal 0xaf056381#32 := by decide

end Verif.Props.ConvTest
