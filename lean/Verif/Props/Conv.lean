import Verif.Proofs.ConvAux
import Verif.Proofs.FrameAll

/-!
# C31–C34: convolution and accumulator instructions
-/

namespace Verif.Props
open Verif Verif.Model Verif.Proofs

/-- The command words accepted by `aconv`: 8-bit mode and `start ≤ stop < 8`. -/
def ConvLegal (cmd : BitVec 32) : Prop :=
  Spec.bitsAt cmd 0 2 = 0 ∧ Spec.bitsAt cmd 2 5 ≤ Spec.bitsAt cmd 7 5 ∧ Spec.bitsAt cmd 7 5 < 8

instance (cmd : BitVec 32) : Decidable (ConvLegal cmd) := by unfold ConvLegal; infer_instance

/-! ## C31 -/

/-- C31: a legal `aconv` adds to the accumulator cell of narrow row `i` and column word `w` the dot
product of the biased, optionally sign-extended bytes, modulo 2^32. -/
theorem C31_aconv (cmd : BitVec 32) (h : ConvLegal cmd) (vs1 vs3 : Nat) (rf : VRF) (acc : Acc) :
    ∃ acc', vconv cmd vs1 8 vs3 8 rf acc = .ok (false, acc') ∧
      ∀ i < 8, ∀ w < 8, acc' (Spec.cellRow i w) (Spec.cellCol i w) = acc (Spec.cellRow i w) (Spec.cellCol i w) +
        BitVec.ofInt 32 (Spec.convDot (decide (Spec.bitsAt cmd 21 1 = 1)) (decide (Spec.bitsAt cmd 31 1 = 1))
          (Spec.sbitsAt cmd 12 9) (Spec.sbitsAt cmd 22 9) (Spec.bitsAt cmd 2 5)
          (Spec.bitsAt cmd 7 5 + 1 - Spec.bitsAt cmd 2 5) (fun i => rf (vs1 + i)) (fun k => rf (vs3 + k)) i w) :=
  vconv_run cmd vs1 vs3 rf acc h.1 h.2.1 h.2.2

/-- C31: every cell of the 8 x 8 accumulator belongs to exactly one pair of row and column word, so
`C31_aconv` describes the whole accumulator. -/
theorem C31_cells (r c : Nat) (hr : r < 8) (hc : c < 8) :
    ∃ i w, (i < 8 ∧ w < 8 ∧ Spec.cellRow i w = r ∧ Spec.cellCol i w = c) ∧
      ∀ i' < 8, ∀ w' < 8, Spec.cellRow i' w' = r → Spec.cellCol i' w' = c → i' = i ∧ w' = w := by
  have key : ∀ r < 8, ∀ c < 8,
      Spec.cellRow (4 * (r / 4) + c / 2) (4 * (c % 2) + Spec.swap12 (r % 4)) = r ∧
      Spec.cellCol (4 * (r / 4) + c / 2) (4 * (c % 2) + Spec.swap12 (r % 4)) = c := by decide +kernel
  have key2 : ∀ r < 8, ∀ c < 8, 4 * (r / 4) + c / 2 < 8 ∧ 4 * (c % 2) + Spec.swap12 (r % 4) < 8 := by decide +kernel
  have key3 : ∀ i < 8, ∀ w < 8, i = 4 * (Spec.cellRow i w / 4) + Spec.cellCol i w / 2 ∧
      w = 4 * (Spec.cellCol i w % 2) + Spec.swap12 (Spec.cellRow i w % 4) := by decide +kernel
  refine ⟨_, _, ⟨(key2 r hr c hc).1, (key2 r hr c hc).2, key r hr c hc⟩, ?_⟩
  intro i' hi' w' hw' h1 h2
  have := key3 i' hi' w' hw'
  rwa [h1, h2] at this

/-- Steps 1 to 2, biases 3 and -1, signed data, narrow bytes all 2, wide bytes all -1:
the cell gets 2 * 4 * 5 * (-2) = -80. -/
example : ∃ acc', vconv (0xFFE03104#32) 0 8 16 8
    (fun q => if q < 16 then 0x0202020202020202020202020202020202020202020202020202020202020202#256
      else BitVec.allOnes 256) (fun _ _ => 100#32) = .ok (false, acc') ∧ acc' 2 0 = 20#32 := by
  obtain ⟨acc', h1, h2⟩ := C31_aconv 0xFFE03104#32 (by decide) 0 16
    (fun q => if q < 16 then 0x0202020202020202020202020202020202020202020202020202020202020202#256
      else BitVec.allOnes 256) (fun _ _ => 100#32)
  exact ⟨acc', h1, (h2 0 (by decide) 1 (by decide)).trans (by decide +kernel)⟩

/-! ## C32 -/

/-- C32: every other command word raises the illegal-instruction trap and leaves the accumulator
unchanged. -/
theorem C32_aconv (cmd : BitVec 32) (h : ¬ ConvLegal cmd) (vs1 len1 vs3 len3 : Nat) (rf : VRF) (acc : Acc) :
    vconv cmd vs1 len1 vs3 len3 rf acc = .ok (true, acc) := by
  unfold vconv
  simp only [show (ConvCmd.of cmd).mode = Spec.bitsAt cmd 0 2 from field_eq ..,
    show (ConvCmd.of cmd).start = Spec.bitsAt cmd 2 5 from field_eq ..,
    show (ConvCmd.of cmd).stop = Spec.bitsAt cmd 7 5 from field_eq ..]
  unfold ConvLegal at h
  by_cases h1 : Spec.bitsAt cmd 0 2 ≠ 0
  · rw [if_pos h1]
  · rw [if_neg h1]
    by_cases h2 : Spec.bitsAt cmd 2 5 > Spec.bitsAt cmd 7 5
    · rw [if_pos h2]
    · rw [if_neg h2, if_pos (by omega)]

example : ¬ ConvLegal 0x00000404#32 ∧ ¬ ConvLegal 0x00000008#32 ∧ ¬ ConvLegal 0x00000001#32 := by decide

/-- C32, negative part: a depthwise convolution with the reserved sparsity 3 raises its trap and then goes
on to read activation words it never wrote, whatever the registers and the accumulator. -/
theorem C32_dwconv_reserved_ub (writeAcc : Bool) (cmd : BitVec 32) (h : Spec.bitsAt cmd 2 2 = 3)
    (vs1 len1 vs3 len3 vd vdLen : Nat) (rf : VRF) (acc : DwAcc) :
    vdwconv writeAcc cmd vs1 len1 vs3 len3 vd vdLen rf acc = .ub := by
  unfold vdwconv
  have e : (DwCmd.of cmd).sparsity = 3 := (field_eq ..).trans h
  simp only [e]
  split
  · rw [show List.range 3 = 0 :: [1, 2] from rfl, show List.range 32 = 0 :: (List.range 31).map (· + 1) from rfl]
    simp [List.foldlM_cons, dwBody, dwData]
  · rfl

example : Spec.bitsAt 0x0000000C#32 2 2 = 3 := by decide

/-! ## C33 -/

/-- C33: `acset` copies the 8 source registers into the rows of the accumulator, `actr` into its columns. -/
theorem C33_acset (t : Bool) (vs : Nat) (rf : VRF) (acc : Acc) :
    ∃ acc', acset t vs 8 rf acc = .ok acc' ∧ ∀ r < 8, ∀ c < 8, acc' r c =
      if t then (rf (vs + c)).extractLsb' (r * 32) 32 else (rf (vs + r)).extractLsb' (c * 32) 32 :=
  ⟨_, acset_run t vs rf acc, fun r hr c hc => if_pos ⟨hr, hc⟩⟩

/-- C33: `vcget` copies the accumulator to the 8 destination registers, clears it, and changes no other
register. -/
theorem C33_vcget (vd : Nat) (rf : VRF) (acc : Acc) :
    ∃ rf' acc', vcget vd 8 rf acc = .ok (rf', acc') ∧
      (∀ k < 8, ∀ e < 8, (rf' (vd + k)).extractLsb' (e * 32) 32 = acc k e) ∧
      (∀ r < 8, ∀ c < 8, acc' r c = 0) ∧ Spec.Frame vd 8 rf rf' := by
  obtain ⟨rf', h1, h2, h3⟩ := vcget_run vd rf acc
  exact ⟨rf', _, h1, h2, fun r hr c hc => if_pos ⟨hr, hc⟩, h3⟩

/-- C33: `acset` followed by `vcget` copies the source group to the destination group. -/
theorem C33_set_get (vs vd : Nat) (rf : VRF) (acc : Acc) :
    ∃ acc1 rf' acc', acset false vs 8 rf acc = .ok acc1 ∧ vcget vd 8 rf acc1 = .ok (rf', acc') ∧
      ∀ k < 8, rf' (vd + k) = rf (vs + k) := by
  obtain ⟨acc1, h1, h2⟩ := C33_acset false vs rf acc
  obtain ⟨rf', acc', h3, h4, -, -⟩ := C33_vcget vd rf acc1
  refine ⟨acc1, rf', acc', h1, h3, fun k hk => ?_⟩
  exact reg_ext .u32 _ _ (fun e he => congrArg (Spec.value false 32) ((h4 k hk e he).trans (h2 k hk e he)))

/-- C33: two rounds of `actr`, `vcget` are the identity: the transpose of the transpose. -/
theorem C33_transpose_twice (vs vm vd : Nat) (rf : VRF) (acc : Acc) :
    ∃ acc1 rf1 acc2 acc3 rf2 acc4, acset true vs 8 rf acc = .ok acc1 ∧ vcget vm 8 rf acc1 = .ok (rf1, acc2) ∧
      acset true vm 8 rf1 acc2 = .ok acc3 ∧ vcget vd 8 rf1 acc3 = .ok (rf2, acc4) ∧
      (∀ k < 8, ∀ e < 8, (rf1 (vm + k)).extractLsb' (e * 32) 32 = (rf (vs + e)).extractLsb' (k * 32) 32) ∧
      ∀ k < 8, rf2 (vd + k) = rf (vs + k) := by
  obtain ⟨acc1, h1, h2⟩ := C33_acset true vs rf acc
  obtain ⟨rf1, acc2, h3, h4, -, -⟩ := C33_vcget vm rf acc1
  obtain ⟨acc3, h5, h6⟩ := C33_acset true vm rf1 acc2
  obtain ⟨rf2, acc4, h7, h8, -, -⟩ := C33_vcget vd rf1 acc3
  refine ⟨acc1, rf1, acc2, acc3, rf2, acc4, h1, h3, h5, h7, ?_, fun k hk => ?_⟩
  · intro k hk e he
    exact (h4 k hk e he).trans (h2 k hk e he)
  · refine reg_ext .u32 _ _ (fun e he => congrArg (Spec.value false 32) ?_)
    exact (h8 k hk e he).trans ((h6 k hk e he).trans ((h4 e he k hk).trans (h2 e he k hk)))

example : ∃ acc', acset true 8 8 (fun q => BitVec.ofNat 256 (q * 2 ^ 32)) (fun _ _ => 0) = .ok acc' ∧ acc' 1 3 = 11#32 := by
  obtain ⟨acc', h1, h2⟩ := C33_acset true 8 (fun q => BitVec.ofNat 256 (q * 2 ^ 32)) (fun _ _ => 0)
  exact ⟨acc', h1, (h2 1 (by decide) 3 (by decide)).trans (by decide +kernel)⟩

/-! ## C34 -/

/-- Product `r` of lane `i` of a depthwise convolution. -/
def dwProduct (cmd : BitVec 32) (vs1 vs3 : Nat) (rf : VRF) (i r : Nat) : Int :=
  (Spec.wordByte (decide (Spec.bitsAt cmd 21 1 = 1))
      (Spec.dwWord (Spec.bitsAt cmd 2 2)
        (rf (vs1 + (Spec.dwRegs (Spec.bitsAt cmd 4 4)).getD 0 0))
        (rf (vs1 + (Spec.dwRegs (Spec.bitsAt cmd 4 4)).getD 1 0))
        (rf (vs1 + (Spec.dwRegs (Spec.bitsAt cmd 4 4)).getD 2 0)) r (i / 4)) (i % 4) + Spec.sbitsAt cmd 12 9) *
    Spec.biased (decide (Spec.bitsAt cmd 31 1 = 1)) (Spec.sbitsAt cmd 22 9) (rf (vs3 + r)) i

/-- Accumulator word of lane `i`. -/
def dwCell (i : Nat) : Nat := 8 * Spec.swap12 (i % 4) + i / 4

/-- C34: with a legal sparsity, `adwconv` and `vdwconv` add to the accumulator word of each of the 32 lanes
the sum of its three products, and `vdwconv` writes the 32 words to its four destination registers; no
other register changes. The register numbers used are always inside the 9-register source group.

Partial: the claim without side conditions is false of the code. It requires an initialised accumulator
(`C34_uninitialised_ub`) and, at every step, sums that fit in 32 bits (`C34_overflow_ub`). -/
theorem C34_dwconv_partial (writeAcc : Bool) (cmd : BitVec 32) (h : Spec.bitsAt cmd 2 2 ≠ 3) (vs1 vs3 vd : Nat)
    (rf : VRF) (acc : DwAcc) (c : Nat → BitVec 32) (hc : ∀ q < 32, acc q = some (c q))
    (hfit : ∀ i < 32, ∀ n ≤ 3,
      -2 ^ 31 ≤ (c (dwCell i)).toInt + Spec.sum n (dwProduct cmd vs1 vs3 rf i) ∧
      (c (dwCell i)).toInt + Spec.sum n (dwProduct cmd vs1 vs3 rf i) < 2 ^ 31) :
    ∃ (rf' : VRF) (acc' : DwAcc) (c' : Nat → BitVec 32), vdwconv writeAcc cmd vs1 9 vs3 4 vd 4 rf acc = .ok (false, rf', acc') ∧
      (∀ q < 32, acc' q = some (c' q)) ∧
      (∀ i < 32, (c' (dwCell i)).toInt = (c (dwCell i)).toInt + Spec.sum 3 (dwProduct cmd vs1 vs3 rf i)) ∧
      (writeAcc = false → rf' = rf) ∧
      (writeAcc = true → (∀ k < 4, ∀ e < 8, (rf' (vd + k)).extractLsb' (e * 32) 32 = c' (8 * k + e)) ∧
        Spec.Frame vd 4 rf rf') := by
  have hcmd1 : (DwCmd.of cmd).sparsity = Spec.bitsAt cmd 2 2 := field_eq ..
  have hb2 : Spec.bitsAt cmd 2 2 < 4 := by rw [← field_eq]; exact field_lt cmd 2 2
  have hbase : Spec.bitsAt cmd 4 4 < 16 := by rw [← field_eq]; exact field_lt cmd 4 4
  have hreg : (DwCmd.of cmd).regbase = Spec.bitsAt cmd 4 4 := field_eq ..
  obtain ⟨hidx, hlt⟩ := dwIdx_spec _ hbase
  have hs1 : (DwCmd.of cmd).sbias1 = Spec.sbitsAt cmd 12 9 := sbits_eq ..
  have hs2 : (DwCmd.of cmd).sbias2 = Spec.sbitsAt cmd 22 9 := sbits_eq ..
  have hbb1 : -256 ≤ Spec.sbitsAt cmd 12 9 ∧ Spec.sbitsAt cmd 12 9 ≤ 255 := bmod9_bounds _
  have hbb2 : -256 ≤ Spec.sbitsAt cmd 22 9 ∧ Spec.sbitsAt cmd 22 9 ≤ 255 := bmod9_bounds _
  have hf21 : decide ((DwCmd.of cmd).sdata1 ≠ 0) = decide (Spec.bitsAt cmd 21 1 = 1) := by
    have := field_lt cmd 21 1
    rw [show (DwCmd.of cmd).sdata1 = field cmd 21 1 from rfl, ← field_eq, decide_eq_decide]; omega
  have hf31 : decide ((DwCmd.of cmd).sdata2 ≠ 0) = decide (Spec.bitsAt cmd 31 1 = 1) := by
    have := field_lt cmd 31 1
    rw [show (DwCmd.of cmd).sdata2 = field cmd 31 1 from rfl, ← field_eq, decide_eq_decide]; omega
  have hcell : ∀ q < 32, dwCell (dwLane q) = q := by decide +kernel
  have hcell' : ∀ i < 32, dwCell i < 32 ∧ dwLane (dwCell i) = i := by decide +kernel
  have hinit : acc = dwState (fun i => (c (dwCell i)).toInt) (dwProduct cmd vs1 vs3 rf) acc 0 0 := by
    funext q
    by_cases hq : q < 32
    · rw [dwState, if_pos hq, if_neg (by omega), hcell q hq, hc q hq]
      simp [Spec.sum]
    · rw [dwState, if_neg hq]
  have hloop := dwLoop_ok (DwCmd.of cmd) (by omega) (by rw [hs1]; exact hbb1) (by rw [hs2]; exact hbb2)
    (rf (vs1 + (dwIdx (DwCmd.of cmd).regbase).1)) (rf (vs1 + (dwIdx (DwCmd.of cmd).regbase).2.1))
    (rf (vs1 + (dwIdx (DwCmd.of cmd).regbase).2.2)) (fun r => rf (vs3 + r)) (fun i => (c (dwCell i)).toInt) acc
    (dwProduct cmd vs1 vs3 rf)
    (by
      intro i r
      rw [hf21, hf31, hs1, hs2, hcmd1, hreg, dwProduct, ← hidx]
      rfl)
    (by
      intro i hi n hn
      obtain ⟨f1, f2⟩ := hfit i hi n hn
      show -2147483648 ≤ (c (dwCell i)).toInt + _ ∧ (c (dwCell i)).toInt + _ ≤ _
      constructor <;> omega)
  rw [← hinit] at hloop
  set C' := fun q => BitVec.ofInt 32 ((c (dwCell (dwLane q))).toInt + Spec.sum 3 (dwProduct cmd vs1 vs3 rf (dwLane q))) with hC'
  have hstate : ∀ q < 32, dwState (fun i => (c (dwCell i)).toInt) (dwProduct cmd vs1 vs3 rf) acc 3 0 q = some (C' q) := by
    intro q hq
    rw [dwState, if_pos hq, if_neg (by omega)]
  have hval : ∀ i < 32, (C' (dwCell i)).toInt = (c (dwCell i)).toInt + Spec.sum 3 (dwProduct cmd vs1 vs3 rf i) := by
    intro i hi
    obtain ⟨f1, f2⟩ := hfit i hi 3 (by omega)
    rw [hC']
    simp only [(hcell' i hi).2]
    rw [BitVec.toInt_ofInt, Int.bmod_eq_of_le] <;> omega
  have hsp3 : decide ((DwCmd.of cmd).sparsity = 3) = false := by rw [hcmd1]; simpa using h
  rw [← hreg] at hlt
  cases writeAcc
  · refine ⟨rf, _, C', ?_, hstate, hval, fun _ => rfl, fun h => by simp at h⟩
    unfold vdwconv
    simp only
    rw [if_pos ⟨hlt.1, hlt.2.1, hlt.2.2, by omega⟩, hloop, Outcome.ok_bind, hsp3]
    rfl
  · obtain ⟨rf', g1, g2, g3⟩ := dwWrite_ok vd _ C' hstate rf
    refine ⟨rf', _, C', ?_, hstate, hval, fun h => by simp at h, fun _ => ⟨g2, g3⟩⟩
    unfold vdwconv
    simp only
    rw [if_pos ⟨hlt.1, hlt.2.1, hlt.2.2, by omega⟩, hloop, Outcome.ok_bind, hsp3]
    simp only [if_true]
    rw [g1, Outcome.ok_bind]

/-- C34: every lane has its own accumulator word. -/
theorem C34_cells (q : Nat) (hq : q < 32) : ∃ i, (i < 32 ∧ dwCell i = q) ∧ ∀ i' < 32, dwCell i' = q → i' = i := by
  have key : ∀ q < 32, ∃ i : Fin 32, dwCell i = q ∧ ∀ i' < 32, dwCell i' = q → i' = i.1 := by decide +kernel
  obtain ⟨i, h1, h2⟩ := key q hq
  exact ⟨i, ⟨i.2, h1⟩, h2⟩

/-- C34: the source registers selected by any register base are among the 9 of the group. -/
theorem C34_regs (base : Nat) (h : base < 16) : ∀ r ∈ Spec.dwRegs base, r < 9 := by
  have key : ∀ base < 16, ∀ r ∈ Spec.dwRegs base, r < 9 := by decide +kernel
  exact key base h

/-- C34: accumulators at least 3 * 384 * 512 away from the ends of the 32-bit range are always safe. -/
theorem C34_safe (cmd : BitVec 32) (vs1 vs3 : Nat) (rf : VRF) (i : Nat) (x : BitVec 32)
    (h1 : -2 ^ 31 + 1000000 ≤ x.toInt) (h2 : x.toInt < 2 ^ 31 - 1000000) : ∀ n ≤ 3,
      -2 ^ 31 ≤ x.toInt + Spec.sum n (dwProduct cmd vs1 vs3 rf i) ∧
      x.toInt + Spec.sum n (dwProduct cmd vs1 vs3 rf i) < 2 ^ 31 := by
  intro n hn
  have hp : ∀ r, -195840 ≤ dwProduct cmd vs1 vs3 rf i r ∧ dwProduct cmd vs1 vs3 rf i r ≤ 260100 := by
    intro r
    have hbb1 : -256 ≤ Spec.sbitsAt cmd 12 9 ∧ Spec.sbitsAt cmd 12 9 ≤ 255 := bmod9_bounds _
    have hbb2 : -256 ≤ Spec.sbitsAt cmd 22 9 ∧ Spec.sbitsAt cmd 22 9 ≤ 255 := bmod9_bounds _
    unfold dwProduct Spec.biased Spec.wordByte
    apply prod_bounds
    · have := value8_bounds (decide (Spec.bitsAt cmd 21 1 = 1)) ((Spec.dwWord (Spec.bitsAt cmd 2 2)
        (rf (vs1 + (Spec.dwRegs (Spec.bitsAt cmd 4 4)).getD 0 0))
        (rf (vs1 + (Spec.dwRegs (Spec.bitsAt cmd 4 4)).getD 1 0))
        (rf (vs1 + (Spec.dwRegs (Spec.bitsAt cmd 4 4)).getD 2 0)) r (i / 4)).extractLsb' (i % 4 * 8) 8)
      constructor <;> omega
    · have := lane8_bounds (decide (Spec.bitsAt cmd 31 1 = 1)) (rf (vs3 + r)) i
      constructor <;> omega
  have e0 : Spec.sum 0 (dwProduct cmd vs1 vs3 rf i) = 0 := rfl
  have e1 := sum_succ 0 (dwProduct cmd vs1 vs3 rf i)
  have e2 := sum_succ 1 (dwProduct cmd vs1 vs3 rf i)
  have e3 := sum_succ 2 (dwProduct cmd vs1 vs3 rf i)
  have p0 := hp 0
  have p1 := hp 1
  have p2 := hp 2
  simp only [Nat.zero_add, Nat.reduceAdd] at e1 e2 e3
  interval_cases n <;> constructor <;> omega

/-- `C34_dwconv_partial` applies to every legal command when the accumulator starts at zero. -/
example (cmd : BitVec 32) (h : Spec.bitsAt cmd 2 2 ≠ 3) (rf : VRF) :
    ∃ rf' acc', vdwconv true cmd 0 9 16 4 32 4 rf (fun _ => some 0) = .ok (false, rf', acc') := by
  obtain ⟨rf', acc', -, h1, -⟩ := C34_dwconv_partial true cmd h 0 16 32 rf (fun _ => some 0) (fun _ => 0) (fun _ _ => rfl)
    (fun i _ => C34_safe cmd 0 16 rf i 0 (by decide) (by decide))
  exact ⟨rf', acc', h1⟩

/-- C34, negative part: an accumulator near the limit overflows a signed 32-bit addition. -/
theorem C34_overflow_ub : vdwconv true 0#32 0 9 16 4 32 4 (fun _ => BitVec.allOnes 256) (fun _ => some 0x7fffffff#32) = .ub := by
  have : (vdwconv true 0#32 0 9 16 4 32 4 (fun _ => BitVec.allOnes 256) (fun _ => some 0x7fffffff#32)).isUb = true := by
    decide +kernel
  exact Outcome.isUb_iff.1 this

/-- C34, negative part: no constructor initialises the depthwise accumulator, so a depthwise convolution that
is not preceded by `adwinit` reads indeterminate words. -/
theorem C34_uninitialised_ub (writeAcc : Bool) (cmd : BitVec 32) (vs1 len1 vs3 len3 vd vdLen : Nat) (rf : VRF) :
    vdwconv writeAcc cmd vs1 len1 vs3 len3 vd vdLen rf (fun _ => none) = .ub := by
  unfold vdwconv
  simp only
  split
  · rw [show List.range 3 = 0 :: [1, 2] from rfl, show List.range 32 = 0 :: (List.range 31).map (· + 1) from rfl]
    simp [List.foldlM_cons, dwBody]
  · rfl

/-- C34: `adwinit` initialises all 32 words of the accumulator from the four source registers, provided no
destination register written earlier is a source register read later. Only the first 8 bytes of each
destination register are the source's: the rest is whatever the new buffer contained. -/
theorem C34_adwinit (vs vd : Nat) (hov : ∀ j i, j < i → i < 4 → vd + j ≠ vs + i) (fresh : Nat → VReg) (rf : VRF) (acc : DwAcc) :
    ∃ rf' acc', adwinit vs 4 vd 4 fresh rf acc = .ok (rf', acc') ∧
      (∀ k < 4, ∀ e < 8, acc' (8 * k + e) = some ((rf (vs + k)).extractLsb' (e * 32) 32)) ∧
      (∀ k < 4, ∀ b < 32, (rf' (vd + k)).extractLsb' (b * 8) 8 =
        (if b < 8 then rf (vs + k) else fresh k).extractLsb' (b * 8) 8) ∧
      Spec.Frame vd 4 rf rf' :=
  adwinit_run vs vd hov fresh rf acc

example : ∀ j i, j < i → i < 4 → 8 + j ≠ 8 + i := by omega

end Verif.Props
