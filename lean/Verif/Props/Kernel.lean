import Verif.Proofs.Kernel
import Verif.Props.Arith
import Verif.Props.Decode

/-!
# Property C85: strip-mined loops

A loop of vector instruction words over two arrays (`MapLoop`, `Verif/Model/Kernel.lean`), executed through the decode table,
the operand getters and the semantic functions.
-/

namespace Verif.Props
open Verif Verif.Model Verif.Proofs

/-- The state in which the loop is entered: `N` elements, the arrays at `a`, `b` and `d`. -/
def Entry (p : MapLoop) (N a b d : Nat) (s : Arch) : Prop :=
  s.x p.rn = BitVec.ofNat 32 N ∧ s.x p.ra = BitVec.ofNat 32 a ∧ s.x p.rb = BitVec.ofNat 32 b ∧
    s.x p.rd = BitVec.ofNat 32 d

/-- The three arrays of `n` bytes lie in the memory without reaching bit 31, the invalidation bit, on machines that have
one, and the destination does not start inside a source. -/
def Placed (maxPhys n a b d : Nat) : Prop :=
  (∀ q ∈ [a, b, d], q + n < if maxPhys ≤ 0x3fffff then 2 ^ 31 else 2 ^ 32) ∧ Spec.Behind d a n ∧ Spec.Behind d b n

/-- The operation of the loop is computed lane by lane by `f`. -/
def Computes (p : MapLoop) (T : CTy) (v : VOp) (strip sd ss : Bool) (f : Int → Int → Int) : Prop :=
  ∀ (i : VInst) (rf : VRF), i.vd = Spec.bitsAt p.op.word 6 6 → i.vs1 = Spec.bitsAt p.op.word 14 6 →
    i.op2 = .vreg (Spec.bitsAt p.op.word 20 6) → i.strip = strip → ∃ rf', v.run i rf = .ok rf' ∧
      Spec.Lanewise sd T.bits ss T.bits i.n i.vd i.vs1 i.op2 f rf rf'

/-- C85: after `k` rounds exactly the first `min N (k * cap)` elements of the destination hold the result, `cap` being the
number of elements of a register group; the count and the addresses have moved on by as many elements; no other scalar
register but that of the length and no other byte of memory has changed. The arrays may be the same. -/
theorem C85_rounds (maxPhys : Nat) (fresh : Nat → VReg) (p : MapLoop) (T : CTy) (v : VOp) (strip : Bool)
    (hp : p.Ok T v strip) (sd ss : Bool) (f : Int → Int → Int) (hf : Computes p T v strip sd ss f) (N a b d : Nat)
    (hpl : Placed maxPhys (N * (T.bits / 8)) a b d) (s : Arch) (hs : Entry p N a b d s) (k j : Nat)
    (hj : j = min N (k * ((if strip then 4 else 1) * Spec.lanes T.bits))) :
    ∃ s', times (loopBody maxPhys fresh p.insts p.rn p.rl) k s = .ok s' ∧
      Spec.Mapped sd ss T.bits f d a b j s.mem s'.mem ∧
      Entry p (N - j) (a + j * (T.bits / 8)) (b + j * (T.bits / 8)) (d + j * (T.bits / 8)) s' ∧
      ∀ q, q ∉ [p.rn, p.rl, p.ra, p.rb, p.rd] → s'.x q = s.x q := by
  obtain ⟨hin, h1, h2⟩ := hpl
  obtain ⟨s', h, hI⟩ := map_times maxPhys fresh p T v strip hp sd ss f hf N a b d _ rfl (hin a (by simp)) (hin b (by simp))
    (hin d (by simp)) h1 h2 s ⟨hs.1, by simpa using hs.2.1, by simpa using hs.2.2.1, by simpa using hs.2.2.2,
      fun _ _ => rfl, fun e he => absurd he (Nat.not_lt_zero _), fun _ _ => rfl⟩ k
  subst hj
  exact ⟨s', h, hI.mem, ⟨hI.xn, hI.xa, hI.xb, hI.xd⟩, hI.others⟩

/-- C85: the loop ends after exactly `⌈N / cap⌉` rounds, with the whole destination computed. -/
theorem C85_loop (maxPhys : Nat) (fresh : Nat → VReg) (p : MapLoop) (T : CTy) (v : VOp) (strip : Bool)
    (hp : p.Ok T v strip) (sd ss : Bool) (f : Int → Int → Int) (hf : Computes p T v strip sd ss f) (N a b d : Nat)
    (hpl : Placed maxPhys (N * (T.bits / 8)) a b d) (s : Arch) (hs : Entry p N a b d s) (c K : Nat)
    (hc : c = (if strip then 4 else 1) * Spec.lanes T.bits) (hK : K = (N + c - 1) / c) :
    (∀ k < K, ∃ s', times (loopBody maxPhys fresh p.insts p.rn p.rl) k s = .ok s' ∧ s'.x p.rn ≠ 0) ∧
    ∃ s', times (loopBody maxPhys fresh p.insts p.rn p.rl) K s = .ok s' ∧ s'.x p.rn = 0 ∧
      Spec.Mapped sd ss T.bits f d a b N s.mem s'.mem := by
  have hc0 : 0 < c := by subst hc; cases T <;> cases strip <;> decide
  have hN : N < 2 ^ 32 := by
    have h := hpl.1 a (by simp)
    have hsz : 1 ≤ T.bits / 8 := by cases T <;> decide
    have : N * 1 ≤ N * (T.bits / 8) := Nat.mul_le_mul_left _ hsz
    split at h <;> omega
  have hKc : N ≤ K * c := by
    subst hK
    have := Nat.lt_div_mul_add (a := N + c - 1) hc0
    omega
  refine ⟨fun k hk => ?_, ?_⟩
  · obtain ⟨s', h, -, he, -⟩ := C85_rounds maxPhys fresh p T v strip hp sd ss f hf N a b d hpl s hs k _ rfl
    refine ⟨s', h, ?_⟩
    rw [he.1, ← hc]
    have : k * c < N := by
      have h1 : k + 1 ≤ (N + c - 1) / c := by omega
      have := (Nat.le_div_iff_mul_le hc0).1 h1
      rw [Nat.add_mul] at this
      omega
    intro hz
    have := congrArg BitVec.toNat hz
    rw [BitVec.toNat_ofNat, show BitVec.toNat (0 : BitVec 32) = 0 from rfl] at this
    omega
  · obtain ⟨s', h, hm, he, -⟩ := C85_rounds maxPhys fresh p T v strip hp sd ss f hf N a b d hpl s hs K N
      (by rw [← hc]; omega)
    exact ⟨s', h, by rw [he.1, Nat.sub_self]; rfl, hm⟩

/-- C85 for saturating addition: adding two arrays of signed elements. -/
theorem C85_vadds (maxPhys : Nat) (fresh : Nat → VReg) (p : MapLoop) (T : CTy) (hT : T.signed = true) (hb : T.bits ≤ 32)
    (strip : Bool) (hp : p.Ok T (.bin .adds T) strip)
    (h1 : Spec.NoOverlap (Spec.bitsAt p.op.word 6 6) (Spec.bitsAt p.op.word 14 6) (if strip then 4 else 1))
    (h2 : Spec.NoOverlap (Spec.bitsAt p.op.word 6 6) (Spec.bitsAt p.op.word 20 6) (if strip then 4 else 1))
    (N a b d : Nat) (hpl : Placed maxPhys (N * (T.bits / 8)) a b d) (s : Arch) (hs : Entry p N a b d s) :
    ∃ k s', times (loopBody maxPhys fresh p.insts p.rn p.rl) k s = .ok s' ∧ s'.x p.rn = 0 ∧
      (∀ e < N, Spec.memElem true T.bits s'.mem (d + e * (T.bits / 8)) =
        Spec.sat true T.bits (Spec.memElem true T.bits s.mem (a + e * (T.bits / 8)) +
          Spec.memElem true T.bits s.mem (b + e * (T.bits / 8)))) ∧
      ∀ q, (q < d ∨ d + N * (T.bits / 8) ≤ q) → s'.mem q = s.mem q := by
  have hf : Computes p T (.bin .adds T) strip true true (fun a b => Spec.sat true T.bits (a + b)) := by
    intro i rf e1 e2 e3 e4
    refine C01_vadds T hT hb i rf ?_ ?_
    · rw [e1, e2, VInst.n, e4]; exact h1
    · rw [e1, e3, VInst.n, e4]; exact h2
  obtain ⟨-, s', h, hz, hm⟩ := C85_loop maxPhys fresh p T _ strip hp true true _ hf N a b d hpl s hs _ _ rfl rfl
  exact ⟨_, s', h, hz, hm.1, hm.2⟩

/-- The test of `Decodes`. -/
def decodesB (i : Inst) : Bool :=
  allRows.contains i.row && i.row.matches i.word &&
    allRows.all fun r => !decide (r.group < i.row.group) || !r.matches i.word

theorem decodesB_ok {i : Inst} (h : decodesB i = true) : i.Ok := by
  simp only [decodesB, Bool.and_eq_true, List.contains_iff_mem, List.all_eq_true, Bool.or_eq_true, Bool.not_eq_true',
    decide_eq_false_iff_not] at h
  exact ⟨h.1.1, h.1.2, fun r hr hl => (h.2 r hr).resolve_left (fun hn => hn hl)⟩

/-- `loop: getvl.b.x.m x5, x6; vld.b.lp.xx.m v0, x7, x5; vld.b.lp.xx.m v4, x8, x5; vadds.b.vv.m v8, v0, v4;
vst.b.lp.xx.m v8, x9, x5; sub x6, x6, x5; bnez x6, loop`. -/
def addBytes : MapLoop where
  vl := ⟨⟨[.getvl, .b, .x, .m], [.getvl, .b, .x, .m], 0, [⟨28, 4, 1⟩, ⟨27, 1, 1⟩, ⟨25, 2, 0⟩, ⟨20, 5, 0⟩, ⟨12, 3, 0⟩, ⟨0, 7, 119⟩],
    [⟨15, 5, 0⟩, ⟨7, 5, 0⟩], [.rs1], [.rd], .getvl .i8 true true false⟩, 0x180302f7#32⟩
  lda := ⟨ldRow, 0x1453803f#32⟩
  ldb := ⟨ldRow, 0x1454013f#32⟩
  op := ⟨⟨[.vadds, .b, .vv, .m], [.vadds, .b, .vv, .m], 1, [⟨26, 6, 0⟩, ⟨12, 2, 0⟩, ⟨5, 1, 1⟩, ⟨2, 3, 4⟩, ⟨0, 2, 0⟩], [],
    [.vs1, .vs2], [.vd], .vec (.bin .adds .i8) false true⟩, 0x00400230#32⟩
  st := ⟨⟨[.vst, .b, .lp, .xx, .m], [.vst, .b, .lp, .xx, .m], 3, [⟨26, 6, 13⟩, ⟨12, 2, 0⟩, ⟨5, 1, 1⟩, ⟨2, 3, 7⟩, ⟨0, 2, 3⟩],
    [⟨20, 6, 0⟩], [.vd, .vs1, .vs2], [.vs1], .vst .i8 true false true true true⟩, 0x3454823f#32⟩
where
  ldRow : Row := ⟨[.vld, .b, .lp, .xx, .m], [.vld, .b, .lp, .xx, .m], 3, [⟨26, 6, 5⟩, ⟨12, 2, 0⟩, ⟨5, 1, 1⟩, ⟨2, 3, 7⟩, ⟨0, 2, 3⟩],
    [⟨20, 6, 0⟩], [.vs1, .vs2], [.vs1, .vd], .vld .i8 true false true true true⟩

set_option maxRecDepth 100000 in
theorem addBytes_ok : addBytes.Ok .i8 (.bin .adds .i8) true where
  dec := fun i hi => decodesB_ok (List.all_eq_true.1 (by decide +kernel : addBytes.insts.all decodesB = true) i hi)
  vl := rfl
  lda := rfl
  ldb := rfl
  op := rfl
  st := rfl
  len := by decide +kernel
  vs1 := by decide +kernel
  vs2 := by decide +kernel
  vd := by decide +kernel
  regs := by decide +kernel
  apart := .inl (by decide +kernel)

/-- 1000 bytes at 0x1000 and at 0x2000 are added, in place at 0x1000: 8 rounds. Element 999 was 100 and 100. -/
example (fresh : Nat → VReg) (s : Arch) (h6 : s.x 6 = 1000#32) (h7 : s.x 7 = 0x1000#32) (h8 : s.x 8 = 0x2000#32)
    (h9 : s.x 9 = 0x1000#32) (ha : s.mem 0x13e7 = 100#8) (hb : s.mem 0x23e7 = 100#8) :
    ∃ s', times (loopBody 0x3fffff fresh addBytes.insts 6 5) 8 s = .ok s' ∧
      Spec.memElem true 8 s'.mem 0x13e7 = 127 ∧ s'.x 6 = 0 := by
  have hf : Computes addBytes .i8 (.bin .adds .i8) true true true (fun a b => Spec.sat true 8 (a + b)) := by
    intro i rf e1 e2 e3 e4
    refine C01_vadds .i8 rfl (by decide) i rf ?_ ?_
    · rw [e1, e2, VInst.n, e4]; decide +kernel
    · rw [e1, e3, VInst.n, e4]; show Spec.NoOverlap (Spec.bitsAt addBytes.op.word 6 6) (Spec.bitsAt addBytes.op.word 20 6) _
      decide +kernel
  obtain ⟨-, s', h, hz, hm⟩ := C85_loop 0x3fffff fresh addBytes .i8 _ true addBytes_ok true true _ hf 1000 0x1000 0x2000
    0x1000 (by refine ⟨?_, ?_, ?_⟩ <;> decide +kernel) s ⟨h6, h7, h8, h9⟩ 128 8 rfl rfl
  refine ⟨s', h, ?_, hz⟩
  have := hm.1 999 (by decide)
  simp only [CTy.bits, Nat.reduceDiv, Nat.reduceMul, Nat.reduceAdd, Spec.memElem, Spec.loadLE, ha, hb] at this ⊢
  rw [this]; decide

/-- The loop above with words instead of bytes and single registers: `getvl.w.x`, `vld.w.lp.xx`, `vadds.w.vv`,
`vst.w.lp.xx`. -/
def addWords : MapLoop where
  vl := ⟨⟨[.getvl, .w, .x], [.getvl, .w, .x], 0, [⟨28, 4, 1⟩, ⟨27, 1, 0⟩, ⟨25, 2, 2⟩, ⟨20, 5, 0⟩, ⟨12, 3, 0⟩, ⟨0, 7, 119⟩],
    [⟨15, 5, 0⟩, ⟨7, 5, 0⟩], [.rs1], [.rd], .getvl .i32 false true false⟩, 0x140302f7#32⟩
  lda := ⟨ldRow, 0x1453a01f#32⟩
  ldb := ⟨ldRow, 0x1454211f#32⟩
  op := ⟨⟨[.vadds, .w, .vv], [.vadds, .w, .vv], 1, [⟨26, 6, 0⟩, ⟨12, 2, 2⟩, ⟨5, 1, 0⟩, ⟨2, 3, 4⟩, ⟨0, 2, 0⟩], [],
    [.vs1, .vs2], [.vd], .vec (.bin .adds .i32) false false⟩, 0x00402210#32⟩
  st := ⟨⟨[.vst, .w, .lp, .xx], [.vst, .w, .lp, .xx], 3, [⟨26, 6, 13⟩, ⟨12, 2, 2⟩, ⟨5, 1, 0⟩, ⟨2, 3, 7⟩, ⟨0, 2, 3⟩],
    [⟨20, 6, 0⟩], [.vd, .vs1, .vs2], [.vs1], .vst .i32 true false false true true⟩, 0x3454a21f#32⟩
where
  ldRow : Row := ⟨[.vld, .w, .lp, .xx], [.vld, .w, .lp, .xx], 3, [⟨26, 6, 5⟩, ⟨12, 2, 2⟩, ⟨5, 1, 0⟩, ⟨2, 3, 7⟩, ⟨0, 2, 3⟩],
    [⟨20, 6, 0⟩], [.vs1, .vs2], [.vs1, .vd], .vld .i32 true false false true true⟩

set_option maxRecDepth 100000 in
theorem addWords_ok : addWords.Ok .i32 (.bin .adds .i32) false where
  dec := fun i hi => decodesB_ok (List.all_eq_true.1 (by decide +kernel : addWords.insts.all decodesB = true) i hi)
  vl := rfl
  lda := rfl
  ldb := rfl
  op := rfl
  st := rfl
  len := by decide +kernel
  vs1 := by decide +kernel
  vs2 := by decide +kernel
  vd := by decide +kernel
  regs := by decide +kernel
  apart := .inl (by decide +kernel)

def overlapStart : Arch where
  x := fun q => if q = 6 then 9 else if q = 7 then 0x1000 else if q = 8 then 0x2000 else if q = 9 then 0x1004 else 0
  v := fun _ => 0
  mem := fun q => if q = 0x101c then 1 else 0
  acc := fun _ _ => 0
  dw := fun _ => none

/-- C85: the condition on the arrays is needed. With the destination one element behind the start of a source, nine
elements and eight lanes, the last element is computed from an element of the result. -/
theorem C85_behind_needed : ∃ s', times (loopBody 0x3fffff (fun _ => 0) addWords.insts 6 5) 2 overlapStart = .ok s' ∧
    s'.x 6 = 0 ∧ Spec.memElem true 32 overlapStart.mem 0x1020 = 0 ∧ Spec.memElem true 32 overlapStart.mem 0x2020 = 0 ∧
    Spec.memElem true 32 s'.mem 0x1024 = 1 := by
  have h : (match times (loopBody 0x3fffff (fun _ => 0) addWords.insts 6 5) 2 overlapStart with
    | .ok s' => decide (s'.x 6 = 0 ∧ Spec.memElem true 32 s'.mem 0x1024 = 1)
    | _ => false) = true := by decide +kernel
  cases hr : times (loopBody 0x3fffff (fun _ => 0) addWords.insts 6 5) 2 overlapStart with
  | ok s' =>
    rw [hr] at h
    have := of_decide_eq_true h
    exact ⟨s', rfl, this.1, by decide +kernel, by decide +kernel, this.2⟩
  | ub => rw [hr] at h; cases h
  | abort => rw [hr] at h; cases h

end Verif.Props
