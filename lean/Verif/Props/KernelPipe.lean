import Verif.Props.Kernel

/-!
# Property C86: loops over one array

A loop of vector instruction words over one source array (`PipeLoop`, `Verif/Model/Kernel.lean`): a copy, or a chain of lane
operations with scalar operands.
-/

namespace Verif.Props
open Verif Verif.Model Verif.Proofs

/-- The state in which the loop is entered: `N` elements, the arrays at `a` and `d`. -/
def Entry1 (p : PipeLoop) (N a d : Nat) (s : Arch) : Prop :=
  s.x p.rn = BitVec.ofNat 32 N ∧ s.x p.ra = BitVec.ofNat 32 a ∧ s.x p.rd = BitVec.ofNat 32 d

/-- The two arrays of `n` bytes lie in the memory, and the destination does not start inside the source. -/
def Placed1 (maxPhys n a d : Nat) : Prop :=
  (∀ q ∈ [a, d], q + n < if maxPhys ≤ 0x3fffff then 2 ^ 31 else 2 ^ 32) ∧ Spec.Behind d a n

/-- C86: after `k` rounds exactly the first `min N (k * cap)` elements of the destination hold the result of the chain; the
count and the addresses have moved on by as many elements; no other scalar register but that of the length and no other
byte of memory has changed. -/
theorem C86_rounds (maxPhys : Nat) (fresh : Nat → VReg) (p : PipeLoop) (T : CTy) (strip : Bool) (hp : p.Ok T strip)
    (sg : Bool) (f : Int → Int) (s : Arch)
    (hf : Chain strip sg T.bits [p.rn, p.rl, p.ra, p.rd] s.x p.ops (Spec.bitsAt p.ld.word 6 6) (Spec.bitsAt p.st.word 6 6) f)
    (N a d : Nat) (hpl : Placed1 maxPhys (N * (T.bits / 8)) a d) (hs : Entry1 p N a d s) (k j : Nat)
    (hj : j = min N (k * ((if strip then 4 else 1) * Spec.lanes T.bits))) :
    ∃ s', times (loopBody maxPhys fresh p.insts p.rn p.rl) k s = .ok s' ∧
      Spec.Mapped sg sg T.bits (fun x _ => f x) d a a j s.mem s'.mem ∧
      Entry1 p (N - j) (a + j * (T.bits / 8)) (d + j * (T.bits / 8)) s' ∧
      ∀ q, q ∉ [p.rn, p.rl, p.ra, p.rd] → s'.x q = s.x q := by
  obtain ⟨s', h, hI⟩ := pipe_times maxPhys fresh p T strip hp sg f s hf N a d _ rfl (hpl.1 a (by simp)) (hpl.1 d (by simp))
    hpl.2 ⟨hs.1, by simpa using hs.2.1, by simpa using hs.2.2, fun _ _ => rfl, fun e he => absurd he (Nat.not_lt_zero _),
      fun _ _ => rfl⟩ k
  subst hj
  exact ⟨s', h, hI.mem, ⟨hI.xn, hI.xa, hI.xd⟩, hI.others⟩

/-- C86: the loop ends after exactly `⌈N / cap⌉` rounds, with the whole destination computed. -/
theorem C86_loop (maxPhys : Nat) (fresh : Nat → VReg) (p : PipeLoop) (T : CTy) (strip : Bool) (hp : p.Ok T strip)
    (sg : Bool) (f : Int → Int) (s : Arch)
    (hf : Chain strip sg T.bits [p.rn, p.rl, p.ra, p.rd] s.x p.ops (Spec.bitsAt p.ld.word 6 6) (Spec.bitsAt p.st.word 6 6) f)
    (N a d : Nat) (hpl : Placed1 maxPhys (N * (T.bits / 8)) a d) (hs : Entry1 p N a d s) (c K : Nat)
    (hc : c = (if strip then 4 else 1) * Spec.lanes T.bits) (hK : K = (N + c - 1) / c) :
    (∀ k < K, ∃ s', times (loopBody maxPhys fresh p.insts p.rn p.rl) k s = .ok s' ∧ s'.x p.rn ≠ 0) ∧
    ∃ s', times (loopBody maxPhys fresh p.insts p.rn p.rl) K s = .ok s' ∧ s'.x p.rn = 0 ∧
      Spec.Mapped sg sg T.bits (fun x _ => f x) d a a N s.mem s'.mem := by
  have hc0 : 0 < c := by subst hc; cases T <;> cases strip <;> decide
  have hN : N < 2 ^ 32 := by
    have h := hpl.1 a (by simp)
    have hsz : 1 ≤ T.bits / 8 := by cases T <;> decide
    have : N * 1 ≤ N * (T.bits / 8) := Nat.mul_le_mul_left _ hsz
    split at h <;> omega
  have hKc : N ≤ K * c := by
    subst hK
    have := Nat.lt_div_mul_add (a := N + c - 1) hc0
    omega
  refine ⟨fun k hk => ?_, ?_⟩
  · obtain ⟨s', h, -, he, -⟩ := C86_rounds maxPhys fresh p T strip hp sg f s hf N a d hpl hs k _ rfl
    refine ⟨s', h, ?_⟩
    rw [he.1, ← hc]
    have : k * c < N := by
      have h1 : k + 1 ≤ (N + c - 1) / c := by omega
      have := (Nat.le_div_iff_mul_le hc0).1 h1
      rw [Nat.add_mul] at this
      omega
    intro hz
    have := congrArg BitVec.toNat hz
    rw [BitVec.toNat_ofNat, show BitVec.toNat (0 : BitVec 32) = 0 from rfl] at this
    omega
  · obtain ⟨s', h, hm, he, -⟩ := C86_rounds maxPhys fresh p T strip hp sg f s hf N a d hpl hs K N
      (by rw [← hc]; omega)
    exact ⟨s', h, by rw [he.1, Nat.sub_self]; rfl, hm⟩

/-- C86: without operations between the load and the store the loop copies: every byte of the destination is the byte that
the source had at entry, also when the destination overlaps the source from below, and no other byte changes. -/
theorem C86_copy (maxPhys : Nat) (fresh : Nat → VReg) (p : PipeLoop) (T : CTy) (strip : Bool) (hp : p.Ok T strip)
    (h0 : p.ops = []) (hv : Spec.bitsAt p.st.word 6 6 = Spec.bitsAt p.ld.word 6 6)
    (N a d : Nat) (hpl : Placed1 maxPhys (N * (T.bits / 8)) a d) (s : Arch) (hs : Entry1 p N a d s) :
    ∃ k s', times (loopBody maxPhys fresh p.insts p.rn p.rl) k s = .ok s' ∧ s'.x p.rn = 0 ∧
      (∀ q < N * (T.bits / 8), s'.mem (d + q) = s.mem (a + q)) ∧
      ∀ q, (q < d ∨ d + N * (T.bits / 8) ≤ q) → s'.mem q = s.mem q := by
  obtain ⟨-, s', h, hz, hm⟩ := C86_loop maxPhys fresh p T strip hp false (fun a => a) s
    (by rw [h0, hv]; exact .nil _) N a d hpl hs _ _ rfl rfl
  refine ⟨_, s', h, hz, fun q hq => ?_, hm.2⟩
  have hsz : 0 < T.bits / 8 := by cases T <;> decide
  have hpow : 256 ^ (T.bits / 8) = 2 ^ T.bits := by cases T <;> rfl
  have he : q / (T.bits / 8) < N := Nat.div_lt_of_lt_mul (by rwa [Nat.mul_comm])
  have := hm.1 _ he
  simp only [Spec.memElem, Spec.value, Bool.false_eq_true, if_false, BitVec.toNat_ofNat, Int.natCast_inj] at this
  rw [← hpow, Nat.mod_eq_of_lt (loadLE_lt _ _ _), Nat.mod_eq_of_lt (loadLE_lt _ _ _)] at this
  have hb : q % (T.bits / 8) < T.bits / 8 := Nat.mod_lt _ hsz
  have e1 := loadLE_byte s'.mem (T.bits / 8) (d + q / (T.bits / 8) * (T.bits / 8)) _ hb
  rw [this, loadLE_byte _ _ _ _ hb, Nat.add_assoc, Nat.add_assoc, Nat.mul_comm, Nat.div_add_mod] at e1
  exact (BitVec.eq_of_toNat_eq e1).symm

/-- C86: the operations `vmax` and `vmin` with scalars limit every element of the array to an interval. -/
theorem C86_clamp (maxPhys : Nat) (fresh : Nat → VReg) (p : PipeLoop) (T : CTy) (hb : T.bits ≤ 32) (strip : Bool)
    (hp : p.Ok T strip) (i j : Inst) (h0 : p.ops = [i, j]) (hi : i.Ok) (hj : j.Ok)
    (hmax : i.row.sem = .vec (.bin .max T) true strip) (hmin : j.row.sem = .vec (.bin .min T) true strip)
    (v1 : Spec.bitsAt i.word 14 6 = Spec.bitsAt p.ld.word 6 6) (v2 : Spec.bitsAt j.word 14 6 = Spec.bitsAt i.word 6 6)
    (v3 : Spec.bitsAt p.st.word 6 6 = Spec.bitsAt j.word 6 6)
    (o1 : Spec.NoOverlap (Spec.bitsAt i.word 6 6) (Spec.bitsAt i.word 14 6) (if strip then 4 else 1))
    (o2 : Spec.NoOverlap (Spec.bitsAt j.word 6 6) (Spec.bitsAt j.word 14 6) (if strip then 4 else 1))
    (rlo rhi : Nat) (elo : Spec.bitsAt i.word 20 6 = rlo) (ehi : Spec.bitsAt j.word 20 6 = rhi)
    (hrs : ∀ r ∈ [rlo, rhi], 0 < r ∧ r < 32 ∧ r ∉ [p.rn, p.rl, p.ra, p.rd])
    (N a d : Nat) (hpl : Placed1 maxPhys (N * (T.bits / 8)) a d) (s : Arch) (hs : Entry1 p N a d s) :
    ∃ k s', times (loopBody maxPhys fresh p.insts p.rn p.rl) k s = .ok s' ∧ s'.x p.rn = 0 ∧
      (∀ e < N, Spec.memElem T.signed T.bits s'.mem (d + e * (T.bits / 8)) =
        min (max (Spec.memElem T.signed T.bits s.mem (a + e * (T.bits / 8)))
          (Spec.scalarElem T.signed T.bits (s.x rlo))) (Spec.scalarElem T.signed T.bits (s.x rhi))) ∧
      ∀ q, (q < d ∨ d + N * (T.bits / 8) ≤ q) → s'.mem q = s.mem q := by
  have hlo := hrs rlo (by simp)
  have hhi := hrs rhi (by simp)
  subst elo ehi
  have c2 : Chain strip T.signed T.bits [p.rn, p.rl, p.ra, p.rd] s.x [j] (Spec.bitsAt j.word 14 6) (Spec.bitsAt j.word 6 6)
      fun x => min x (Spec.scalarElem T.signed T.bits (s.x (Spec.bitsAt j.word 20 6))) := by
    refine .cons j _ _ _ _ _ hj hmin hhi.1 hhi.2.1 hhi.2.2 (fun I rf e1 e2 e3 e4 => C06_vmin T hb I rf ?_ ?_) (.nil _)
    · rw [e1, e2, VInst.n, e4]; exact o2
    · rw [e3]; exact trivial
  rw [v2] at c2
  have c1 : Chain strip T.signed T.bits [p.rn, p.rl, p.ra, p.rd] s.x [i, j] (Spec.bitsAt i.word 14 6) (Spec.bitsAt j.word 6 6)
      fun x => min (max x (Spec.scalarElem T.signed T.bits (s.x (Spec.bitsAt i.word 20 6))))
        (Spec.scalarElem T.signed T.bits (s.x (Spec.bitsAt j.word 20 6))) := by
    refine .cons i _ _ _ _ _ hi hmax hlo.1 hlo.2.1 hlo.2.2 (fun I rf e1 e2 e3 e4 => C06_vmax T hb I rf ?_ ?_) c2
    · rw [e1, e2, VInst.n, e4]; exact o1
    · rw [e3]; exact trivial
  rw [← h0, v1, ← v3] at c1
  obtain ⟨-, s', h, hz, hm⟩ := C86_loop maxPhys fresh p T strip hp T.signed _ s c1 N a d hpl hs _ _ rfl rfl
  exact ⟨_, s', h, hz, hm.1, hm.2⟩

/-- `loop: getvl.b.x.m x5, x6; vld.b.lp.xx.m v0, x7, x5; vst.b.lp.xx.m v0, x9, x5; sub x6, x6, x5; bnez x6, loop`. -/
def copyBytes : PipeLoop where
  vl := addBytes.vl
  ld := addBytes.lda
  ops := []
  st := ⟨addBytes.st.row, 0x3454803f#32⟩

set_option maxRecDepth 100000 in
theorem copyBytes_ok : copyBytes.Ok .i8 true where
  dec := fun i hi => decodesB_ok (List.all_eq_true.1
    (by decide +kernel : [copyBytes.vl, copyBytes.ld, copyBytes.st].all decodesB = true) i hi)
  vl := rfl
  ld := rfl
  st := rfl
  len := by decide +kernel
  regs := by decide +kernel

/-- 1000 bytes are moved down by 16. -/
example (fresh : Nat → VReg) (s : Arch) (h6 : s.x 6 = 1000#32) (h7 : s.x 7 = 0x1010#32) (h9 : s.x 9 = 0x1000#32) :
    ∃ k s', times (loopBody 0x3fffff fresh copyBytes.insts 6 5) k s = .ok s' ∧ s'.x 6 = 0 ∧
      ∀ q < 1000, s'.mem (0x1000 + q) = s.mem (0x1010 + q) := by
  obtain ⟨k, s', h, hz, hm, -⟩ := C86_copy 0x3fffff fresh copyBytes .i8 true copyBytes_ok rfl (by decide +kernel) 1000 0x1010
    0x1000 ⟨by decide +kernel, by decide +kernel⟩ s ⟨h6, h7, h9⟩
  exact ⟨k, s', h, hz, hm⟩

/-- `loop: getvl.w.x x5, x6; vld.w.lp.xx v0, x7, x5; vst.w.lp.xx v0, x9, x5; sub x6, x6, x5; bnez x6, loop`. -/
def copyWords : PipeLoop where
  vl := addWords.vl
  ld := addWords.lda
  ops := []
  st := ⟨addWords.st.row, 0x3454a01f#32⟩

set_option maxRecDepth 100000 in
theorem copyWords_ok : copyWords.Ok .i32 false where
  dec := fun i hi => decodesB_ok (List.all_eq_true.1
    (by decide +kernel : [copyWords.vl, copyWords.ld, copyWords.st].all decodesB = true) i hi)
  vl := rfl
  ld := rfl
  st := rfl
  len := by decide +kernel
  regs := by decide +kernel

/-- C86: the condition on the arrays is needed: moving nine words up by one word with this loop loses the last one. -/
theorem C86_behind_needed : ∃ s', times (loopBody 0x3fffff (fun _ => 0) copyWords.insts 6 5) 2 overlapStart = .ok s' ∧
    s'.x 6 = 0 ∧ overlapStart.mem 0x1020 = 0 ∧ s'.mem 0x1024 = 1 := by
  have h : (match times (loopBody 0x3fffff (fun _ => 0) copyWords.insts 6 5) 2 overlapStart with
    | .ok s' => decide (s'.x 6 = 0 ∧ s'.mem 0x1024 = 1)
    | _ => false) = true := by decide +kernel
  cases hr : times (loopBody 0x3fffff (fun _ => 0) copyWords.insts 6 5) 2 overlapStart with
  | ok s' =>
    rw [hr] at h
    have := of_decide_eq_true h
    exact ⟨s', rfl, this.1, by decide +kernel, this.2⟩
  | ub => rw [hr] at h; cases h
  | abort => rw [hr] at h; cases h

/-- `loop: getvl.b.x x5, x6; vld.b.lp.xx v0, x7, x5; vmax.b.vx v4, v0, x10; vmin.b.vx v8, v4, x11; vst.b.lp.xx v8, x9, x5;
sub x6, x6, x5; bnez x6, loop`. -/
def clampBytes : PipeLoop where
  vl := ⟨⟨[.getvl, .b, .x], [.getvl, .b, .x], 0, [⟨28, 4, 1⟩, ⟨27, 1, 0⟩, ⟨25, 2, 0⟩, ⟨20, 5, 0⟩, ⟨12, 3, 0⟩, ⟨0, 7, 119⟩],
    [⟨15, 5, 0⟩, ⟨7, 5, 0⟩], [.rs1], [.rd], .getvl .i8 false true false⟩, 0x100302f7#32⟩
  ld := ⟨⟨[.vld, .b, .lp, .xx], [.vld, .b, .lp, .xx], 3, [⟨26, 6, 5⟩, ⟨12, 2, 0⟩, ⟨5, 1, 0⟩, ⟨2, 3, 7⟩, ⟨0, 2, 3⟩],
    [⟨20, 6, 0⟩], [.vs1, .vs2], [.vs1, .vd], .vld .i8 true false false true true⟩, 0x1453801f#32⟩
  ops := [lo, hi]
  st := ⟨⟨[.vst, .b, .lp, .xx], [.vst, .b, .lp, .xx], 3, [⟨26, 6, 13⟩, ⟨12, 2, 0⟩, ⟨5, 1, 0⟩, ⟨2, 3, 7⟩, ⟨0, 2, 3⟩],
    [⟨20, 6, 0⟩], [.vd, .vs1, .vs2], [.vs1], .vst .i8 true false false true true⟩, 0x3454821f#32⟩
where
  lo : Inst := ⟨⟨[.vmax, .b, .vx], [.vmax, .b, .vx], 1, [⟨26, 6, 18⟩, ⟨12, 2, 0⟩, ⟨5, 1, 0⟩, ⟨2, 3, 0⟩, ⟨0, 2, 2⟩], [],
    [.vs1, .vs2], [.vd], .vec (.bin .max .i8) true false⟩, 0x48a00102#32⟩
  hi : Inst := ⟨⟨[.vmin, .b, .vx], [.vmin, .b, .vx], 1, [⟨26, 6, 20⟩, ⟨12, 2, 0⟩, ⟨5, 1, 0⟩, ⟨2, 3, 0⟩, ⟨0, 2, 2⟩], [],
    [.vs1, .vs2], [.vd], .vec (.bin .min .i8) true false⟩, 0x50b10202#32⟩

set_option maxRecDepth 100000 in
theorem clampBytes_ok : clampBytes.Ok .i8 false where
  dec := fun i hi => decodesB_ok (List.all_eq_true.1
    (by decide +kernel : [clampBytes.vl, clampBytes.ld, clampBytes.st].all decodesB = true) i hi)
  vl := rfl
  ld := rfl
  st := rfl
  len := by decide +kernel
  regs := by decide +kernel

set_option maxRecDepth 100000 in
/-- 77 signed bytes are limited to -10 … 100 in place; the last one was -128. -/
example (fresh : Nat → VReg) (s : Arch) (h6 : s.x 6 = 77#32) (h7 : s.x 7 = 0x1000#32) (h9 : s.x 9 = 0x1000#32)
    (h10 : s.x 10 = -10#32) (h11 : s.x 11 = 100#32) (h : s.mem 0x104c = 0x80#8) :
    ∃ k s', times (loopBody 0x3fffff fresh clampBytes.insts 6 5) k s = .ok s' ∧ s'.x 6 = 0 ∧
      Spec.memElem true 8 s'.mem 0x104c = -10 := by
  obtain ⟨k, s', hr, hz, hm, -⟩ := C86_clamp 0x3fffff fresh clampBytes .i8 (by decide) false clampBytes_ok clampBytes.lo
    clampBytes.hi rfl (decodesB_ok (by decide +kernel)) (decodesB_ok (by decide +kernel)) rfl rfl (by decide +kernel)
    (by decide +kernel) (by decide +kernel) (by decide +kernel) (by decide +kernel) 10 11 (by decide +kernel)
    (by decide +kernel) (by decide +kernel) 77 0x1000 0x1000 ⟨by decide +kernel, by decide +kernel⟩ s ⟨h6, h7, h9⟩
  refine ⟨k, s', hr, hz, ?_⟩
  have := hm 76 (by decide)
  rw [h10, h11] at this
  refine this.trans ?_
  have e : Spec.memElem true 8 s.mem (0x1000 + 76 * (8 / 8)) = -128 := by
    unfold Spec.memElem
    simp only [Spec.loadLE, Nat.reduceMul, Nat.reduceDiv, Nat.reduceAdd, h]
    decide +kernel
  show min (max (Spec.memElem true 8 s.mem (0x1000 + 76 * (8 / 8))) _) _ = _
  rw [e]
  decide +kernel

end Verif.Props
