import Verif.Proofs.VecCore
import Verif.Props.Kernel
import Verif.Props.KernelDw

/-!
# Property C91: a vector program run by the core

The programs of C85 and C90 in the memory of the first core, executed with `Step` and `Run` (`Verif.Model.Top`), each word being
fetched, decoded and executed (`vecSem`, `Verif/Model/VecCore.lean`).
-/

namespace Verif.Props
open Verif Verif.Model Verif.Proofs
open Verif.Spec.Program (word ebreak)

/-- The words are in memory from the address of `pc` on, and end before the end of the address space. -/
def CodeAt (ws : List (BitVec 32)) (s : Arch) (pc : BitVec 32) : Prop :=
  (∀ k, (h : k < ws.length) → word s.mem (pc.toNat + 4 * k) = ws[k]) ∧ pc.toNat + 4 * ws.length < 2 ^ 32

/-- The decoder finds the rows of these instructions. -/
def Known (P : VecParams) (is : List Inst) : Prop := ∀ i ∈ is, i.Ok ∧ P.dec i.word = some i.row

/-- C91: `Step` over a piece of straight vector code. When no beginning of it writes its own words, the core reports as many
steps as there are instructions, and leaves exactly the registers, accumulators and memory the instructions compute one after the
other, the pc behind them, and the retired-instruction count advanced by their number. -/
theorem C91_step (env : Top.Env VecRegs) (P : VecParams) (henv : env.sem = vecSem P) (is : List Inst) (h0 : is ≠ []) (hd : Known P is)
    (s t : Arch) (h : runAll P.maxPhys P.fresh is s = .ok t) (pc : BitVec 32) (hw : CodeAt (is.map Inst.word) s pc)
    (hk : ∀ k t', runAll P.maxPhys P.fresh (is.take k) s = .ok t' →
      ∀ q, pc.toNat ≤ q → q < pc.toNat + 4 * is.length → t'.mem q = s.mem q) :
    ∃ s', Top.step env is.length (Top.fresh (s.machine pc)) = .ok (.ok is.length, s') ∧
      s'.m = t.machine (pc + BitVec.ofNat 32 (4 * is.length)) ∧ s'.status = .halted ∧ s'.reason = .none ∧
      s'.instret = is.length := by
  have hlen := hw.2
  rw [List.length_map] at hlen
  obtain ⟨g, r, -⟩ := block P (fun q => pc.toNat ≤ q ∧ q < pc.toNat + 4 * is.length) is s t pc hd h
    (fun k _ t' ht' q hq => hk k t' ht' q hq.1 hq.2) hw.1 hlen (fun q h1 h2 => ⟨h1, h2⟩)
  rw [← henv] at g r
  obtain ⟨s', e, hm, hs, hr, -, -, hi, -⟩ := Top.step_quiet env (Top.fresh (s.machine pc)) is.length
    (List.length_pos_iff.2 h0) rfl rfl (by simp [Top.fresh]) (fun i hi => (g i hi).1) (fun i hi w hw => nomatch hw) g.steady'
  exact ⟨s', e, hm.trans r, hs, hr, by rw [hi]; simp [Top.fresh]⟩

/-- C91: `Run` over vector code whose last instruction raises the illegal-instruction trap. The core stops by itself behind it,
with the reason of a user request, and what the instructions before it did stays done. -/
theorem C91_trap (env : Top.Env VecRegs) (P : VecParams) (henv : env.sem = vecSem P) (is : List Inst) (i : Inst)
    (hd : Known P (is ++ [i])) (s t u : Arch) (h : runAll P.maxPhys P.fresh is s = .ok t)
    (hi : execRow P.maxPhys P.fresh i.row i.word t = some (.ok (true, u))) (pc : BitVec 32)
    (hw : CodeAt ((is ++ [i]).map Inst.word) s pc)
    (hk : ∀ k t', runAll P.maxPhys P.fresh (is.take k) s = .ok t' →
      ∀ q, pc.toNat ≤ q → q < pc.toNat + 4 * (is.length + 1) → t'.mem q = s.mem q) (limit : Nat) (hl : is.length < limit) :
    ∃ s', Top.runHalt env limit (Top.fresh (s.machine pc)) = .ok (.ok (), s') ∧
      s'.m = u.machine (pc + BitVec.ofNat 32 (4 * is.length + 4)) ∧ s'.status = .halted ∧ s'.reason = .userRequest ∧
      s'.instret = is.length + 1 := by
  have hlen := hw.2
  rw [List.length_map, List.length_append, List.length_singleton] at hlen
  obtain ⟨g, r, hC⟩ := block P (fun q => pc.toNat ≤ q ∧ q < pc.toNat + 4 * (is.length + 1)) is s t pc
    (fun j hj => hd j (List.mem_append_left _ hj)) h (fun k _ t' ht' q hq => hk k t' ht' q hq.1 hq.2)
    (fun k hk => by
      have hk' : k < is.length := by simpa using hk
      rw [hw.1 k (by simp; omega)]
      simp only [List.map_append]
      rw [List.getElem_append_left hk])
    (by omega) (fun q h1 h2 => ⟨h1, by omega⟩)
  have e1 : (pc + BitVec.ofNat 32 (4 * is.length)).toNat = pc.toNat + 4 * is.length := toNat_addOfNat (by omega)
  have hwi : word t.mem (pc + BitVec.ofNat 32 (4 * is.length)).toNat = i.word := by
    rw [e1, word_congr (g := s.mem) (fun k hk => hC _ ⟨by omega, by omega⟩), hw.1 is.length (by simp)]
    simp
  have hn := next_vec P (hd i (by simp)).1 (hd i (by simp)).2 hi _ hwi
  rw [addOfNat_add4] at hn
  rw [← henv] at g r hn
  obtain ⟨s', e, hm, hs, hr, -, -, hin⟩ := Top.run_stops env (Top.fresh (s.machine pc)) is.length limit hl (by simp [Top.fresh]) rfl
    (fun i hi => (g i hi).1) (by show (Spec.Program.next env.sem (Spec.Program.run env.sem is.length (s.machine pc))).2 = _
                                 rw [r, hn]; rfl) (fun i hi w hw => nomatch hw)
    (g.steady (by rw [r]; exact hC) (by
      intro k hk
      rw [r]
      show pc.toNat ≤ (pc + BitVec.ofNat 32 (4 * is.length)).toNat + k ∧ (pc + BitVec.ofNat 32 (4 * is.length)).toNat + k < _
      omega))
  refine ⟨s', e, hm.trans ?_, hs, hr, by rw [hin]; simp [Top.fresh]⟩
  rw [Top.run_succ]
  show (Spec.Program.next env.sem (Spec.Program.run env.sem is.length (s.machine pc))).1 = _
  rw [r, hn]

/-- The loop over two arrays as an undisturbed execution: `7 * K` instructions that ask for nothing, then the `mpause`. -/
theorem vector_loop (P : VecParams) (p : MapLoop) (T : CTy) (v : VOp) (strip : Bool)
    (hp : p.Ok T v strip) (hd : Known P p.insts) (sub bne mpause : BitVec 32) (hB : LoopBase P 5 p.rn p.rl sub bne mpause)
    (sd ss : Bool) (f : Int → Int → Int) (hf : Computes p T v strip sd ss f) (N a b d : Nat)
    (hpl : Placed P.maxPhys (N * (T.bits / 8)) a b d) (s : Arch) (hs : Entry p N a b d s) (pc : BitVec 32)
    (hw : CodeAt (p.insts.map Inst.word ++ [sub, bne, mpause]) s pc)
    (hcode : pc.toNat + 32 ≤ d ∨ d + N * (T.bits / 8) ≤ pc.toNat) (c K : Nat)
    (hc : c = (if strip then 4 else 1) * Spec.lanes T.bits) (hK : K = max 1 ((N + c - 1) / c)) :
    (∀ i < 7 * K, (Spec.Program.next (vecSem P) (Spec.Program.run (vecSem P) i (s.machine pc))).2 = []) ∧
    (Spec.Program.next (vecSem P) (Spec.Program.run (vecSem P) (7 * K) (s.machine pc))).2 = [.ev .userRequest] ∧
    Spec.Program.Steady (vecSem P) (s.machine pc) (7 * K + 1) ∧
    ∃ t : Arch, Spec.Program.run (vecSem P) (7 * K + 1) (s.machine pc) = t.machine (pc + 32) ∧
      Spec.Mapped sd ss T.bits f d a b N s.mem t.mem ∧ t.x p.rn = 0 ∧
      ∀ q, q ∉ [p.rn, p.rl, p.ra, p.rb, p.rd] → t.x q = s.x q := by
  have hc0 : 0 < c := by subst hc; cases T <;> cases strip <;> decide
  have hrounds := fun k => C85_rounds P.maxPhys P.fresh p T v strip hp sd ss f hf N a b d hpl s hs k _ rfl
  choose S hS hM hE hX using hrounds
  have hS0 : S 0 = s := by
    have := hS 0
    simp only [times, Outcome.ok.injEq] at this
    exact this.symm
  have hstep : ∀ k, loopBody P.maxPhys P.fresh p.insts p.rn p.rl (S k) = .ok (S (k + 1)) := by
    intro k
    have := hS (k + 1)
    rwa [times, hS k, Outcome.ok_bind] at this
  have hlen : (p.insts.map Inst.word ++ [sub, bne, mpause]).length = 8 := rfl
  have hpc := hw.2
  rw [hlen] at hpc
  have hC : ∀ k q, (pc.toNat ≤ q ∧ q < pc.toNat + 32) → (S k).mem q = (S 0).mem q := by
    intro k q hq
    rw [hS0]
    refine (hM k).2 q ?_
    have : min N (k * ((if strip = true then 4 else 1) * Spec.lanes T.bits)) * (T.bits / 8) ≤ N * (T.bits / 8) :=
      Nat.mul_le_mul_right _ (Nat.min_le_left ..)
    omega
  obtain ⟨hnz, sK, hsK, hz, -⟩ := C85_loop P.maxPhys P.fresh p T v strip hp sd ss f hf N a b d hpl s hs c _ hc rfl
  have hn : ∀ k, 0 < k → k < K → (S k).x p.rn ≠ 0 := by
    intro k h0 hk
    obtain ⟨s', h, hx⟩ := hnz k (by omega)
    rw [hS k] at h
    cases h
    exact hx
  have hKc : N ≤ K * c := by
    have h1 : (N + c - 1) / c ≤ K := by omega
    have := Nat.lt_div_mul_add (a := N + c - 1) hc0
    have := Nat.mul_le_mul_right c h1
    omega
  have hmin : min N (K * ((if strip = true then 4 else 1) * Spec.lanes T.bits)) = N := by rw [← hc]; omega
  have h0 : (S K).x p.rn = 0 := by
    have := (hE K).1
    rw [hmin, Nat.sub_self] at this
    exact this
  have hMK := hM K
  rw [hmin] at hMK
  have hins : p.insts = [p.vl, p.lda, p.ldb, p.op] ++ [p.st] := rfl
  obtain ⟨g, r⟩ := loop P (fun q => pc.toNat ≤ q ∧ q < pc.toNat + 32) [p.vl, p.lda, p.ldb, p.op] p.st p.rn p.rl sub bne mpause mpause hB hd
    (by intro j hj
        simp only [List.mem_cons, List.not_mem_nil, or_false] at hj
        rcases hj with rfl | rfl | rfl | rfl
        · simp [stores, hp.vl]
        · simp [stores, hp.lda]
        · simp [stores, hp.ldb]
        · simp [stores, hp.op])
    S K (fun k _ => hstep k) (fun k _ => hC k) pc (by rw [hS0]; exact hw.1) (by simp only [List.length_append, List.length_cons, List.length_nil]; omega)
    (fun q h1 h2 => ⟨h1, by simpa only [List.length_append, List.length_cons, List.length_nil] using h2⟩) (by omega) hn h0
  have r' : Spec.Program.run (vecSem P) (7 * K) (s.machine pc) = (S K).machine (pc + BitVec.ofNat 32 28) := by
    rw [hS0] at r; exact r
  have g' : Good (vecSem P) (fun q => pc.toNat ≤ q ∧ q < pc.toNat + 32) (s.machine pc) (7 * K) := by rw [hS0] at g; exact g
  have e1 : (pc + BitVec.ofNat 32 28).toNat = pc.toNat + 28 := toNat_addOfNat (by omega)
  have hwm : word (S K).mem (pc + BitVec.ofNat 32 28).toNat = mpause := by
    rw [e1, word_congr (g := s.mem) (fun k hk => by rw [← hS0]; exact hC K _ ⟨by omega, by omega⟩)]
    exact hw.1 7 (by rw [hlen]; decide)
  have hnx := next_base P (hB.rows mpause (by simp)).1 (hB.rows mpause (by simp)).2 (S K) _ hwm
  rw [hB.mpause, addOfNat_add4] at hnx
  refine ⟨fun i hi => (g' i hi).1, by rw [r', hnx]; rfl, ?_, S K, ?_, hMK, h0, hX K⟩
  · exact g'.steady (by rw [r']; exact fun q hq => (hC K q hq).trans (by rw [hS0]; rfl)) (by
      intro k hk
      rw [r']
      show pc.toNat ≤ (pc + BitVec.ofNat 32 28).toNat + k ∧ (pc + BitVec.ofNat 32 28).toNat + k < _
      omega)
  · rw [Top.run_succ, r', hnx]
    rfl

/-- C91: `Run` of a whole loop over two arrays, ended by `mpause`, for any number of elements: the core stops by itself, behind
the `mpause`, with the destination computed and no other byte of memory changed (in particular none of the code); the
retired-instruction count is seven for each round, of which there is at least one, and one for the `mpause`. Needed: the
destination is apart from the code, and the base instructions mean what the RISC-V manual says. -/
theorem C91_run (env : Top.Env VecRegs) (P : VecParams) (henv : env.sem = vecSem P) (p : MapLoop) (T : CTy) (v : VOp) (strip : Bool)
    (hp : p.Ok T v strip) (hd : Known P p.insts) (sub bne mpause : BitVec 32) (hB : LoopBase P 5 p.rn p.rl sub bne mpause)
    (sd ss : Bool) (f : Int → Int → Int) (hf : Computes p T v strip sd ss f) (N a b d : Nat)
    (hpl : Placed P.maxPhys (N * (T.bits / 8)) a b d) (s : Arch) (hs : Entry p N a b d s) (pc : BitVec 32)
    (hw : CodeAt (p.insts.map Inst.word ++ [sub, bne, mpause]) s pc)
    (hcode : pc.toNat + 32 ≤ d ∨ d + N * (T.bits / 8) ≤ pc.toNat) (c K limit : Nat)
    (hc : c = (if strip then 4 else 1) * Spec.lanes T.bits) (hK : K = max 1 ((N + c - 1) / c)) (hl : 7 * K < limit) :
    ∃ s', Top.runHalt env limit (Top.fresh (s.machine pc)) = .ok (.ok (), s') ∧
      Spec.Mapped sd ss T.bits f d a b N s.mem s'.m.mem ∧ s'.m.pc = pc + 32 ∧ s'.m.regs.x p.rn = 0 ∧
      (∀ q, q ∉ [p.rn, p.rl, p.ra, p.rb, p.rd] → s'.m.regs.x q = s.x q) ∧
      s'.status = .halted ∧ s'.reason = .userRequest ∧ s'.instret = 7 * K + 1 := by
  obtain ⟨hq, hl1, hst, t, ht, hM, h0, hX⟩ := vector_loop P p T v strip hp hd sub bne mpause hB sd ss f hf N a b d hpl s hs pc hw
    hcode c K hc hK
  rw [← henv] at hq hl1 hst ht
  obtain ⟨s', e, hm, hst, hr, -, -, hin⟩ := Top.run_stops env (Top.fresh (s.machine pc)) (7 * K) limit hl (by simp [Top.fresh]) rfl
    hq hl1 (fun i hi w hw => nomatch hw) hst
  rw [show (Top.fresh (s.machine pc)).m = s.machine pc from rfl, ht] at hm
  refine ⟨s', e, ?_, ?_, ?_, ?_, hst, hr, by rw [hin]; simp [Top.fresh]⟩
  · rw [hm]; exact hM
  · rw [hm]; rfl
  · rw [hm]; exact h0
  · intro q hq
    rw [hm]; exact hX q hq

/-- C91: `Step` over the depthwise convolution program of C90. -/
theorem C91_filter (env : Top.Env VecRegs) (P : VecParams) (henv : env.sem = vecSem P) (p : DwProg) (W : CTy) (hp : p.Ok W)
    (hdec : Known P p.insts) (b d lim : Nat) (hlim : lim = if P.maxPhys ≤ 0x3fffff then 2 ^ 31 else 2 ^ 32) (hb : b + 128 ≤ lim)
    (hd : d + 128 ≤ lim) (s : Arch) (hs : DwEntry p b d s)
    (hfit : ∀ q < 32, -2 ^ 31 + 1000000 * (p.taps.length : Int) ≤ Spec.memElem true 32 s.mem (b + 4 * q) ∧
      Spec.memElem true 32 s.mem (b + 4 * q) < 2 ^ 31 - 1000000 * (p.taps.length : Int))
    (pc : BitVec 32) (hw : CodeAt (p.insts.map Inst.word) s pc)
    (hcode : pc.toNat + 4 * p.insts.length ≤ d ∨ d + 128 ≤ pc.toNat) :
    ∃ s', Top.step env p.insts.length (Top.fresh (s.machine pc)) = .ok (.ok p.insts.length, s') ∧
      (∀ e < 32, Spec.memElem true 32 s'.m.mem (d + 4 * dwCell e) =
        Spec.memElem true 32 s.mem (b + 4 * dwCell e) + tapsSum p.taps s.x s.v e) ∧
      (∀ q, (q < d ∨ d + 128 ≤ q) → s'.m.mem q = s.mem q) ∧ s'.m.pc = pc + BitVec.ofNat 32 (4 * p.insts.length) ∧
      s'.status = .halted ∧ s'.reason = .none ∧ s'.instret = p.insts.length := by
  obtain ⟨t, h, hv, hm, -⟩ := C90_filter P.maxPhys P.fresh p W hp b d lim hlim hb hd s hs hfit
  have hins : p.insts = ([p.ld, p.init] ++ p.taps) ++ [p.st] := by simp [DwProg.insts]
  have hst : ∀ j ∈ [p.ld, p.init] ++ p.taps, stores j = false := by
    intro j hj
    simp only [DwProg.taps, List.mem_append, List.mem_cons, List.not_mem_nil, or_false] at hj
    rcases hj with (rfl | rfl) | hj | rfl
    · simp [stores, hp.ld]
    · simp [stores, hp.init]
    · simp [stores, hp.convs j hj]
    · simp [stores, hp.out]
  have hkeep := keeps_last P.maxPhys P.fresh (fun q => pc.toNat ≤ q ∧ q < pc.toNat + 4 * p.insts.length) _ p.st s t hst
    (by rw [← hins]; exact h) (fun q hq => hm q (by omega))
  rw [← hins] at hkeep
  obtain ⟨s', e, em, es, er, ei⟩ := C91_step env P henv p.insts (by rw [hins]; simp) hdec s t h pc hw
    (fun k t' ht' q h1 h2 => by
      by_cases hk : k ≤ p.insts.length
      · exact hkeep k hk t' ht' q ⟨h1, h2⟩
      · rw [List.take_of_length_le (by omega), ← List.take_length (l := p.insts)] at ht'
        exact hkeep p.insts.length (Nat.le_refl _) t' ht' q ⟨h1, h2⟩)
  refine ⟨s', e, ?_, ?_, ?_, es, er, ei⟩
  · rw [em]; exact hv
  · rw [em]; exact hm
  · rw [em]; rfl

/-! ## Examples -/

/-- `sub x6, x6, x5`, `bne x6, x0, -24` and `mpause`. -/
def subWord : BitVec 32 := 0x40530333#32
def bneWord : BitVec 32 := 0xfe0314e3#32
def mpauseWord : BitVec 32 := 0x08000073#32

/-- The words of the loop `addBytes`. -/
def addCode : List (BitVec 32) := addBytes.insts.map Inst.word ++ [subWord, bneWord, mpauseWord]

/-- A decoder for the loop `addBytes`, and the three base instructions. -/
def addParams : VecParams where
  dec := fun w => (addBytes.insts.find? fun i => i.word == w).map Inst.row
  base := { inst := fun w a m =>
    if w = subWord then ({ m with regs := { m.regs with x := writeX m.regs.x 6 (m.regs.x 6 - m.regs.x 5) } }, [])
    else if w = bneWord then (if m.regs.x 6 = 0 then m else { m with pc := BitVec.ofNat 32 (a - 24) }, [])
    else (m, [.userRequest]) }
  und := { inst := fun _ _ m => (m, []) }
  maxPhys := 0x3fffff
  fresh := fun _ => 0

theorem addParams_known : Known addParams addBytes.insts := fun i hi =>
  ⟨addBytes_ok.dec i hi, by
    have h : ∀ i ∈ addBytes.insts, addParams.dec i.word = some i.row := by decide +kernel
    exact h i hi⟩

theorem addParams_base : LoopBase addParams 5 addBytes.rn addBytes.rl subWord bneWord mpauseWord where
  rows := by
    have h : ([subWord, bneWord, mpauseWord].all fun w => w != ebreak && (addParams.dec w).isNone) = true := by decide +kernel
    intro w hw
    have h := List.all_eq_true.1 h w hw
    simp only [Bool.and_eq_true, bne_iff_ne, Option.isNone_iff_eq_none] at h
    exact ⟨h.1, fun r hr => by rw [h.2] at hr; cases hr⟩
  marks := by
    intro w hw
    simp only [List.mem_cons, List.not_mem_nil, or_false] at hw
    rcases hw with rfl | rfl | rfl <;> decide
  sub := fun _ _ => rfl
  bne := fun _ _ => rfl
  mpause := fun _ _ => rfl

/-- The three base words decode as the base instructions they are meant to be. -/
example : (allRows.filter fun r => r.matches subWord).map Row.sem = [.scalar] ∧
    (allRows.filter fun r => r.matches bneWord).map Row.sem = [.scalar] ∧
    (allRows.filter fun r => r.matches mpauseWord).map Row.sem = [.scalar] := by decide +kernel

/-- The code at 0x100, 1000 bytes at 0x1000 and 0x2000, added in place: the core stops by itself after 57 instructions. -/
example (keep : Nat → Nat → Bool) (s : Arch) (h6 : s.x 6 = 1000#32) (h7 : s.x 7 = 0x1000#32) (h8 : s.x 8 = 0x2000#32)
    (h9 : s.x 9 = 0x1000#32) (ha : s.mem 0x13e7 = 100#8) (hb : s.mem 0x23e7 = 100#8)
    (hw : ∀ k, (h : k < addCode.length) → word s.mem (0x100 + 4 * k) = addCode[k]) :
    ∃ s', Top.runHalt ⟨vecSem addParams, keep⟩ 1000000 (Top.fresh (s.machine 0x100)) = .ok (.ok (), s') ∧
      Spec.memElem true 8 s'.m.mem 0x13e7 = 127 ∧ s'.reason = .userRequest ∧ s'.m.pc = 0x120 ∧ s'.instret = 57 := by
  have hf : Computes addBytes .i8 (.bin .adds .i8) true true true (fun a b => Spec.sat true 8 (a + b)) := by
    intro i rf e1 e2 e3 e4
    refine C01_vadds .i8 rfl (by decide) i rf ?_ ?_
    · rw [e1, e2, VInst.n, e4]; decide +kernel
    · rw [e1, e3, VInst.n, e4]; show Spec.NoOverlap (Spec.bitsAt addBytes.op.word 6 6) (Spec.bitsAt addBytes.op.word 20 6) _
      decide +kernel
  have hcode : CodeAt addCode s 0x100 := by
    refine ⟨fun k hk => ?_, by decide +kernel⟩
    rw [show (0x100 : BitVec 32).toNat = 0x100 from by decide]
    exact hw k hk
  obtain ⟨s', e, hm, hpc, -, -, -, hr, hi⟩ := C91_run ⟨vecSem addParams, keep⟩ addParams rfl addBytes .i8 _ true addBytes_ok
    addParams_known _ _ _ addParams_base true true _ hf 1000 0x1000 0x2000 0x1000
    (by refine ⟨?_, ?_, ?_⟩ <;> decide +kernel) s ⟨h6, h7, h8, h9⟩ 0x100 hcode (.inl (by decide)) 128 8 1000000 (by decide) (by decide)
    (by decide)
  refine ⟨s', e, ?_, hr, hpc.trans (by decide), hi⟩
  have := hm.1 999 (by decide)
  simp only [CTy.bits, Nat.reduceDiv, Nat.reduceMul, Nat.reduceAdd, Spec.memElem, Spec.loadLE, ha, hb] at this ⊢
  rw [this]; decide

/-- The words of `nineTaps` laid out at 0x100, over the memory of its example. -/
def nineTapsLoaded : Arch :=
  { nineTapsState with
    mem := fun q => if 0x100 ≤ q ∧ q < 0x118 then
      BitVec.ofNat 8 (((nineTaps.insts.map Inst.word).getD ((q - 0x100) / 4) 0).toNat / 2 ^ (8 * (q % 4))) else nineTapsState.mem q }

/-- A decoder for `nineTaps`. -/
def tapParams : VecParams :=
  { addParams with dec := fun w => (nineTaps.insts.find? fun i => i.word == w).map Inst.row }

theorem tapParams_known : Known tapParams nineTaps.insts := fun i hi =>
  ⟨nineTaps_ok.dec i hi, by
    have h : ∀ i ∈ nineTaps.insts, tapParams.dec i.word = some i.row := by decide +kernel
    exact h i hi⟩

theorem nineTapsLoaded_code : CodeAt (nineTaps.insts.map Inst.word) nineTapsLoaded 0x100#32 := by
  have h : ∀ k, k < 6 → word nineTapsLoaded.mem ((0x100#32).toNat + 4 * k) = (nineTaps.insts.map Inst.word).getD k 0 := by
    decide +kernel
  refine ⟨fun k hk => ?_, by decide +kernel⟩
  rw [h k hk, List.getD_eq_getElem _ _ hk]

set_option maxRecDepth 100000 in
/-- Six steps through the program of C90. -/
example (keep : Nat → Nat → Bool) :
    ∃ s', Top.step ⟨vecSem tapParams, keep⟩ 6 (Top.fresh (nineTapsLoaded.machine 0x100#32)) = .ok (.ok 6, s') ∧
      Spec.memElem true 32 s'.m.mem (0x2000 + 4 * 9) = 9 * (-56 * 3) + 100 ∧ s'.m.pc = 0x118#32 ∧ s'.instret = 6 := by
  obtain ⟨s', e, hv, -, hpc, -, -, hi⟩ := C91_filter ⟨vecSem tapParams, keep⟩ tapParams rfl nineTaps .i32 nineTaps_ok tapParams_known
    0x1000 0x2000 _ rfl (by decide) (by decide) nineTapsLoaded
    ⟨by decide +kernel, by decide +kernel, by decide +kernel, by decide +kernel⟩ (by decide +kernel) 0x100#32
    nineTapsLoaded_code (.inl (by decide +kernel))
  refine ⟨s', e, (hv 6 (by decide)).trans (by decide +kernel), hpc.trans (by decide +kernel), hi⟩

/-- `aconv.vxv v48, v0, x6, v16`. -/
def badConv : Inst :=
  ⟨⟨[.aconv, .vxv], [.aconv, .vxv], 2, [⟨12, 2, 2⟩, ⟨3, 2, 0⟩, ⟨6, 6, 48⟩, ⟨14, 4, 0⟩, ⟨26, 3, 0⟩, ⟨5, 1, 0⟩, ⟨0, 3, 5⟩],
    [⟨20, 6, 0⟩], [.vs1, .vs2, .vs3], [.vd], .aconv⟩, 0x40602c05#32⟩

def badParams : VecParams := { addParams with dec := fun w => (([addBytes.vl, badConv]).find? fun i => i.word == w).map Inst.row }

/-- `getvl.b.x.m x5, x6` and the convolution at 0x100, with an illegal command in `x6`. -/
def badState : Arch :=
  { nineTapsState with
    x := fun _ => 0xffffffff#32
    mem := fun q => if 0x100 ≤ q ∧ q < 0x108 then
      BitVec.ofNat 8 ((([addBytes.vl, badConv].map Inst.word).getD ((q - 0x100) / 4) 0).toNat / 2 ^ (8 * (q % 4))) else 0 }

set_option maxRecDepth 100000 in
/-- `Run` stops behind the convolution. -/
example (keep : Nat → Nat → Bool) :
    ∃ s', Top.runHalt ⟨vecSem badParams, keep⟩ 1000 (Top.fresh (badState.machine 0x100#32)) = .ok (.ok (), s') ∧
      s'.reason = .userRequest ∧ s'.m.pc = 0x108#32 ∧ s'.m.regs.x 5 = 128#32 ∧ s'.instret = 2 := by
  have hk : ∀ i ∈ [addBytes.vl, badConv], decodesB i = true ∧ badParams.dec i.word = some i.row := by decide +kernel
  have hc : ∀ k, k < 2 → word badState.mem ((0x100#32).toNat + 4 * k) = ([addBytes.vl, badConv].map Inst.word).getD k 0 := by
    decide +kernel
  obtain ⟨t, ht, hx⟩ : ∃ t, runAll 0x3fffff (fun _ => 0) [addBytes.vl] badState = .ok t ∧
      ∃ u, execRow 0x3fffff (fun _ => 0) badConv.row badConv.word t = some (.ok (true, u)) ∧ u.x 5 = 128#32 := by
    let f : Outcome Arch → Option (Outcome (Bool × Arch)) := fun o => match o with
      | .ok t => execRow 0x3fffff (fun _ => 0) badConv.row badConv.word t
      | _ => none
    have h : (match f (runAll 0x3fffff (fun _ => 0) [addBytes.vl] badState) with
      | some (.ok (true, u)) => decide (u.x 5 = 128#32)
      | _ => false) = true := by decide +kernel
    cases ht : runAll 0x3fffff (fun _ => 0) [addBytes.vl] badState with
    | ok t =>
      refine ⟨t, rfl, ?_⟩
      rw [ht] at h
      have h1 : f (.ok t) = execRow 0x3fffff (fun _ => 0) badConv.row badConv.word t := rfl
      rw [h1] at h
      split at h
      · rename_i u hu
        exact ⟨u, hu, of_decide_eq_true h⟩
      · cases h
    | ub => rw [ht] at h; cases h
    | abort => rw [ht] at h; cases h
  obtain ⟨u, hu, h5⟩ := hx
  obtain ⟨s', e, em, -, er, ei⟩ := C91_trap ⟨vecSem badParams, keep⟩ badParams rfl [addBytes.vl] badConv
    (fun i hi => ⟨decodesB_ok (hk i hi).1, (hk i hi).2⟩) badState t u ht hu 0x100#32
    ⟨fun k h => (hc k h).trans (List.getD_eq_getElem _ _ h), by decide +kernel⟩
    (fun k t' ht' q _ _ => by
      rw [keeps_none 0x3fffff (fun _ => 0) (List.take k [addBytes.vl]) badState t' (by
        have h : ∀ j ∈ [addBytes.vl], stores j = false := by decide +kernel
        exact fun j hj => h j (List.mem_of_mem_take hj)) ht']) 1000 (by decide)
  exact ⟨s', e, er, by rw [em]; rfl, by rw [em]; exact h5, ei⟩

end Verif.Props
