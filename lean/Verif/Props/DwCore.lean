import Verif.Proofs.DwCore
import Verif.Props.KernelDw
import Verif.Props.KernelMat
import Verif.Props.RenodeCore

/-!
# Property C119: a depthwise convolution carried out by the core

The program of C90 behind loads that fill its vector registers, and an `mpause`, in the memory of the first core. Each word is
fetched, decoded and executed; first with `Run`, then for a host that sends program, data and registers through the Renode agent.
-/

namespace Verif.Props
open Verif Verif.Model Verif.Model.Agent Verif.Model.RenodeCore Verif.Proofs Verif.Proofs.RenodeCore
open Verif.Spec.Program (word ebreak)
open Verif.Model.Top (St fresh)

/-- The words of the program. -/
def dwWords (p : DwProg) (ls : List Inst) (mpause : BitVec 32) : List (BitVec 32) := (ls ++ p.insts).map Inst.word ++ [mpause]

/-- The base instruction `mpause`: it asks to stop and does nothing else. -/
structure Pause (P : VecParams) (w : BitVec 32) : Prop where
  word : w ≠ ebreak
  rows : ∀ r, P.dec w = some r → r.sem = .scalar
  sem : ∀ a m, P.base w a m = (m, [.userRequest])

/-- The state in which the whole program is entered: that of C90, the address of the data, and lengths that fill whole groups. -/
structure DwStart (p : DwProg) (ra a b d : Nat) (s : Arch) : Prop where
  entry : DwEntry p b d s
  xa : s.x ra = BitVec.ofNat 32 a
  full : 128 ≤ (s.x p.rl).toNat
  fit : ∀ q < 32, -2 ^ 31 + 1000000 * (p.taps.length : Int) ≤ Spec.memElem true 32 s.mem (b + 4 * q) ∧
    Spec.memElem true 32 s.mem (b + 4 * q) < 2 ^ 31 - 1000000 * (p.taps.length : Int)

/-- What the program leaves: each lane's bias plus its products, taken from the bytes at `a`, in the word of the lane; the rest of
memory as it was; three addresses moved on. -/
structure DwDone (p : DwProg) (n ra g a b d : Nat) (s : Arch) (x : Nat → BitVec 32) (mem : Nat → BitVec 8) : Prop where
  sums : ∀ e < 32, Spec.memElem true 32 mem (d + 4 * dwCell e) =
    Spec.memElem true 32 s.mem (b + 4 * dwCell e) + tapsSum p.taps s.x (Spec.filled g (4 * n) a s.mem s.v) e
  rest : ∀ q, (q < d ∨ d + 128 ≤ q) → mem q = s.mem q
  xa : x ra = BitVec.ofNat 32 (a + 128 * n)
  xb : x p.rb = BitVec.ofNat 32 (b + 128)
  xd : x p.rd = BitVec.ofNat 32 (d + 128)
  others : ∀ q, q ∉ [ra, p.rb, p.rd] → x q = s.x q

/-- The program as an undisturbed execution: all its vector instructions ask for nothing, then the `mpause`. -/
theorem filter_line (P : VecParams) (p : DwProg) (W : CTy) (hp : p.Ok W) (ls : List Inst) (B : CTy) (ra g : Nat)
    (hls : DwLoads p ls B ra g) (hk : Known P (ls ++ p.insts)) (mpause : BitVec 32) (hP : Pause P mpause)
    (a b d lim N : Nat) (hN : N = (ls ++ p.insts).length) (hlim : lim = if P.maxPhys ≤ 0x3fffff then 2 ^ 31 else 2 ^ 32)
    (ha : a + 128 * ls.length ≤ lim) (hb : b + 128 ≤ lim) (hd : d + 128 ≤ lim) (s : Arch) (hs : DwStart p ra a b d s)
    (pc : BitVec 32) (hw : CodeAt (dwWords p ls mpause) s pc) (hcode : pc.toNat + (4 * N + 4) ≤ d ∨ d + 128 ≤ pc.toNat) :
    (∀ i < N, (Spec.Program.next (vecSem P) (Spec.Program.run (vecSem P) i (s.machine pc))).2 = []) ∧
    (Spec.Program.next (vecSem P) (Spec.Program.run (vecSem P) N (s.machine pc))).2 = [.ev .userRequest] ∧
    Spec.Program.Steady (vecSem P) (s.machine pc) (N + 1) ∧
    ∃ t : Arch, runAll P.maxPhys P.fresh (ls ++ p.insts) s = .ok t ∧
      Spec.Program.run (vecSem P) (N + 1) (s.machine pc) = t.machine (pc + BitVec.ofNat 32 (4 * N + 4)) ∧
      DwDone p ls.length ra g a b d s t.x t.mem := by
  have hfree := hls.free
  simp only [List.mem_cons, List.not_mem_nil, or_false, not_or] at hfree
  obtain ⟨q0, qb, qd, ql⟩ := hfree
  have hr := hp.regs
  simp only [List.nodup_cons, List.mem_cons, List.not_mem_nil, or_false, not_or, not_false_eq_true] at hr
  obtain ⟨⟨n0b, n0d, n0l⟩, ⟨nbd, nbl⟩, ndl, -⟩ := hr
  obtain ⟨s1, r1, m1, v1, x1⟩ := run_loads P.maxPhys P.fresh B hls.byte ra p.rl lim hlim q0 (Ne.symm n0l) ql ls g a s
    (fun i hi => ⟨hls.dec i hi, hls.ld i hi, hls.src i hi, hls.len i hi⟩) hls.dst hs.xa hs.full ha
  have hcmd : ∀ i ∈ p.taps, tapCmd i s1.x = tapCmd i s.x := by
    intro i hi
    unfold tapCmd
    rw [x1, if_neg (hls.cmds i hi)]
  have hx : ∀ q, q ≠ ra → s1.x q = s.x q := fun q h => by rw [x1, if_neg h]
  obtain ⟨t, r2, h1, h2, -, h4, h5, h6, -⟩ := C90_filter P.maxPhys P.fresh p W hp b d lim hlim hb hd s1
    ⟨by rw [hx _ (Ne.symm qb)]; exact hs.entry.xb, by rw [hx _ (Ne.symm qd)]; exact hs.entry.xd,
      by rw [hx _ (Ne.symm ql)]; exact hs.entry.xl, fun i hi => by rw [hcmd i hi]; exact hs.entry.legal i hi⟩
    (by rw [m1]; exact hs.fit)
  rw [m1] at h1 h2
  have hrun : runAll P.maxPhys P.fresh (ls ++ p.insts) s = .ok t := by rw [runAll_append, r1, Outcome.ok_bind]; exact r2
  have hlen : (dwWords p ls mpause).length = N + 1 := by simp [dwWords, hN]; omega
  have hpc := hw.2
  rw [hlen] at hpc
  obtain ⟨C, hC⟩ : ∃ C : Nat → Prop, C = fun q => pc.toNat ≤ q ∧ q < pc.toNat + (4 * N + 4) := ⟨_, rfl⟩
  have inC : ∀ q, pc.toNat ≤ q → q < pc.toNat + (4 * N + 4) → C q := fun q h1 h2 => by rw [hC]; exact ⟨h1, h2⟩
  have out : ∀ q, C q → t.mem q = s.mem q := by rw [hC]; intro q hq; exact h2 q (by omega)
  have hsplit : ls ++ p.insts = (ls ++ ([p.ld, p.init] ++ p.taps)) ++ [p.st] := by
    simp only [DwProg.insts, List.append_assoc]
  have hkeep := keeps_last P.maxPhys P.fresh C (ls ++ ([p.ld, p.init] ++ p.taps)) p.st s t
    (by
      intro j hj
      unfold stores
      simp only [List.mem_append, List.mem_cons, List.not_mem_nil, or_false, DwProg.taps] at hj
      rcases hj with hj | (rfl | rfl) | hj | rfl
      · rw [hls.ld j hj]
      · rw [hp.ld]
      · rw [hp.init]
      · rw [hp.convs j hj]
      · rw [hp.out]) (by rw [← hsplit]; exact hrun) out
  rw [← hsplit] at hkeep
  obtain ⟨gd, r, -⟩ := block P C (ls ++ p.insts) s t pc hk hrun hkeep
    (fun k hk' => by
      have hkN : k < N := by rw [hN]; simpa using hk'
      rw [hw.1 k (by rw [hlen]; omega)]
      exact List.getElem_append_left hk')
    (by rw [← hN]; omega) (fun q h1 h2 => inC q h1 (by rw [← hN] at h2; omega))
  rw [← hN] at gd r
  have hwm : word t.mem (pc + BitVec.ofNat 32 (4 * N)).toNat = mpause := by
    rw [toNat_addOfNat (by omega), word_congr (g := s.mem) (fun k hk => out _ (inC _ (by omega) (by omega))),
      hw.1 N (by rw [hlen]; omega)]
    simp [dwWords, hN]
  have hnx := next_base P hP.word hP.rows t _ hwm
  rw [hP.sem, addOfNat_add4] at hnx
  refine ⟨fun i hi => (gd i hi).1, by rw [r, hnx]; rfl, ?_, t, hrun, ?_, ⟨?_, ?_, ?_, ?_, ?_, ?_⟩⟩
  · refine gd.steady (by rw [r]; exact out) (fun k hk => ?_)
    rw [r]
    show C ((pc + BitVec.ofNat 32 (4 * N)).toNat + k)
    rw [toNat_addOfNat (by omega)]
    exact inC _ (by omega) (by omega)
  · rw [Top.run_succ, r, hnx]
  · intro e he
    rw [h1 e he]
    congr 1
    rw [← v1]
    unfold tapsSum
    refine congrArg List.sum (List.map_congr_left fun i hi => ?_)
    unfold tapSum
    rw [hcmd i hi]
  · exact h2
  · rw [h4 _ qb qd, x1, if_pos rfl]
  · exact h5
  · exact h6
  · intro q hq
    simp only [List.mem_cons, List.not_mem_nil, or_false, not_or] at hq
    rw [h4 q hq.2.1 hq.2.2, hx q hq.1]

/-- C119: `Run` of the whole program, for any number of loads and of convolution instructions and any contents of memory and
registers. The core stops by itself behind the `mpause`: each of the 32 result words is the bias of its lane plus the sum of
three products for each convolution instruction, activations and weights being the bytes of memory the loads fetched; no other
byte of memory has changed (in particular none of the code), of the scalar registers only the three addresses have, and one
instruction has been retired for each word of the program. Needed: the result is apart from the code (it may overlap the
biases and the data). -/
theorem C119_run (env : Top.Env VecRegs) (P : VecParams) (henv : env.sem = vecSem P) (p : DwProg) (W : CTy) (hp : p.Ok W)
    (ls : List Inst) (B : CTy) (ra g : Nat) (hls : DwLoads p ls B ra g) (hk : Known P (ls ++ p.insts)) (mpause : BitVec 32)
    (hP : Pause P mpause) (a b d lim N : Nat) (hN : N = (ls ++ p.insts).length)
    (hlim : lim = if P.maxPhys ≤ 0x3fffff then 2 ^ 31 else 2 ^ 32)
    (ha : a + 128 * ls.length ≤ lim) (hb : b + 128 ≤ lim) (hd : d + 128 ≤ lim) (s : Arch) (hs : DwStart p ra a b d s)
    (pc : BitVec 32) (hw : CodeAt (dwWords p ls mpause) s pc) (hcode : pc.toNat + (4 * N + 4) ≤ d ∨ d + 128 ≤ pc.toNat)
    (limit : Nat) (hl : N < limit) :
    ∃ s', Top.runHalt env limit (fresh (s.machine pc)) = .ok (.ok (), s') ∧
      DwDone p ls.length ra g a b d s s'.m.regs.x s'.m.mem ∧ s'.m.pc = pc + BitVec.ofNat 32 (4 * N + 4) ∧
      s'.status = .halted ∧ s'.reason = .userRequest ∧ s'.instret = N + 1 := by
  obtain ⟨hq, hl1, hst, t, -, ht, hD⟩ := filter_line P p W hp ls B ra g hls hk mpause hP a b d lim N hN hlim ha hb hd s hs pc hw hcode
  rw [← henv] at hq hl1 hst ht
  obtain ⟨s', e, hm, hst, hr, -, -, hin⟩ := Top.run_stops env (fresh (s.machine pc)) N limit hl (by simp [fresh])
    rfl hq hl1 (fun i hi w hw => nomatch hw) hst
  rw [show (fresh (s.machine pc)).m = s.machine pc from rfl, ht] at hm
  refine ⟨s', e, ?_, ?_, hst, hr, by rw [hin]; simp [fresh]⟩ <;> rw [hm]
  · exact hD
  · rfl

/-! ## A program carried out for the host -/

variable {σ : Type}

/-- What the host does: send blocks of bytes, set registers and the pc, step in pieces of any sizes, fetch bytes. -/
def job (nb : Numbering) (id : BitVec 32) (bs : List (Nat × List (BitVec 8))) (rs : List (Fin 32 × BitVec 32)) (pc : Nat)
    (ns : List (BitVec 64)) (n : BitVec 64) (d len : Nat) : List Call :=
  bs.map (fun b => Call.writeMemory id (BitVec.ofNat 64 b.1) b.2) ++
  (rs.map (fun r => Call.writeRegister id (nb.num (.x r.1)) (BitVec.ofNat 64 r.2.toNat)) ++
  (.writeRegister id (nb.num .pc) (BitVec.ofNat 64 pc) ::
  (ns.map (fun k => Call.step id k false) ++ .step id n false :: [.readMemory id (BitVec.ofNat 64 d) (BitVec.ofNat 64 len)])))

/-- The machine the host has set up. -/
def arranged (R : Params σ) (m : Spec.Program.Machine σ) (bs : List (Nat × List (BitVec 8))) (rs : List (Fin 32 × BitVec 32))
    (pc : Nat) : Spec.Program.Machine σ :=
  ⟨BitVec.ofNat 32 pc, Spec.placed m.mem bs, rs.foldl (fun g r => R.setX g r.1 r.2) m.regs⟩

/-- C119: any program carried out for the host, whatever the instructions mean, from an instance as `construct` makes it. If the
program, as it is sent, executes `T` instructions that ask for nothing and then one that asks to stop, and does not rewrite the
words it executes, then every call succeeds: every block is taken whole, every step but the last reports its full number, the last
one what was left of `T + 1`, and the bytes fetched are those the undisturbed execution leaves. -/
theorem C119_job (R : Params σ) (bs : List (Nat × List (BitVec 8))) (rs : List (Fin 32 × BitVec 32)) (pc : Nat) (hpc : pc < 2 ^ 32)
    (hbs : ∀ b ∈ bs, b.2 ≠ [] ∧ b.1 + b.2.length ≤ 0x400000) (ns : List (BitVec 64)) (n : BitVec 64) (h0 : ∀ k ∈ ns, 0 < k.toNat)
    (d len T : Nat) (hlen : 0 < len) (hd : d + len ≤ 0x400000) (hT : T < 2147483647) (hns : (ns.map BitVec.toNat).sum ≤ T)
    (hn : T < (ns.map BitVec.toNat).sum + n.toNat) (m m' : Spec.Program.Machine σ) (hm' : m' = arranged R m bs rs pc)
    (hq : ∀ i < T, (Spec.Program.next R.env.sem (Spec.Program.run R.env.sem i m')).2 = [])
    (hlast : (Spec.Program.next R.env.sem (Spec.Program.run R.env.sem T m')).2 = [.ev .userRequest])
    (hst : Spec.Program.Steady R.env.sem m' (T + 1)) (ag : Agent (St σ)) (id : BitVec 32) (hag : ag.inst id = some (fresh m)) :
    ∃ tr ag', calls (core R) (job R.nb id bs rs pc ns n d len) ag = .ok (tr, ag') ∧
      tr.map Prod.snd = bs.map (fun b => { ret := BitVec.ofNat 64 b.2.length }) ++ (rs.map (fun _ => { ret := 0 }) ++
        ({ ret := 0 } :: (ns.map (fun k => { ret := k, status := some 0 }) ++
        [{ ret := BitVec.ofNat 64 (T + 1 - (ns.map BitVec.toNat).sum), status := some 0 },
         { ret := BitVec.ofNat 64 len,
           bytes := some ((List.range len).map fun k => (Spec.Program.run R.env.sem (T + 1) m').mem (d + k)) }]))) := by
  have h64 : ∀ q, q < 2 ^ 33 → (BitVec.ofNat 64 q).toNat = q := fun q hq => by
    rw [BitVec.toNat_ofNat]; exact Nat.mod_eq_of_lt (by omega)
  obtain ⟨s', e1, e2, e3⟩ := calls_steps R m' T hT hq hlast hst id n ag
    [.readMemory id (BitVec.ofNat 64 d) (BitVec.ofNat 64 len)] ns 0 (fresh m') h0 (by omega) (by omega) (At.fresh R _ _)
  have hpeek := call_peek R id (BitVec.ofNat 64 d) (BitVec.ofNat 64 len) (by rw [h64 _ (by omega)]; exact hlen)
    (by rw [h64 _ (by omega), h64 _ (by omega)]; exact hd) ag s' e1
  rw [h64 d (by omega), h64 len (by omega), e2] at hpeek
  obtain ⟨tr, f1, f2⟩ := e3 _ _ (calls_cons hpeek rfl)
  rw [Nat.zero_add] at f2
  have hstart : ag = seat ag id (fresh m) := (seat_self ag id _ hag).symm
  have hpcs := call_setPc R id (BitVec.ofNat 64 pc) ag
    { m with mem := Spec.placed m.mem bs, regs := rs.foldl (fun g r => R.setX g r.1 r.2) m.regs }
  rw [h64 pc (by omega)] at hpcs
  have hall := send_blocks R id ag _ _ _ bs m hbs (send_regs R id ag _ _ _ rs { m with mem := Spec.placed m.mem bs }
    (replies_cons hpcs ⟨tr, by rw [hm'] at f1; exact f1, f2⟩))
  rw [← hstart] at hall
  obtain ⟨tr', g1, g2⟩ := hall
  exact ⟨tr', _, g1, g2⟩

/-- C119: a depthwise convolution carried out for the host. Needed: the state the host has set up is as the program expects it,
the program and the result lie in the memory and apart from each other, and the steps asked for reach the end only with the last. The
bytes fetched at the end are, word for word, bias plus products of the bytes sent. -/
theorem C119_filter (R : Params VecRegs) (P : VecParams) (henv : R.env.sem = vecSem P) (hP : P.maxPhys = 0x3fffff)
    (p : DwProg) (W : CTy) (hp : p.Ok W) (ls : List Inst) (B : CTy) (ra g : Nat) (hls : DwLoads p ls B ra g)
    (hk : Known P (ls ++ p.insts)) (mpause : BitVec 32) (hM : Pause P mpause) (a b d N pc : Nat) (hN : N = (ls ++ p.insts).length)
    (ha : a + 128 * ls.length ≤ 0x400000) (hb : b + 128 ≤ 0x400000) (hd : d + 128 ≤ 0x400000) (hpc : pc + (4 * N + 4) ≤ 0x400000)
    (hcode : pc + (4 * N + 4) ≤ d ∨ d + 128 ≤ pc)
    (bs : List (Nat × List (BitVec 8))) (rs : List (Fin 32 × BitVec 32)) (hbs : ∀ b ∈ bs, b.2 ≠ [] ∧ b.1 + b.2.length ≤ 0x400000)
    (m : Spec.Program.Machine VecRegs) (s : Arch) (hset : arranged R m bs rs pc = s.machine (BitVec.ofNat 32 pc))
    (hs : DwStart p ra a b d s) (hw : CodeAt (dwWords p ls mpause) s (BitVec.ofNat 32 pc))
    (ns : List (BitVec 64)) (n : BitVec 64) (h0 : ∀ k ∈ ns, 0 < k.toNat)
    (hns : (ns.map BitVec.toNat).sum ≤ N) (hn : N < (ns.map BitVec.toNat).sum + n.toNat)
    (ag : Agent (St VecRegs)) (id : BitVec 32) (hag : ag.inst id = some (fresh m)) :
    ∃ tr ag' D, calls (core R) (job R.nb id bs rs pc ns n d 128) ag = .ok (tr, ag') ∧
      tr.map Prod.snd = bs.map (fun b => { ret := BitVec.ofNat 64 b.2.length }) ++ (rs.map (fun _ => { ret := 0 }) ++
        ({ ret := 0 } :: (ns.map (fun k => { ret := k, status := some 0 }) ++
        [{ ret := BitVec.ofNat 64 (N + 1 - (ns.map BitVec.toNat).sum), status := some 0 }, { ret := 128, bytes := some D }]))) ∧
      D.length = 128 ∧ ∀ e < 32, Spec.memElem true 32 (fun q => D.getD q 0) (4 * dwCell e) =
        Spec.memElem true 32 s.mem (b + 4 * dwCell e) + tapsSum p.taps s.x (Spec.filled g (4 * ls.length) a s.mem s.v) e := by
  have hpc32 : (BitVec.ofNat 32 pc).toNat = pc := by
    rw [BitVec.toNat_ofNat]; exact Nat.mod_eq_of_lt (by omega)
  have hlim : ∀ q, q ≤ 0x400000 → q ≤ if P.maxPhys ≤ 0x3fffff then 2 ^ 31 else 2 ^ 32 := by
    intro q hq
    rw [hP, if_pos (by decide)]
    omega
  obtain ⟨hq, hl1, hst, t, -, ht, hD⟩ := filter_line P p W hp ls B ra g hls hk mpause hM a b d _ N hN rfl (hlim _ ha) (hlim _ hb)
    (hlim _ hd) s hs (BitVec.ofNat 32 pc) hw (by rw [hpc32]; exact hcode)
  rw [← henv] at hq hl1 hst ht
  obtain ⟨tr, ag', e1, e2⟩ := C119_job R bs rs pc (by omega) hbs ns n h0 d 128 N (by decide) hd (by omega) hns hn m _ hset.symm hq hl1
    hst ag id hag
  refine ⟨tr, ag', _, e1, e2, by simp, fun e he => ?_⟩
  rw [← hD.sums e he, ht]
  have hcell : ∀ e < 32, dwCell e < 32 := by decide +kernel
  have hc := hcell e he
  have key : ∀ q, q < 128 → ((List.range 128).map fun k => (t.machine (BitVec.ofNat 32 pc + BitVec.ofNat 32 (4 * N + 4))).mem
      (d + k)).getD q 0 = t.mem (d + q) := by
    intro q hq
    rw [List.getD_eq_getElem _ _ (by simpa using hq), List.getElem_map, List.getElem_range]
    rfl
  have hl : ∀ k q, q + k ≤ 128 → Spec.loadLE k (fun q => ((List.range 128).map fun k =>
      (t.machine (BitVec.ofNat 32 pc + BitVec.ofNat 32 (4 * N + 4))).mem (d + k)).getD q 0) q = Spec.loadLE k t.mem (d + q) := by
    intro k
    induction k with
    | zero => intro q _; rfl
    | succ k ih =>
      intro q hq
      unfold Spec.loadLE
      rw [ih (q + 1) (by omega), ← key q (by omega), Nat.add_assoc d q 1]
  unfold Spec.memElem
  rw [hl (32 / 8) (4 * dwCell e) (by omega)]

/-! ## Example -/

/-- `vld.b.lp.xx.m v0, x8, x5` and so on up to `v24`: the registers of `nineTaps`. -/
def sevenLoads : List Inst := [0x1454003f#32, 0x1454013f#32, 0x1454023f#32, 0x1454033f#32, 0x1454043f#32, 0x1454053f#32,
  0x1454063f#32].map (Inst.mk matBytes.ldRow)

set_option maxRecDepth 100000 in
theorem sevenLoads_ok : DwLoads nineTaps sevenLoads .i8 8 0 where
  dec := fun i hi => decodesB_ok (List.all_eq_true.1 (by decide +kernel : sevenLoads.all decodesB = true) i hi)
  byte := rfl
  ld := by intro i hi; obtain ⟨w, -, rfl⟩ := List.mem_map.1 hi; rfl
  src := by decide +kernel
  len := by decide +kernel
  dst := by decide +kernel
  free := by decide +kernel
  cmds := by decide +kernel

/-- A decoder for the program, and `mpause`. -/
def dwParams : VecParams where
  dec := fun w => ((sevenLoads ++ nineTaps.insts).find? fun i => i.word == w).map Inst.row
  base := { inst := fun _ _ m => (m, [.userRequest]) }
  und := { inst := fun _ _ m => (m, []) }
  maxPhys := 0x3fffff
  fresh := fun _ => 0

theorem dwParams_known : Known dwParams (sevenLoads ++ nineTaps.insts) := fun i hi =>
  ⟨by rcases List.mem_append.1 hi with h | h
      · exact sevenLoads_ok.dec i h
      · exact nineTaps_ok.dec i h, by
    have h : ∀ i ∈ sevenLoads ++ nineTaps.insts, dwParams.dec i.word = some i.row := by decide +kernel
    exact h i hi⟩

theorem dwParams_pause : Pause dwParams mpauseWord where
  word := by decide +kernel
  rows := by
    have h : (dwParams.dec mpauseWord).isNone = true := by decide +kernel
    intro r hr
    rw [hr] at h
    cases h
  sem := fun _ _ => rfl

/-- Everything 0. -/
def blankCore : Spec.Program.Machine VecRegs := ⟨0, fun _ => 0, ⟨fun _ => 0, fun _ => 0, fun _ _ => 0, fun _ => none⟩⟩

def dwCore (keep : Nat → Nat → Bool) : Params VecRegs := { addCore keep blankCore with env := ⟨vecSem dwParams, keep⟩ }

/-- The program at 0x100, activations 200 (read as signed: -56) and weights 3 at 0x1000, biases at 0x2000. -/
def dwBlocks : List (Nat × List (BitVec 8)) :=
  [(0x100, bytesOf (dwWords nineTaps sevenLoads mpauseWord)), (0x1000, List.replicate 512 200 ++ List.replicate 384 3),
   (0x2000, (List.range 128).map fun q => if q = 4 * 9 then 100 else 0)]

/-- Lengths, addresses, and the three commands. -/
def dwSent : List (Fin 32 × BitVec 32) :=
  [(5, 128), (7, 0x2000), (8, 0x1000), (9, 0x3000), (10, 0x00200000), (11, 0x00200030), (12, 0x00200060)]

/-- The state the host sets up. -/
def dwState : Arch where
  x := (dwSent.foldl (fun (g : VecRegs) r => { g with x := fun q => if q = r.1.val then r.2 else g.x q }) blankCore.regs).x
  v := fun _ => 0
  mem := Spec.placed (fun _ => 0) dwBlocks
  acc := fun _ _ => 0
  dw := fun _ => none

set_option maxRecDepth 100000 in
/-- One instance is made, sent program and data, and stepped in pieces of 5 and up to 100 instructions: the last piece executes 9.
Nine taps of -56 * 3 in lane 5, whose accumulator word, the number 17, has the bias 0, and in lane 6, whose word is 9, with
bias 100. -/
example (keep : Nat → Nat → Bool) :
    ∃ tr ag' D, calls (core (dwCore keep)) (.construct 32 none :: job dwarf 0 dwBlocks dwSent 0x100 [5] 100 0x3000 128) empty =
        .ok (tr, ag') ∧
      tr.map Prod.snd = [{ ret := 0 }, { ret := 56 }, { ret := 896 }, { ret := 128 }, { ret := 0 }, { ret := 0 }, { ret := 0 },
        { ret := 0 }, { ret := 0 }, { ret := 0 }, { ret := 0 }, { ret := 0 }, { ret := 5, status := some 0 },
        { ret := 9, status := some 0 }, { ret := 128, bytes := some D }] ∧
      Spec.memElem true 32 (fun q => D.getD q 0) (4 * 17) = 9 * (-56 * 3) ∧
      Spec.memElem true 32 (fun q => D.getD q 0) (4 * 9) = 9 * (-56 * 3) + 100 := by
  have hlen : (dwWords nineTaps sevenLoads mpauseWord).length = 14 := rfl
  obtain ⟨tr, ag', D, e1, e2, -, e4⟩ := C119_filter (dwCore keep) dwParams rfl rfl nineTaps .i32 nineTaps_ok sevenLoads .i8 8 0
    sevenLoads_ok dwParams_known mpauseWord dwParams_pause 0x1000 0x2000 0x3000 13 0x100 rfl (by decide) (by decide) (by decide)
    (by decide) (by decide) dwBlocks dwSent (by decide +kernel) blankCore dwState rfl
    ⟨⟨by decide +kernel, by decide +kernel, by decide +kernel, by decide +kernel⟩, by decide +kernel, by decide +kernel,
      by decide +kernel⟩
    ⟨fun k hk => by
      have h : ∀ k (h : k < (dwWords nineTaps sevenLoads mpauseWord).length), word dwState.mem ((BitVec.ofNat 32 0x100).toNat + 4 * k) =
          (dwWords nineTaps sevenLoads mpauseWord)[k] := by decide +kernel
      exact h k hk, by decide +kernel⟩ [5] 100 (by simp) (by simp) (by simp)
    (construct (core (dwCore keep)) 32 none empty).2 0 rfl
  have hc : call (core (dwCore keep)) (.construct 32 none) empty =
      .ok ({ ret := 0 }, (construct (core (dwCore keep)) 32 none empty).2) := rfl
  refine ⟨_, ag', D, calls_cons hc e1, ?_, (e4 5 (by decide)).trans ?_, (e4 6 (by decide)).trans ?_⟩
  · rw [List.map_cons, e2]
    rfl
  · decide +kernel
  · decide +kernel

end Verif.Props
