import Verif.Proofs.RenodeCore
import Verif.Props.Agent
import Verif.Props.DebugMem
import Verif.Props.VecCore

/-!
# C93: the agent in front of the core

The C functions of the agent, the run control, the debug memory and the vector instructions put together
(`Verif/Model/RenodeCore.lean`).
-/

namespace Verif.Props

open Verif Verif.Model Verif.Model.Agent Verif.Model.RenodeCore Verif.Proofs.RenodeCore
open Verif.Model.Top (St fresh)

variable {σ : Type}

/-- The registers outside the table and the ELF loader leave the run status alone. -/
structure Polite (R : Params σ) : Prop where
  set : ∀ n v s, s.status = .halted → (R.otherSet n v s).2.status = .halted
  elf : ∀ f s, s.status = .halted → (R.elf f s).2.status = .halted

/-- C93: whatever the calls, every instance is halted after each of them. -/
theorem C93_halted (R : Params σ) (hR : Polite R) (cs : List Call) (tr : List (Call × Reply)) (a : Agent (St σ))
    (h : calls (core R) cs empty = .ok (tr, a)) (id : BitVec 32) (s : St σ) (hs : a.inst id = some s) : s.status = .halted := by
  refine calls_inv (core R) (fun s => s.status = .halted) ?_ cs empty (fun _ _ h => nomatch h) tr a h id s hs
  constructor
  · intro mem c d h
    cases h; rfl
  · intro reg v s hs
    show (Model.RenodeCore.writeReg R reg v s).2.status = _
    unfold Model.RenodeCore.writeReg
    split
    · exact hs
    · split
      · exact hR.set _ _ _ hs
      · exact hs
    · exact writePc_halted _ _ hs
    · split <;> exact hs
  · intro ad b s r hs h
    revert h
    show Model.RenodeCore.writeMem ad b s = _ → _
    unfold Model.RenodeCore.writeMem
    cases Model.DebugMem.writeMemory (isHalted s) s.m.mem ad.toNat b with
    | ok x => intro h; cases h; exact hs
    | ub => intro h; cases h
    | abort => intro h; cases h
  · intro f s hs
    exact hR.elf f s hs
  · intro e s hs
    exact writePc_halted _ _ hs
  · intro f ad s r hs h
    revert h
    show Model.RenodeCore.loadImage R f ad s = _ → _
    unfold Model.RenodeCore.loadImage
    cases Model.DebugMem.loadImage (isHalted s) s.m.mem (R.file f) ad.toNat with
    | ok x => intro h; cases h; exact hs
    | ub => intro h; cases h
    | abort => intro h; cases h
  · intro n s r hs h
    revert h
    show stepN R n s = _ → _
    unfold stepN
    cases hx : Top.step R.env n s with
    | ok x => intro h; cases h; exact step_halted hx hs
    | ub => intro h; cases h
    | abort => intro h; cases h
  · intro s hs
    show (Model.RenodeCore.halt s).2.status = _
    unfold Model.RenodeCore.halt
    rw [hs]
    exact hs

/-- C93: so no register or memory call, and no halt, is ever refused: the registers of the table are read and written, a
request for bytes that exist is carried out in full, and `halt` answers 0. -/
theorem C93_access (R : Params σ) (hR : Polite R) (cs : List Call) (tr : List (Call × Reply)) (a : Agent (St σ))
    (h : calls (core R) cs empty = .ok (tr, a)) (id : BitVec 32) (hl : a.inst id ≠ none) :
    (∀ r, ∃ v, readRegister (core R) id (R.nb.num r) false a = ({ ret := 0, value := some v }, a)) ∧
    (∀ r v, (writeRegister (core R) id (R.nb.num r) v a).1 = { ret := 0 }) ∧
    (∀ ad len : BitVec 64, 0 < len.toNat → ad.toNat + len.toNat ≤ 0x400000 →
      ∃ D, D.length = len.toNat ∧ readMemory (core R) id ad len a = .ok ({ ret := len, bytes := some D }, a)) ∧
    (∀ (ad : BitVec 64) (b : List (BitVec 8)), b ≠ [] → ad.toNat + b.length ≤ 0x400000 → ∃ a',
      writeMemory (core R) id ad b a = .ok ({ ret := BitVec.ofNat 64 b.length }, a') ∧
      ∀ len, len.toNat = b.length → readMemory (core R) id ad len a' = .ok ({ ret := len, bytes := some b }, a')) ∧
    (halt (core R) id true a).1 = { ret := 0 } := by
  cases hs : a.inst id with
  | none => exact absurd hs hl
  | some s =>
    have hst := C93_halted R hR cs tr a h id s hs
    have hseat := seat_self a id s hs
    have hpeek := fun (ad len : BitVec 64) h0 hl (s : St σ) hs => call_peek R id ad len h0 hl a s hs
    refine ⟨?_, ?_, ?_, ?_, ?_⟩
    · intro r
      refine ⟨((regsOf R s).val r).zeroExtend 64, ?_⟩
      have h1 : (core R).readReg (R.nb.num r) s = some (((regsOf R s).val r).zeroExtend 64) := by
        show Model.RenodeCore.readReg R (R.nb.num r) s = _
        unfold Model.RenodeCore.readReg Model.Agent.readReg
        rw [R.nb.find_num]
        have : (regsOf R s).halted = true := by simp [regsOf, isHalted, hst]
        simp only [this, if_true]
      unfold readRegister
      simp only [hs, h1]
      rfl
    · intro r v
      have h1 : ((core R).writeReg (R.nb.num r) v s).1 = some () := by
        show (Model.RenodeCore.writeReg R _ v s).1 = _
        unfold Model.RenodeCore.writeReg
        rw [R.nb.find_num]
        cases r with
        | pc => simp only [Top.writePc, hst]; rfl
        | x i => simp only [isHalted, hst]; rfl
      unfold writeRegister
      simp only [hs, h1]
      rfl
    · intro ad len h0 hl
      have e := hpeek ad len h0 hl s hst
      rw [hseat] at e
      exact ⟨_, by simp, e⟩
    · intro ad b hb hl
      obtain ⟨s', e, e1, e2⟩ := poke_live R id ad b hb hl a s hst
      rw [hseat] at e
      refine ⟨_, e, fun len hlen => ?_⟩
      have e' := hpeek ad len (by rw [hlen]; exact List.length_pos_iff.2 hb) (by omega) s' e1
      refine Eq.trans (show _ = call (core R) (.readMemory id ad len) (seat a id s') from rfl) (e'.trans ?_)
      congr 4
      refine List.ext_getElem (by simp [hlen]) fun k h1 h2 => ?_
      rw [List.getElem_map, List.getElem_range, e2.1 k h2]
    · have h1 : (core R).halt s = (some (), s) := by
        show Model.RenodeCore.halt s = _
        unfold Model.RenodeCore.halt
        rw [hst]
      unfold Model.Agent.halt
      simp only [hs, h1]
      rfl

/-- C93, where it ends: a request for no bytes at an address that exists ends the process. -/
theorem C93_empty (R : Params σ) (hR : Polite R) (cs : List Call) (tr : List (Call × Reply)) (a : Agent (St σ))
    (h : calls (core R) cs empty = .ok (tr, a)) (id : BitVec 32) (hl : a.inst id ≠ none) (ad : BitVec 64)
    (had : ad.toNat < 0x400000) :
    readMemory (core R) id ad 0 a = .abort ∧ writeMemory (core R) id ad [] a = .abort := by
  cases hs : a.inst id with
  | none => exact absurd hs hl
  | some s =>
    have hst := C93_halted R hR cs tr a h id s hs
    obtain ⟨e1, e2⟩ := C42_empty_abort s.m.mem ad.toNat (by omega)
    constructor
    · unfold readMemory
      rw [hs]
      show Model.RenodeCore.readMem ad 0 s >>= _ = _
      unfold Model.RenodeCore.readMem isHalted
      rw [hst]
      show (Model.DebugMem.readMemory true s.m.mem ad.toNat 0 >>= _) >>= _ = _
      rw [e1]
      rfl
    · unfold writeMemory
      rw [hs]
      show Model.RenodeCore.writeMem ad [] s >>= _ = _
      unfold Model.RenodeCore.writeMem isHalted
      rw [hst]
      show (Model.DebugMem.writeMemory true s.m.mem ad.toNat [] >>= _) >>= _ = _
      rw [e2]
      rfl

/-! ## A computation carried out for the host -/

/-- The bytes of the words, little end first. -/
def bytesOf (ws : List (BitVec 32)) : List (BitVec 8) :=
  ws.flatMap fun w => [w.extractLsb' 0 8, w.extractLsb' 8 8, w.extractLsb' 16 8, w.extractLsb' 24 8]

/-- Element `e` of an array given as bytes. -/
def elem (s : Bool) (w : Nat) (L : List (BitVec 8)) (e : Nat) : Int := Spec.memElem s w (fun q => L.getD q 0) (e * (w / 8))

theorem word_bytesOf (mem : Nat → BitVec 8) : ∀ (pc : Nat) (ws : List (BitVec 32)),
    (∀ q, pc ≤ q → q < pc + 4 * ws.length → mem q = (bytesOf ws).getD (q - pc) 0) →
    ∀ k, (h : k < ws.length) → Spec.Program.word mem (pc + 4 * k) = ws[k]
  | pc, [], _, k, h => nomatch h
  | pc, w :: ws, hm, k, h => by
    have e : bytesOf (w :: ws) =
        [w.extractLsb' 0 8, w.extractLsb' 8 8, w.extractLsb' 16 8, w.extractLsb' 24 8] ++ bytesOf ws := rfl
    rw [List.length_cons] at hm h
    cases k with
    | zero =>
      have h0 := hm pc (by omega) (by omega)
      have h1 := hm (pc + 1) (by omega) (by omega)
      have h2 := hm (pc + 2) (by omega) (by omega)
      have h3 := hm (pc + 3) (by omega) (by omega)
      rw [e] at h0 h1 h2 h3
      simp only [Nat.sub_self, Nat.add_sub_cancel_left, List.cons_append, List.getD_cons_zero, List.getD_cons_succ] at h0 h1 h2 h3
      show mem (pc + 3) ++ mem (pc + 2) ++ mem (pc + 1) ++ mem pc = w
      rw [h0, h1, h2, h3]
      exact Proofs.Top.word_split w
    | succ k =>
      have := word_bytesOf mem (pc + 4) ws (fun q h1 h2 => by
        rw [hm q (by omega) (by omega), e, List.getD_append_right _ _ _ _ (by simp; omega)]
        congr 1) k (by omega)
      rw [show pc + 4 * (k + 1) = pc + 4 + 4 * k by omega, this]
      rfl

theorem elem_eq (s : Bool) (w : Nat) (L : List (BitVec 8)) (mem : Nat → BitVec 8) (a N : Nat)
    (hm : ∀ q, a ≤ q → q < a + N * (w / 8) → mem q = L.getD (q - a) 0) (e : Nat) (he : e < N) :
    Spec.memElem s w mem (a + e * (w / 8)) = elem s w L e := by
  have key : ∀ n p, a ≤ p → p + n ≤ a + N * (w / 8) →
      Spec.loadLE n mem p = Spec.loadLE n (fun q => L.getD q 0) (p - a) := by
    intro n
    induction n with
    | zero => intro p _ _; rfl
    | succ n ih =>
      intro p h1 h2
      unfold Spec.loadLE
      rw [ih (p + 1) (by omega) (by omega), hm p h1 (by omega), show p + 1 - a = p - a + 1 by omega]
  have hle : (e + 1) * (w / 8) ≤ N * (w / 8) := Nat.mul_le_mul_right _ he
  rw [Nat.add_mul, Nat.one_mul] at hle
  unfold elem Spec.memElem
  rw [key _ _ (by omega) (by omega), Nat.add_sub_cancel_left]

/-- What the host does: load the program and the two arrays, set the registers and the pc, step in pieces of any sizes, fetch
the result. -/
def offload (nb : Numbering) (id : BitVec 32) (p : MapLoop) (code A B : List (BitVec 8)) (pc a b d N len : Nat)
    (ns : List (BitVec 64)) (n : BitVec 64) : List Call :=
  [.writeMemory id (BitVec.ofNat 64 pc) code, .writeMemory id (BitVec.ofNat 64 a) A, .writeMemory id (BitVec.ofNat 64 b) B,
   .writeRegister id (nb.num (.x (Fin.ofNat 32 p.rn))) (BitVec.ofNat 64 N),
   .writeRegister id (nb.num (.x (Fin.ofNat 32 p.ra))) (BitVec.ofNat 64 a),
   .writeRegister id (nb.num (.x (Fin.ofNat 32 p.rb))) (BitVec.ofNat 64 b),
   .writeRegister id (nb.num (.x (Fin.ofNat 32 p.rd))) (BitVec.ofNat 64 d),
   .writeRegister id (nb.num .pc) (BitVec.ofNat 64 pc)] ++
  (ns.map (fun k => Call.step id k false) ++ .step id n false :: [.readMemory id (BitVec.ofNat 64 d) (BitVec.ofNat 64 len)])

/-- C93: a loop over two arrays carried out for the host, from an instance as `construct` makes it: every call succeeds,
every step but the last reports its full number, the last one what was left of `7 * K + 1`, and the bytes fetched at the end
are the array computed from the two arrays sent. Needed: there is an element; code, sources and destination lie in the memory,
code and sources apart from each other, the destination apart from the code and not starting inside a source; the
steps asked for reach the end only with the last. -/
theorem C93_offload (R : Params VecRegs) (P : VecParams) (henv : R.env.sem = vecSem P) (hP : P.maxPhys = 0x3fffff)
    (hset : ∀ r i v, R.setX r i v = { r with x := fun q => if q = i.val then v else r.x q })
    (p : MapLoop) (T : CTy) (v : VOp) (strip : Bool) (hp : p.Ok T v strip) (hd : Known P p.insts) (sub bne mpause : BitVec 32)
    (hB : LoopBase P 5 p.rn p.rl sub bne mpause) (sd ss : Bool) (f : Int → Int → Int) (hf : Computes p T v strip sd ss f)
    (N a b d pc len : Nat) (hN : 0 < N) (hlen : len = N * (T.bits / 8)) (A B : List (BitVec 8)) (hA : A.length = len)
    (hB' : B.length = len) (hin : ∀ q ∈ [a, b, d], q + len ≤ 0x400000) (hpc : pc + 32 ≤ 0x400000)
    (hab : a + len ≤ b ∨ b + len ≤ a) (hca : ∀ q ∈ [a, b, d], pc + 32 ≤ q ∨ q + len ≤ pc) (hda : Spec.Behind d a len)
    (hdb : Spec.Behind d b len) (c K : Nat) (hc : c = (if strip then 4 else 1) * Spec.lanes T.bits)
    (hK : K = (N + c - 1) / c) (ns : List (BitVec 64)) (n : BitVec 64) (h0 : ∀ k ∈ ns, 0 < k.toNat)
    (hns : (ns.map BitVec.toNat).sum ≤ 7 * K) (hn : 7 * K < (ns.map BitVec.toNat).sum + n.toNat)
    (ag : Agent (St VecRegs)) (id : BitVec 32) (m : Spec.Program.Machine VecRegs) (hag : ag.inst id = some (fresh m)) :
    ∃ tr ag' D, calls (core R) (offload R.nb id p (bytesOf (p.insts.map Inst.word ++ [sub, bne, mpause])) A B pc a b d N len ns n)
        ag = .ok (tr, ag') ∧
      tr.map Prod.snd = [{ ret := 32 }, { ret := BitVec.ofNat 64 len }, { ret := BitVec.ofNat 64 len }, { ret := 0 },
          { ret := 0 }, { ret := 0 }, { ret := 0 }, { ret := 0 }] ++ (ns.map (fun k => { ret := k, status := some 0 }) ++
          [{ ret := BitVec.ofNat 64 (7 * K + 1 - (ns.map BitVec.toNat).sum), status := some 0 },
           { ret := BitVec.ofNat 64 len, bytes := some D }]) ∧
      D.length = len ∧ ∀ e < N, elem sd T.bits D e = f (elem ss T.bits A e) (elem ss T.bits B e) := by
  simp only [List.mem_cons, List.not_mem_nil, or_false, forall_eq_or_imp, forall_eq] at hin hca
  obtain ⟨hia, hib, hid⟩ := hin
  obtain ⟨hca, hcb, hcd⟩ := hca
  obtain ⟨ws, hws⟩ : ∃ ws, ws = p.insts.map Inst.word ++ [sub, bne, mpause] := ⟨_, rfl⟩
  have hcl : (bytesOf ws).length = 32 := by rw [hws]; rfl
  have hl0 : 0 < len := by
    rw [hlen]
    exact Nat.mul_pos hN (by cases T <;> decide)
  have hw8 : 0 < T.bits / 8 := by cases T <;> decide
  have hNl : N ≤ len := by rw [hlen]; exact Nat.le_mul_of_pos_right N hw8
  have hc0 : 0 < c := by subst hc; cases T <;> cases strip <;> decide
  have hK1 : 1 ≤ K := by rw [hK]; exact (Nat.one_le_div_iff hc0).2 (by omega)
  have hKN : K ≤ N := by
    rw [hK]
    refine Nat.div_le_of_le_mul ?_
    obtain ⟨N', rfl⟩ : ∃ N', N = N' + 1 := ⟨N - 1, by omega⟩
    obtain ⟨c', hc'⟩ : ∃ c', c = c' + 1 := ⟨c - 1, by omega⟩
    have : (c' + 1) * (N' + 1) = c' * N' + c' + N' + 1 := by ring
    rw [hc', this]
    omega
  have h64 : ∀ q, q < 2 ^ 32 → (BitVec.ofNat 64 q).toNat = q := fun q hq => by
    rw [BitVec.toNat_ofNat]; exact Nat.mod_eq_of_lt (by omega)
  have h32 : ∀ q, (BitVec.ofNat 64 q).truncate 32 = BitVec.ofNat 32 q := fun q => by
    apply BitVec.eq_of_toNat_eq
    simp
  -- the machine after the set-up
  obtain ⟨mem, hmem⟩ : ∃ mem, mem = Proofs.DebugMem.put (Proofs.DebugMem.put (Proofs.DebugMem.put m.mem pc (bytesOf ws)) a A) b B :=
    ⟨_, rfl⟩
  obtain ⟨x, hx⟩ : ∃ x : Nat → BitVec 32, x = fun q => if q = p.rd then BitVec.ofNat 32 d else
    if q = p.rb then BitVec.ofNat 32 b else if q = p.ra then BitVec.ofNat 32 a else if q = p.rn then BitVec.ofNat 32 N
      else m.regs.x q := ⟨_, rfl⟩
  obtain ⟨s, hs⟩ : ∃ s : Arch, s = { x, v := m.regs.v, mem, acc := m.regs.acc, dw := m.regs.dw } := ⟨_, rfl⟩
  have hmB : ∀ q, b ≤ q → q < b + len → mem q = B.getD (q - b) 0 := by
    intro q h1 h2
    rw [hmem]; unfold Proofs.DebugMem.put
    rw [dif_pos (by omega), List.getD_eq_getElem]
  have hmA : ∀ q, a ≤ q → q < a + len → mem q = A.getD (q - a) 0 := by
    intro q h1 h2
    rw [hmem]; unfold Proofs.DebugMem.put
    rw [dif_neg (by omega), dif_pos (by omega), List.getD_eq_getElem]
  have hmC : ∀ q, pc ≤ q → q < pc + 32 → mem q = (bytesOf ws).getD (q - pc) 0 := by
    intro q h1 h2
    rw [hmem]; unfold Proofs.DebugMem.put
    rw [dif_neg (by omega), dif_neg (by omega), dif_pos (by omega), List.getD_eq_getElem]
  have hpc32 : (BitVec.ofNat 32 pc).toNat = pc := by
    rw [BitVec.toNat_ofNat]; exact Nat.mod_eq_of_lt (by omega)
  have hcode : CodeAt (p.insts.map Inst.word ++ [sub, bne, mpause]) s (BitVec.ofNat 32 pc) := by
    rw [← hws]
    have hwl : ws.length = 8 := by rw [hws]; rfl
    refine ⟨fun k hk => ?_, by rw [hpc32, hwl]; omega⟩
    rw [hpc32, hs]
    exact word_bytesOf mem pc ws (by rw [hwl]; exact hmC) k hk
  have hreg := hp.regs
  simp only [List.nodup_cons, List.mem_cons, List.not_mem_nil, or_false, not_or, List.nodup_nil, and_true] at hreg
  obtain ⟨-, ⟨-, r1, r2, r3⟩, -, ⟨r4, r5⟩, r6, -⟩ := hreg
  have hentry : Entry p N a b d s := by
    rw [hs, hx]
    refine ⟨?_, ?_, ?_, ?_⟩ <;> dsimp only
    · rw [if_neg r3, if_neg r2, if_neg r1, if_pos rfl]
    · rw [if_neg r5, if_neg r4, if_pos rfl]
    · rw [if_neg r6, if_pos rfl]
    · rw [if_pos rfl]
  have hplaced : Placed P.maxPhys (N * (T.bits / 8)) a b d := by
    rw [← hlen]
    refine ⟨?_, hda, hdb⟩
    rw [hP]
    intro q hq
    simp only [List.mem_cons, List.not_mem_nil, or_false] at hq
    rw [if_pos (by decide)]
    rcases hq with rfl | rfl | rfl <;> omega
  obtain ⟨hq, hl1, hst, t, ht, hM, -, -⟩ := vector_loop P p T v strip hp hd sub bne mpause hB sd ss f hf N a b d hplaced s hentry
    (BitVec.ofNat 32 pc) hcode (by rw [hpc32, ← hlen]; exact hcd) c K hc (by rw [← hK]; omega)
  rw [← henv] at hq hl1 hst ht
  obtain ⟨s', e1, e2, e3⟩ := calls_steps R (s.machine (BitVec.ofNat 32 pc)) (7 * K) (by omega) hq hl1 hst id n ag
    [.readMemory id (BitVec.ofNat 64 d) (BitVec.ofNat 64 len)] ns 0 (fresh (s.machine (BitVec.ofNat 32 pc))) h0 (by omega) (by omega)
    (At.fresh R _ _)
  have hmem' : s'.m.mem = t.mem := by rw [e2, ht]; rfl
  obtain ⟨D, hD⟩ : ∃ D, D = (List.range len).map fun k => s'.m.mem (d + k) := ⟨_, rfl⟩
  have hpeek := call_peek R id (BitVec.ofNat 64 d) (BitVec.ofNat 64 len) (by rw [h64 _ (by omega)]; exact hl0)
    (by rw [h64 _ (by omega), h64 _ (by omega)]; exact hid) ag s' e1
  rw [h64 _ (by omega), h64 _ (by omega), ← hD] at hpeek
  obtain ⟨tr, f1, f2⟩ := e3 _ _ (calls_cons hpeek rfl)
  have hfin : ∀ q, p.rn = q ∨ p.ra = q ∨ p.rb = q ∨ p.rd = q → (Fin.ofNat 32 q).val = q := by
    intro q hq
    have : q < 32 := by
      rcases hq with rfl | rfl | rfl | rfl <;> exact Nat.mod_lt _ (by decide)
    exact Nat.mod_eq_of_lt this
  rw [← hws]
  have hsetup : fresh (s.machine (BitVec.ofNat 32 pc)) = fresh
      { pc := BitVec.ofNat 32 pc, mem := mem, regs := { m.regs with x := x } : Spec.Program.Machine VecRegs } := by rw [hs]; rfl
  suffices hcalls : ∃ tr', calls (core R) (offload R.nb id p (bytesOf ws) A B pc a b d N len ns n) ag = .ok (tr', seat ag id s') ∧
      tr'.map Prod.snd = [{ ret := 32 }, { ret := BitVec.ofNat 64 len }, { ret := BitVec.ofNat 64 len }, { ret := 0 },
          { ret := 0 }, { ret := 0 }, { ret := 0 }, { ret := 0 }] ++ tr.map Prod.snd by
    obtain ⟨tr', g1, g2⟩ := hcalls
    refine ⟨tr', _, D, g1, ?_, by rw [hD]; simp, ?_⟩
    · rw [g2, f2, Nat.zero_add]
      rfl
    · intro e he
      rw [← elem_eq sd T.bits D t.mem d N (fun q h1 h2 => by
          rw [hD, List.getD_eq_getElem _ _ (by simp; omega), List.getElem_map, List.getElem_range, hmem']
          congr 1
          omega) e he, hM.1 e he, hs]
      dsimp only
      rw [elem_eq ss T.bits A mem a N (by rw [← hlen]; exact hmA) e he, elem_eq ss T.bits B mem b N (by rw [← hlen]; exact hmB) e he]
  have hstart : seat ag id (fresh m) = ag := seat_self ag id _ hag
  obtain ⟨ag1, hag1⟩ : ∃ ag1, ag1 = seat ag id (fresh m) := ⟨_, rfl⟩
  suffices hcalls : ∃ tr', calls (core R) (offload R.nb id p (bytesOf ws) A B pc a b d N len ns n) ag1 = .ok (tr', seat ag id s') ∧
      tr'.map Prod.snd = { ret := BitVec.ofNat 64 (bytesOf ws).length } :: { ret := BitVec.ofNat 64 A.length } ::
        { ret := BitVec.ofNat 64 B.length } :: zero :: zero :: zero :: zero :: zero :: tr.map Prod.snd by
    rw [hcl, hA, hB', hag1, hstart] at hcalls
    exact hcalls
  rw [hag1]
  refine replies_cons (call_poke R id (BitVec.ofNat 64 pc) (bytesOf ws) (by intro h; rw [h] at hcl; cases hcl)
    (by rw [h64 _ (by omega), hcl]; exact hpc) ag m) ?_
  refine replies_cons (call_poke R id (BitVec.ofNat 64 a) A (by intro h; rw [h] at hA; simp at hA; omega)
    (by rw [h64 _ (by omega), hA]; exact hia) ag _) ?_
  refine replies_cons (call_poke R id (BitVec.ofNat 64 b) B (by intro h; rw [h] at hB'; simp at hB'; omega)
    (by rw [h64 _ (by omega), hB']; exact hib) ag _) ?_
  refine replies_cons (call_setX R id _ (BitVec.ofNat 64 N) ag _) ?_
  refine replies_cons (call_setX R id _ (BitVec.ofNat 64 a) ag _) ?_
  refine replies_cons (call_setX R id _ (BitVec.ofNat 64 b) ag _) ?_
  refine replies_cons (call_setX R id _ (BitVec.ofNat 64 d) ag _) ?_
  refine replies_cons (call_setPc R id (BitVec.ofNat 64 pc) ag _) ?_
  rw [hsetup, hmem, hx] at f1
  simp only [hset, h32, h64 pc (by omega), h64 a (by omega), h64 b (by omega), hfin p.rn (by simp), hfin p.ra (by simp),
    hfin p.rb (by simp), hfin p.rd (by simp)]
  exact ⟨tr, f1, rfl⟩

/-! ## Examples -/

/-- A core with the instructions of `addBytes`, no other registers and no files. -/
def addCore (keep : Nat → Nat → Bool) (m : Spec.Program.Machine VecRegs) : Params VecRegs where
  env := ⟨vecSem addParams, keep⟩
  nb := dwarf
  cap := 32
  start := m
  getX r i := r.x i.val
  setX r i v := { r with x := fun q => if q = i.val then v else r.x q }
  otherGet _ _ := none
  otherSet _ _ s := (none, s)
  elf _ s := (none, s)
  file _ := none

theorem addCore_polite (keep : Nat → Nat → Bool) (m : Spec.Program.Machine VecRegs) : Polite (addCore keep m) :=
  ⟨fun _ _ _ h => h, fun _ _ h => h⟩

/-- One instance is made, and 1000 bytes are added to 1000 bytes in place, in pieces of 20, 30 and up to 1000 instructions: the
last piece executes 7, and every byte fetched is the saturated sum of the bytes sent. -/
example (keep : Nat → Nat → Bool) (m : Spec.Program.Machine VecRegs) (A B : List (BitVec 8)) (hA : A.length = 1000)
    (hB : B.length = 1000) :
    ∃ tr ag' D, calls (core (addCore keep m)) (.construct 32 none :: offload dwarf 0 addBytes (bytesOf addCode) A B
        0x100 0x1000 0x2000 0x1000 1000 1000 [20, 30] 1000) empty = .ok (tr, ag') ∧
      tr.map Prod.snd = [{ ret := 0 }, { ret := 32 }, { ret := 1000 }, { ret := 1000 }, { ret := 0 }, { ret := 0 }, { ret := 0 },
        { ret := 0 }, { ret := 0 }, { ret := 20, status := some 0 }, { ret := 30, status := some 0 },
        { ret := 7, status := some 0 }, { ret := 1000, bytes := some D }] ∧
      ∀ e < 1000, elem true 8 D e = Spec.sat true 8 (elem true 8 A e + elem true 8 B e) := by
  have hf : Computes addBytes .i8 (.bin .adds .i8) true true true (fun a b => Spec.sat true 8 (a + b)) := by
    intro i rf e1 e2 e3 e4
    refine C01_vadds .i8 rfl (by decide) i rf ?_ ?_
    · rw [e1, e2, VInst.n, e4]; decide +kernel
    · rw [e1, e3, VInst.n, e4]; show Spec.NoOverlap (Spec.bitsAt addBytes.op.word 6 6) (Spec.bitsAt addBytes.op.word 20 6) _
      decide +kernel
  obtain ⟨tr, ag', D, e1, e2, -, e4⟩ := C93_offload (addCore keep m) addParams rfl rfl (fun _ _ _ => rfl) addBytes .i8 _ true
    addBytes_ok addParams_known _ _ _ addParams_base true true _ hf 1000 0x1000 0x2000 0x1000 0x100 1000 (by decide) (by decide) A B
    hA hB (by decide) (by decide) (by decide) (by decide) (.inl (by decide)) (.inl (by decide)) 128 8 (by decide) (by decide)
    [20, 30] 1000 (by simp) (by simp) (by simp) (construct (core (addCore keep m)) 32 none empty).2 0 m rfl
  have hc : call (core (addCore keep m)) (.construct 32 none) empty =
      .ok ({ ret := 0 }, (construct (core (addCore keep m)) 32 none empty).2) := rfl
  refine ⟨_, ag', D, calls_cons hc e1, ?_, e4⟩
  rw [List.map_cons, e2]
  rfl

/-- A `read_memory` of no bytes after a `construct` ends the process. -/
example (keep : Nat → Nat → Bool) (m : Spec.Program.Machine VecRegs) :
    calls (core (addCore keep m)) [.construct 32 none, .readMemory 0 0x1000 0] empty = .abort := by
  have h := (C93_empty (addCore keep m) (addCore_polite keep m) [.construct 32 none] _ _ rfl 0 (fun h => nomatch h) 0x1000
    (by decide)).1
  have hc : call (core (addCore keep m)) (.construct 32 none) empty =
      .ok ({ ret := 0 }, (construct (core (addCore keep m)) 32 none empty).2) := rfl
  rw [calls, hc, Outcome.ok_bind, calls, call]
  dsimp only at h ⊢
  rw [h]
  rfl

/-- On a live instance the registers of the table are always there. -/
example (keep : Nat → Nat → Bool) (m : Spec.Program.Machine VecRegs) :
    ∃ v, readRegister (core (addCore keep m)) 0 0x1005 false (construct (core (addCore keep m)) 32 none empty).2 =
      ({ ret := 0, value := some v }, (construct (core (addCore keep m)) 32 none empty).2) :=
  (C93_access (addCore keep m) (addCore_polite keep m) [.construct 32 none] _ _ rfl 0 (fun h => nomatch h)).1 (.x 5)

end Verif.Props
