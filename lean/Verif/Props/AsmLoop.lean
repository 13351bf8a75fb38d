import Verif.Props.Asm
import Verif.Props.MatCore

/-!
# Property C121 (continued): counted loops, and the matrix product, under the debugger

A loop of any vector instructions, counted by `sub` and `bne`, with any vector instructions and an `mpause` behind it; and the matrix
product of C109 as an instance.
-/

namespace Verif.Props
open Verif Verif.Model Verif.Proofs
open Verif.Spec.Program (Machine Sem Stop word ebreak next run TameAt Shows visits Clear semiEntry semiExit Steady)

/-- `sub rn, rn, rl`. -/
def subOp (w : BitVec 32) (rn rl : Nat) : RegOp := ⟨w, fun r => { r with x := writeX r.x rn (r.x rn - r.x rl) }, fun _ => none⟩

/-- The loop and what is behind it. -/
def loopCode (body tail : List Inst) (rn rl : Nat) (sub bne mpause : BitVec 32) : List AsmOp :=
  body.map .vec ++ ([.reg (subOp sub rn rl), .reg (bnez bne rn 0)] ++ (tail.map .vec ++ [.pause mpause]))

/-- The number of the word that is executed as number `i`, when the loop has `n` vector instructions and `K` rounds. -/
def wordNo (n K i : Nat) : Nat := if i < (n + 2) * K then i % (n + 2) else n + 2 + (i - (n + 2) * K)

section
variable {body tail : List Inst} {rn rl : Nat} {sub bne mpause : BitVec 32}

theorem loopCode_length : (loopCode body tail rn rl sub bne mpause).length = body.length + 2 + tail.length + 1 := by
  simp [loopCode]; omega

theorem loopCode_body (k : Nat) (h : k < body.length) : (loopCode body tail rn rl sub bne mpause)[0 + k]? = some (.vec body[k]) := by
  rw [loopCode, Nat.zero_add, List.getElem?_append_left (by simpa using h)]
  simp [h]

theorem loopCode_sub : (loopCode body tail rn rl sub bne mpause)[body.length]? = some (.reg (subOp sub rn rl)) := by
  rw [loopCode, List.getElem?_append_right (by simp)]
  simp

theorem loopCode_bne : (loopCode body tail rn rl sub bne mpause)[body.length + 1]? = some (.reg (bnez bne rn 0)) := by
  rw [loopCode, List.getElem?_append_right (by simp)]
  simp

theorem loopCode_tail (k : Nat) (h : k < tail.length) :
    (loopCode body tail rn rl sub bne mpause)[body.length + 2 + k]? = some (.vec tail[k]) := by
  rw [loopCode, List.getElem?_append_right (by simp; omega), List.getElem?_append_right (by simp; omega),
    List.getElem?_append_left (by simp; omega)]
  simp only [List.length_map, List.length_cons, List.length_nil, List.getElem?_map]
  rw [show body.length + 2 + k - body.length - 2 = k from by omega, List.getElem?_eq_getElem h]
  rfl

theorem loopCode_pause : (loopCode body tail rn rl sub bne mpause)[body.length + 2 + tail.length]? = some (.pause mpause) := by
  rw [loopCode, List.getElem?_append_right (by simp; omega), List.getElem?_append_right (by simp; omega),
    List.getElem?_append_right (by simp; omega)]
  simp only [List.length_map, List.length_cons, List.length_nil]
  rw [show body.length + 2 + tail.length - body.length - 2 - tail.length = 0 from by omega]
  rfl

theorem loopCode_vec {v : Inst} (h : AsmOp.vec v ∈ loopCode body tail rn rl sub bne mpause) : v ∈ body ++ tail := by
  simp only [loopCode, List.mem_append, List.mem_map, AsmOp.vec.injEq, List.mem_cons, reduceCtorEq, List.not_mem_nil, or_false,
    false_or, exists_eq_right] at h
  exact List.mem_append.2 h

/-- The base instructions of the loop have the meaning of `LoopBase`. -/
theorem loopCode_ok (P : VecParams) (hB : LoopBase P body.length rn rl sub bne mpause) (hk : Known P (body ++ tail))
    (hv : ∀ i ∈ body ++ tail, i.row.sem ≠ .scalar) (lo : Nat) : AsmOk P (loopCode body tail rn rl sub bne mpause) lo where
  vec := fun i hi => ⟨(hk i (loopCode_vec hi)).1, (hk i (loopCode_vec hi)).2, hv i (loopCode_vec hi)⟩
  plain := by
    intro w h
    have hw : w ∈ [sub, bne, mpause] := by
      simp only [loopCode, List.mem_append, List.mem_map, AsmOp.pause.injEq, AsmOp.reg.injEq, List.mem_cons, reduceCtorEq, and_false,
        exists_false, List.not_mem_nil, or_false, false_or] at h
      rcases h with rfl | ⟨b, rfl | rfl, rfl⟩
      · simp
      · simp [subOp]
      · simp [bnez]
    exact ⟨(hB.rows w hw).1, hB.marks w hw, (hB.rows w hw).2⟩
  reg := by
    intro j b hb m
    have hj : j < body.length + 2 + tail.length + 1 := by
      rw [← loopCode_length (body := body) (tail := tail) (rn := rn) (rl := rl) (sub := sub) (bne := bne) (mpause := mpause)]
      exact (List.getElem?_eq_some_iff.1 hb).1
    by_cases h1 : j < body.length
    · have := loopCode_body (tail := tail) (rn := rn) (rl := rl) (sub := sub) (bne := bne) (mpause := mpause) j h1
      rw [Nat.zero_add, hb] at this
      cases this
    · by_cases h2 : j = body.length
      · subst h2
        rw [loopCode_sub] at hb
        cases hb
        exact hB.sub _ m
      · by_cases h3 : j = body.length + 1
        · subst h3
          rw [loopCode_bne] at hb
          cases hb
          refine (hB.bne _ m).trans ?_
          simp only [bnez]
          split
          · rfl
          · rw [show lo + 4 * (body.length + 1) - 4 * (body.length + 1) = lo + 4 * 0 from by omega]
            rfl
        · by_cases h4 : j < body.length + 2 + tail.length
          · have := loopCode_tail (body := body) (tail := tail) (rn := rn) (rl := rl) (sub := sub) (bne := bne) (mpause := mpause)
              (j - (body.length + 2)) (by omega)
            rw [show body.length + 2 + (j - (body.length + 2)) = j from by omega, hb] at this
            cases this
          · obtain rfl : j = body.length + 2 + tail.length := by omega
            rw [loopCode_pause] at hb
            cases hb
  pause := by
    intro w h a m
    simp only [loopCode, List.mem_append, List.mem_map, AsmOp.pause.injEq, List.mem_cons, reduceCtorEq, and_false,
      exists_false, List.not_mem_nil, or_false, false_or] at h
    subst h
    exact hB.mpause a m
end

theorem walk_add (maxPhys : Nat) (fresh : Nat → VReg) (code : List AsmOp) (m : Nat) : ∀ (n : Nat) (c : Nat × Arch),
    walk maxPhys fresh code (m + n) c = walk maxPhys fresh code m c >>= walk maxPhys fresh code n
  | 0, c => by
    show walk maxPhys fresh code m c = _
    cases walk maxPhys fresh code m c with
    | ok c' => rfl
    | ub => rfl
    | abort => rfl
  | n + 1, c => by
    rw [← Nat.add_assoc, walk, walk_add maxPhys fresh code m n c]
    cases walk maxPhys fresh code m c with
    | ok c' => rfl
    | ub => rfl
    | abort => rfl

/-- A block of vector instructions inside a program. -/
theorem walk_block (maxPhys : Nat) (fresh : Nat → VReg) (code : List AsmOp) (is : List Inst) (j : Nat)
    (hcode : ∀ k (h : k < is.length), code[j + k]? = some (.vec is[k])) (s : Arch) : ∀ k ≤ is.length, ∀ t,
    runAll maxPhys fresh (is.take k) s = .ok t → walk maxPhys fresh code k (j, s) = .ok (j + k, t) := by
  intro k
  induction k with
  | zero => intro _ t h; cases h; rfl
  | succ k ih =>
    intro hk t h
    have hlt : k < is.length := by omega
    rw [List.take_succ_eq_append_getElem hlt] at h
    obtain ⟨u, hu⟩ : ∃ u, runAll maxPhys fresh (is.take k) s = .ok u := by
      rw [runAll_append] at h
      obtain ⟨u, hu, -⟩ := bind_ok_inv h
      exact ⟨u, hu⟩
    rw [walk, ih (by omega) u hu, Outcome.ok_bind]
    simp only [advance, hcode k hlt, run_snoc hu h, Outcome.ok_bind]
    rfl

/-- Where a counted loop is after any number of operations: `S k` is the state after `k` rounds. -/
theorem loop_walk (maxPhys : Nat) (fresh : Nat → VReg) (body tail : List Inst) (rn rl : Nat) (sub bne mpause : BitVec 32)
    (S : Nat → Arch) (K : Nat) (hS : ∀ k < K, loopBody maxPhys fresh body rn rl (S k) = .ok (S (k + 1))) (hK : 0 < K)
    (hn : ∀ k, 0 < k → k < K → (S k).x rn ≠ 0) (h0 : (S K).x rn = 0) (t : Arch) (ht : runAll maxPhys fresh tail (S K) = .ok t)
    (code : List AsmOp) (hcode : code = loopCode body tail rn rl sub bne mpause) :
    (∀ k < K, ∀ r < body.length + 2, ∃ u, walk maxPhys fresh code ((body.length + 2) * k + r) (0, S 0) = .ok (r, u) ∧
      (r ≤ body.length → runAll maxPhys fresh (body.take r) (S k) = .ok u)) ∧
    ∀ r ≤ tail.length, ∃ u, walk maxPhys fresh code ((body.length + 2) * K + r) (0, S 0) = .ok (body.length + 2 + r, u) ∧
      runAll maxPhys fresh (tail.take r) (S K) = .ok u := by
  have inRound : ∀ k < K, ∀ r < body.length + 2, ∃ u, walk maxPhys fresh code r (0, S k) = .ok (r, u) ∧
      (r ≤ body.length → runAll maxPhys fresh (body.take r) (S k) = .ok u) ∧ (r = body.length + 1 → u = S (k + 1)) := by
    intro k hk r hr
    have hb := hS k hk
    unfold loopBody at hb
    obtain ⟨u, hu, hu2⟩ := bind_ok_inv hb
    have hblk := walk_block maxPhys fresh code body 0 (by rw [hcode]; exact loopCode_body) (S k)
    by_cases h1 : r ≤ body.length
    · obtain ⟨v, hv⟩ := runAll_take maxPhys fresh body r (S k) u hu
      have := hblk r h1 v hv
      rw [Nat.zero_add] at this
      exact ⟨v, this, fun _ => hv, fun h => by omega⟩
    · obtain rfl : r = body.length + 1 := by omega
      refine ⟨S (k + 1), ?_, fun h => absurd h h1, fun _ => rfl⟩
      have := hblk body.length (Nat.le_refl _) u (by rw [List.take_length]; exact hu)
      rw [Nat.zero_add] at this
      rw [walk, this, Outcome.ok_bind]
      simp only [Outcome.ok.injEq] at hu2
      simp only [advance, hcode, loopCode_sub, ← hu2]
      rfl
  have round : ∀ k < K, walk maxPhys fresh code (body.length + 2) (0, S k) =
      .ok (if (S (k + 1)).x rn = 0 then body.length + 2 else 0, S (k + 1)) := by
    intro k hk
    obtain ⟨u, hu, -, hu3⟩ := inRound k hk (body.length + 1) (by omega)
    rw [hu3 rfl] at hu
    rw [show body.length + 2 = body.length + 1 + 1 from rfl, walk, hu, Outcome.ok_bind]
    simp only [advance, hcode, loopCode_bne]
    show Outcome.ok (((if (S (k + 1)).x rn = 0 then none else some 0 : Option Nat)).getD _, _) = _
    split <;> rfl
  have head : ∀ k, k < K → walk maxPhys fresh code ((body.length + 2) * k) (0, S 0) = .ok (0, S k) := by
    intro k
    induction k with
    | zero => intro _; rfl
    | succ k ih =>
      intro hk
      rw [Nat.mul_succ, walk_add, ih (by omega), Outcome.ok_bind, round k (by omega), if_neg (hn (k + 1) (by omega) hk)]
  have exit : walk maxPhys fresh code ((body.length + 2) * K) (0, S 0) = .ok (body.length + 2, S K) := by
    obtain ⟨k, rfl⟩ : ∃ k, K = k + 1 := ⟨K - 1, by omega⟩
    rw [Nat.mul_succ, walk_add, head k (by omega), Outcome.ok_bind, round k (by omega), if_pos h0]
  refine ⟨fun k hk r hr => ?_, fun r hr => ?_⟩
  · obtain ⟨u, hu, hu2, -⟩ := inRound k hk r hr
    exact ⟨u, by rw [walk_add, head k hk, Outcome.ok_bind, hu], hu2⟩
  · obtain ⟨u, hu⟩ := runAll_take maxPhys fresh tail r (S K) t ht
    refine ⟨u, ?_, hu⟩
    rw [walk_add, exit, Outcome.ok_bind]
    exact walk_block maxPhys fresh code tail (body.length + 2) (by rw [hcode]; exact loopCode_tail) (S K) r hr u hu

/-- C121: a counted loop of any vector instructions with any vector instructions behind it, debugged with breakpoints on any of its
words but the `mpause`. `Run`, called again and again, stops at every visit, in the order of execution: in round `k` at word `r` the
core shows what the first `r` instructions of the body make of the state after `k` rounds, and behind the loop what the instructions
behind it make of the state after the last. The `Run` after the last visit ends in the `mpause`, and clearing the breakpoints, in any
order, leaves what the loop and the instructions behind it compute. Needed: no vector instruction reads or writes the code. -/
theorem C121_loop (env : Top.Env VecRegs) (P : VecParams) (henv : env.sem = vecSem P) (body tail : List Inst) (rn rl : Nat)
    (sub bne mpause : BitVec 32) (hB : LoopBase P body.length rn rl sub bne mpause) (hk : Known P (body ++ tail))
    (hv : ∀ i ∈ body ++ tail, i.row.sem ≠ .scalar) (S : Nat → Arch) (K : Nat)
    (hS : ∀ k < K, loopBody P.maxPhys P.fresh body rn rl (S k) = .ok (S (k + 1))) (hK : 0 < K)
    (hn : ∀ k, 0 < k → k < K → (S k).x rn ≠ 0) (h0 : (S K).x rn = 0) (t : Arch)
    (ht : runAll P.maxPhys P.fresh tail (S K) = .ok t) (code : List AsmOp) (hcode : code = loopCode body tail rn rl sub bne mpause)
    (lo : Nat) (hal : lo % 4 = 0) (hw : AsmAt code (S 0).mem lo)
    (hoff : ∀ k < K, KeepsOff P body (S k) lo (lo + 4 * code.length)) (hoff' : KeepsOff P tail (S K) lo (lo + 4 * code.length))
    (T : Nat) (hT : T = (body.length + 2) * K + tail.length) (js : List Nat) (hjs : ∀ j ∈ js, j < body.length + 2 + tail.length)
    (l : List Nat) (hl : l = js.map fun j => lo + 4 * j) (limit : Nat) (hlim : T < limit)
    (V : Nat → Nat) (hV : V = fun i => ((List.range i).filter fun k => decide (wordNo body.length K k ∈ js)).length)
    (bps : Nat → Bool) (hbps : bps = fun a => decide (a ∈ l)) :
    (∀ i < T, wordNo body.length K i ∈ js → ∃ s1 u, Top.execAll env (debugCalls l limit (V i + 1)) (Top.fresh (machineAt lo (0, S 0))) =
        .ok (s1, V i + 1) ∧ s1.reason = .softwareBreakpoint ∧ s1.status = .halted ∧
        Shows bps s1.m (machineAt lo (wordNo body.length K i, u)) ∧ s1.instret = i + V i + 1 ∧
        (∀ k < K, ∀ r ≤ body.length, i = (body.length + 2) * k + r → runAll P.maxPhys P.fresh (body.take r) (S k) = .ok u) ∧
        (∀ r, i = (body.length + 2) * K + r → runAll P.maxPhys P.fresh (tail.take r) (S K) = .ok u)) ∧
    ∃ s1, Top.execAll env (debugCalls l limit (V T + 1)) (Top.fresh (machineAt lo (0, S 0))) = .ok (s1, V T) ∧
      s1.reason = .userRequest ∧ s1.status = .halted ∧ s1.instret = T + 1 + V T ∧
      ∀ l', l'.Nodup → (∀ a, a ∈ l' ↔ a ∈ l) → ∃ s2, Top.clearAll l' s1 = (.ok (), s2) ∧
        s2.m = machineAt lo (body.length + 2 + tail.length + 1, t) := by
  obtain ⟨w1, w2⟩ := loop_walk P.maxPhys P.fresh body tail rn rl sub bne mpause S K hS hK hn h0 t ht code hcode
  have where' : ∀ i ≤ T, ∃ u, walk P.maxPhys P.fresh code i (0, S 0) = .ok (wordNo body.length K i, u) ∧
      (∀ k < K, ∀ r ≤ body.length, i = (body.length + 2) * k + r → runAll P.maxPhys P.fresh (body.take r) (S k) = .ok u) ∧
      (∀ r, i = (body.length + 2) * K + r → runAll P.maxPhys P.fresh (tail.take r) (S K) = .ok u) := by
    intro i hi
    unfold wordNo
    by_cases h : i < (body.length + 2) * K
    · rw [if_pos h]
      have e : (body.length + 2) * (i / (body.length + 2)) + i % (body.length + 2) = i := Nat.div_add_mod _ _
      have hk : i / (body.length + 2) < K := Nat.div_lt_of_lt_mul h
      obtain ⟨u, h1, h2⟩ := w1 _ hk (i % (body.length + 2)) (Nat.mod_lt _ (by omega))
      rw [e] at h1
      refine ⟨u, h1, fun k hk r hr hi => ?_, fun r hr => by omega⟩
      have er : i % (body.length + 2) = r := by rw [hi, Nat.mul_add_mod, Nat.mod_eq_of_lt (by omega)]
      have ek : i / (body.length + 2) = k := by
        rw [hi, Nat.mul_add_div (by omega), Nat.div_eq_of_lt (by omega), Nat.add_zero]
      rw [er, ek] at h2
      exact h2 hr
    · rw [if_neg h]
      obtain ⟨u, h1, h2⟩ := w2 (i - (body.length + 2) * K) (by omega)
      rw [show (body.length + 2) * K + (i - (body.length + 2) * K) = i from by omega] at h1
      refine ⟨u, h1, fun k hk r hr hi => ?_, fun r hr => ?_⟩
      · have : (body.length + 2) * (k + 1) ≤ (body.length + 2) * K := Nat.mul_le_mul_left _ hk
        rw [Nat.mul_succ] at this
        omega
      · rw [show i - (body.length + 2) * K = r from by omega] at h2
        exact h2
  have hex : ∀ i, ∃ u, i ≤ T → walk P.maxPhys P.fresh code i (0, S 0) = .ok (wordNo body.length K i, u) ∧
      (∀ k < K, ∀ r ≤ body.length, i = (body.length + 2) * k + r → runAll P.maxPhys P.fresh (body.take r) (S k) = .ok u) ∧
      (∀ r, i = (body.length + 2) * K + r → runAll P.maxPhys P.fresh (tail.take r) (S K) = .ok u) := by
    intro i
    by_cases h : i ≤ T
    · obtain ⟨u, hu⟩ := where' i h
      exact ⟨u, fun _ => hu⟩
    · exact ⟨t, fun h' => absurd h' h⟩
  choose U hU using hex
  have hlen : code.length = body.length + 2 + tail.length + 1 := by rw [hcode, loopCode_length]
  have feet : ∀ i < T, ∀ c, walk P.maxPhys P.fresh code i (0, S 0) = .ok c → ∀ v, code[c.1]? = some (.vec v) → ∀ q,
      Spec.Reads P.maxPhys v.row.sem v.word c.2.x q ∨ Spec.Writes P.maxPhys v.row.sem v.word c.2.x q →
        q < lo ∨ lo + 4 * code.length ≤ q := by
    intro i hi c hc v hv q hq
    obtain ⟨h1, h2, h3⟩ := hU i (by omega)
    rw [h1] at hc
    cases hc
    unfold wordNo at hv
    by_cases h : i < (body.length + 2) * K
    · rw [if_pos h] at hv
      have e : (body.length + 2) * (i / (body.length + 2)) + i % (body.length + 2) = i := Nat.div_add_mod _ _
      have hk : i / (body.length + 2) < K := Nat.div_lt_of_lt_mul h
      have hm := Nat.mod_lt i (show 0 < body.length + 2 by omega)
      by_cases hr : i % (body.length + 2) < body.length
      · have := loopCode_body (tail := tail) (rn := rn) (rl := rl) (sub := sub) (bne := bne) (mpause := mpause) _ hr
        rw [Nat.zero_add, ← hcode, hv] at this
        cases this
        exact hoff _ hk _ hr (U i) (h2 _ hk _ (by omega) e.symm) q hq
      · by_cases hr' : i % (body.length + 2) = body.length
        · rw [hr', hcode, loopCode_sub] at hv; cases hv
        · rw [show i % (body.length + 2) = body.length + 1 from by omega, hcode, loopCode_bne] at hv; cases hv
    · rw [if_neg h] at hv
      have hr : i - (body.length + 2) * K < tail.length := by omega
      have := loopCode_tail (body := body) (rn := rn) (rl := rl) (sub := sub) (bne := bne) (mpause := mpause) _ hr
      rw [← hcode, hv] at this
      cases this
      exact hoff' _ hr (U i) (h3 _ (by omega)) q hq
  have hwT : wordNo body.length K T = body.length + 2 + tail.length := by
    unfold wordNo
    rw [if_neg (by omega)]
    omega
  have hUT : U T = t := by
    have := (hU T (Nat.le_refl _)).2.2 tail.length hT
    rw [List.take_length, ht] at this
    cases this; rfl
  obtain ⟨g1, s1, e1, e2, e3, -, e5, e6⟩ := C121_debugged env P henv code lo hal
    (by rw [hcode]; exact loopCode_ok P hB hk hv lo) (0, S 0) hw T (fun i hi c hc v hv q hq => feet i hi c hc v hv q (.inr hq))
    (fun i hi c hc v hv q hq => feet i hi c hc v hv q (.inl hq)) (fun i => (wordNo body.length K i, U i))
    (fun i hi => (hU i hi).1) mpause (by rw [hwT, hcode]; exact loopCode_pause) js
    (fun j hj => by have := hjs j hj; omega) (by rw [hwT]; intro h; exact absurd (hjs _ h) (by omega)) l hl limit hlim V hV bps hbps
  refine ⟨fun i hi hij => ?_, s1, e1, e2, e3, e5, fun l' hn hm => ?_⟩
  · obtain ⟨s2, k1, k2, k3, k4, k5⟩ := g1 i hi hij
    exact ⟨s2, U i, k1, k2, k3, k4, k5, (hU i (by omega)).2.1, (hU i (by omega)).2.2⟩
  · obtain ⟨s2, k1, k2⟩ := e6 l' hn hm
    rw [hwT, hUT] at k2
    exact ⟨s2, k1, k2⟩

/-! ## The matrix product -/

theorem off_cons {P : VecParams} {i : Inst} {is : List Inst} {s : Arch} {lo hi : Nat}
    (h1 : ∀ q, Spec.Reads P.maxPhys i.row.sem i.word s.x q ∨ Spec.Writes P.maxPhys i.row.sem i.word s.x q → q < lo ∨ hi ≤ q)
    (h2 : ∀ u, i.run P.maxPhys P.fresh s = .ok u → KeepsOff P is u lo hi) : KeepsOff P (i :: is) s lo hi := by
  intro j hj t ht q hq
  match j with
  | 0 => cases ht; exact h1 q hq
  | j + 1 =>
    rw [List.take_succ_cons, runAll] at ht
    obtain ⟨u, h3, h4⟩ := bind_ok_inv ht
    exact h2 u h3 j (by simpa using hj) t h4 q hq

theorem off_nil {P : VecParams} {s : Arch} {lo hi : Nat} : KeepsOff P [] s lo hi := by
  intro j hj
  exact absurd hj (by simp)

/-- One load of 128 bytes, and what is behind it. -/
theorem off_load {P : VecParams} {i : Inst} {is : List Inst} {s : Arch} {lo hi : Nat} {B : CTy} (hB : B.bits = 8) (hok : i.Ok)
    (hs : i.row.sem = .vld B true false true true true) {ra rl : Nat} (h1 : Spec.bitsAt i.word 15 5 = ra)
    (h2 : Spec.bitsAt i.word 20 5 = rl) (h0a : ra ≠ 0) (h0l : rl ≠ 0) {a lim : Nat}
    (hlim : lim = if P.maxPhys ≤ 0x3fffff then 2 ^ 31 else 2 ^ 32) (ha : a + 128 ≤ lim) (hx : s.x ra = BitVec.ofNat 32 a)
    (hl : 128 ≤ (s.x rl).toNat) (hoff : hi ≤ a ∨ a + 128 ≤ lo)
    (hrest : ∀ u : Arch, (∀ q, u.x q = if q = ra then BitVec.ofNat 32 (a + 128) else s.x q) → KeepsOff P is u lo hi) :
    KeepsOff P (i :: is) s lo hi := by
  have hlim32 : lim ≤ 2 ^ 32 := by subst hlim; split <;> decide
  have hsz : B.bits / 8 = 1 := by rw [hB]
  have hc : min (s.x rl).toNat ((if true then 4 else 1) * Spec.lanes B.bits) = 128 := by
    rw [if_pos rfl, hB]
    show min _ (4 * 32) = _
    omega
  have hb : Spec.effBase P.maxPhys (s.x (Spec.bitsAt i.word 15 5)) = a := by rw [h1, hx]; exact effBase_small hlim (by omega)
  refine off_cons (fun q hq => ?_) (fun u hu => hrest u ?_)
  · rw [hs] at hq
    rcases hq with hq | hq
    · have := feet_lp P.maxPhys i.word B (by rw [hB]; omega) true s.x (by rw [h1]; exact h0a) (by rw [h2]; exact h0l) a 128 hb
        (by rw [h2]; exact hc) (by rw [hsz]; omega) q hq
      rw [hsz] at this
      omega
    · exact hq.elim
  · obtain ⟨u', e, -, -, -, xu⟩ := run_vldLp P.maxPhys P.fresh hok hs (by rw [h1]; exact h0a) (by rw [h2]; exact h0l) s a 128 hb
      (by rw [h2]; exact hc) (by rw [hsz]; omega)
    rw [e] at hu
    cases hu
    rw [h1, hsz] at xu
    exact xu

/-- One store of 32 words, and what is behind it. -/
theorem off_store {P : VecParams} {i : Inst} {is : List Inst} {s : Arch} {lo hi : Nat} {W : CTy} (hW : W.bits = 32) (hok : i.Ok)
    (hs : i.row.sem = .vst W true false true true true) {rd rl : Nat} (h1 : Spec.bitsAt i.word 15 5 = rd)
    (h2 : Spec.bitsAt i.word 20 5 = rl) (h0d : rd ≠ 0) (h0l : rl ≠ 0) {d lim : Nat}
    (hlim : lim = if P.maxPhys ≤ 0x3fffff then 2 ^ 31 else 2 ^ 32) (hd : d + 128 ≤ lim) (hx : s.x rd = BitVec.ofNat 32 d)
    (hl : 128 ≤ (s.x rl).toNat) (hoff : hi ≤ d ∨ d + 128 ≤ lo)
    (hrest : ∀ u : Arch, (∀ q, u.x q = if q = rd then BitVec.ofNat 32 (d + 128) else s.x q) → KeepsOff P is u lo hi) :
    KeepsOff P (i :: is) s lo hi := by
  have hlim32 : lim ≤ 2 ^ 32 := by subst hlim; split <;> decide
  have hsz : W.bits / 8 = 4 := by rw [hW]
  have hc : min (s.x rl).toNat ((if true then 4 else 1) * Spec.lanes W.bits) = 32 := by
    rw [if_pos rfl, hW]
    show min _ (4 * 8) = _
    omega
  have hb : Spec.effBase P.maxPhys (s.x (Spec.bitsAt i.word 15 5)) = d := by rw [h1, hx]; exact effBase_small hlim (by omega)
  refine off_cons (fun q hq => ?_) (fun u hu => hrest u ?_)
  · rw [hs] at hq
    rcases hq with hq | hq
    · exact hq.elim
    · have := feet_lp P.maxPhys i.word W (by rw [hW]) true s.x (by rw [h1]; exact h0d) (by rw [h2]; exact h0l) d 32 hb
        (by rw [h2]; exact hc) (by rw [hsz]; omega) q hq
      rw [hsz] at this
      omega
  · obtain ⟨u', e, -, -, -, xu⟩ := run_vstLp P.maxPhys P.fresh hok hs (by rw [h1]; exact h0d) (by rw [h2]; exact h0l) s d 32 hb
      (by rw [h2]; exact hc) (by rw [hsz]; omega)
    rw [e] at hu
    cases hu
    rw [h1, hsz] at xu
    exact xu

/-- The body keeps off everything but the two tiles. -/
theorem mat_body_off (P : VecParams) (p : MatProg) (B W : CTy) (hp : p.Ok B W) (a b lim lo hi : Nat)
    (hlim : lim = if P.maxPhys ≤ 0x3fffff then 2 ^ 31 else 2 ^ 32) (ha : a + 256 ≤ lim) (hb : b + 256 ≤ lim) (s : Arch)
    (hxa : s.x p.ra = BitVec.ofNat 32 a) (hxb : s.x p.rb = BitVec.ofNat 32 b) (hl : 128 ≤ (s.x p.rl).toNat)
    (hca : hi ≤ a ∨ a + 256 ≤ lo) (hcb : hi ≤ b ∨ b + 256 ≤ lo) : KeepsOff P p.body s lo hi := by
  have hr := hp.regs
  simp only [List.nodup_cons, List.mem_cons, List.not_mem_nil, or_false, not_or, not_false_eq_true] at hr
  obtain ⟨⟨n0a, n0b, n0d, n0l, n0c⟩, ⟨nab, nad, nal, nac⟩, ⟨nbd, nbl, nbc⟩, ⟨ndl, ndc⟩, nlc, -⟩ := hr
  have dec : ∀ i ∈ p.body, i.Ok := fun i hi => hp.dec i (List.mem_append_left _ hi)
  unfold MatProg.body at dec ⊢
  refine off_load hp.byte (dec _ (by simp)) (hp.ld _ (by simp)) (ra := p.ra) rfl (hp.len _ (by simp)) (Ne.symm n0a) (Ne.symm n0l) hlim (by omega)
    hxa hl (by omega) fun u1 x1 => ?_
  refine off_load hp.byte (dec _ (by simp)) (hp.ld _ (by simp)) hp.a1.1 (hp.len _ (by simp)) (Ne.symm n0a) (Ne.symm n0l) hlim
    (a := a + 128) (by omega) (by rw [x1, if_pos rfl]) (by rw [x1, if_neg (Ne.symm nal)]; exact hl) (by omega) fun u2 x2 => ?_
  refine off_load hp.byte (dec _ (by simp)) (hp.ld _ (by simp)) (ra := p.rb) rfl (hp.len _ (by simp)) (Ne.symm n0b) (Ne.symm n0l) hlim
    (a := b) (by omega) (by rw [x2, if_neg (Ne.symm nab), x1, if_neg (Ne.symm nab), hxb])
    (by rw [x2, if_neg (Ne.symm nal), x1, if_neg (Ne.symm nal)]; exact hl) (by omega) fun u3 x3 => ?_
  refine off_load hp.byte (dec _ (by simp)) (hp.ld _ (by simp)) hp.b1.1 (hp.len _ (by simp)) (Ne.symm n0b) (Ne.symm n0l) hlim
    (a := b + 128) (by omega) (by rw [x3, if_pos rfl])
    (by rw [x3, if_neg (Ne.symm nbl), x2, if_neg (Ne.symm nal), x1, if_neg (Ne.symm nal)]; exact hl) (by omega) fun u4 x4 => ?_
  refine off_cons (fun q hq => ?_) (fun u _ => off_nil)
  rw [hp.conv] at hq
  exact (hq.elim (fun h => h) (fun h => h)).elim

/-- The tail keeps off everything but the result. -/
theorem mat_tail_off (P : VecParams) (p : MatProg) (B W : CTy) (hp : p.Ok B W) (d lim lo hi : Nat)
    (hlim : lim = if P.maxPhys ≤ 0x3fffff then 2 ^ 31 else 2 ^ 32) (hd : d + 256 ≤ lim) (s : Arch)
    (hxd : s.x p.rd = BitVec.ofNat 32 d) (hl : 128 ≤ (s.x p.rl).toNat)
    (hcd : hi ≤ d ∨ d + 256 ≤ lo) : KeepsOff P p.tail s lo hi := by
  have hr := hp.regs
  simp only [List.nodup_cons, List.mem_cons, List.not_mem_nil, or_false, not_or, not_false_eq_true] at hr
  obtain ⟨⟨n0a, n0b, n0d, n0l, n0c⟩, ⟨nab, nad, nal, nac⟩, ⟨nbd, nbl, nbc⟩, ⟨ndl, ndc⟩, nlc, -⟩ := hr
  have dec : ∀ i ∈ p.tail, i.Ok := fun i hi => hp.dec i (List.mem_append_right _ hi)
  unfold MatProg.tail at dec ⊢
  refine off_cons (fun q hq => ?_) (fun u hu => ?_)
  · rw [hp.get] at hq
    exact (hq.elim (fun h => h) (fun h => h)).elim
  · have ux : u.x = s.x := by
      have hx := run_exec hu
      rw [exec_vcget P.maxPhys P.fresh (dec p.get (by simp)).1 hp.get s, Option.some.injEq] at hx
      obtain ⟨c, -, hc⟩ := bind_ok_inv hx
      cases hc; rfl
    refine off_store hp.word (dec _ (by simp)) (hp.st _ (by simp)) (rd := p.rd) rfl (hp.len _ (by simp)) (Ne.symm n0d) (Ne.symm n0l) hlim
      (d := d) (by omega) (by rw [ux]; exact hxd) (by rw [ux]; exact hl) (by omega) fun u1 x1 => ?_
    refine off_store hp.word (dec _ (by simp)) (hp.st _ (by simp)) hp.d1.1 (hp.len _ (by simp)) (Ne.symm n0d) (Ne.symm n0l) hlim
      (d := d + 128) (by omega) (by rw [x1]; exact if_pos rfl)
      (by rw [x1, if_neg (Ne.symm ndl), ux]; exact hl) (by omega) fun u2 _ => off_nil

/-- The words of the product. -/
theorem matWords_loop (p : MatProg) (sub bne mpause : BitVec 32) (rn : Nat) :
    (loopCode p.body p.tail rn p.rl sub bne mpause).map AsmOp.word = matWords p sub bne mpause := rfl

/-- C121: the matrix product of C109, for any number of tiles, debugged with breakpoints on any of its words but the `mpause`. `Run`,
called again and again, stops at every visit, in the order of execution. At the head of the loop before tile `k` the accumulator
shows what it held on entry plus the product of the first `k` tiles, and the addresses of the sources have moved on by `k` tiles. The
`Run` after the last visit ends in the `mpause`; clearing the breakpoints, in any order, leaves the product in memory, every other
byte as it was, the code too, and the accumulator cleared. Needed: matrices and result are apart from the code, which is aligned. -/
theorem C121_matrix (env : Top.Env VecRegs) (P : VecParams) (henv : env.sem = vecSem P) (p : MatProg) (B W : CTy) (hp : p.Ok B W)
    (hd : Known P (p.body ++ p.tail)) (rn : Nat) (sub bne mpause : BitVec 32) (hB : LoopBase P 5 rn p.rl sub bne mpause)
    (cmd : BitVec 32) (hc : ConvLegal cmd) (a b d K lim : Nat) (hlim : lim = if P.maxPhys ≤ 0x3fffff then 2 ^ 31 else 2 ^ 32)
    (ha : a + 256 * K ≤ lim) (hb : b + 256 * K ≤ lim) (hd' : d + 256 ≤ lim) (s : Arch) (hs : MatEntry p a b d cmd s)
    (hn : MatCount p rn K s) (pc : BitVec 32) (hal : pc.toNat % 4 = 0) (hw : CodeAt (matWords p sub bne mpause) s pc)
    (hca : pc.toNat + 44 ≤ a ∨ a + 256 * K ≤ pc.toNat) (hcb : pc.toNat + 44 ≤ b ∨ b + 256 * K ≤ pc.toNat)
    (hcd : pc.toNat + 44 ≤ d ∨ d + 256 ≤ pc.toNat) (js : List Nat) (hjs : ∀ j ∈ js, j < 10)
    (l : List Nat) (hl : l = js.map fun j => pc.toNat + 4 * j) (limit : Nat) (hlt : 7 * K + 3 < limit)
    (V : Nat → Nat) (hV : V = fun i => ((List.range i).filter fun k => decide (wordNo 5 K k ∈ js)).length)
    (bps : Nat → Bool) (hbps : bps = fun a => decide (a ∈ l)) :
    (∀ i < 7 * K + 3, wordNo 5 K i ∈ js → ∃ s1, Top.execAll env (debugCalls l limit (V i + 1)) (Top.fresh (s.machine pc)) =
        .ok (s1, V i + 1) ∧ s1.reason = .softwareBreakpoint ∧ s1.status = .halted ∧
        s1.m.pc = pc + BitVec.ofNat 32 (4 * wordNo 5 K i) ∧ s1.instret = i + V i + 1 ∧
        ∀ k < K, i = 7 * k →
          (∀ i < 8, ∀ w < 8, s1.m.regs.acc (Spec.cellRow i w) (Spec.cellCol i w) =
            s.acc (Spec.cellRow i w) (Spec.cellCol i w) + BitVec.ofInt 32 (matCell cmd s.mem a b k i w)) ∧
          s1.m.regs.x p.ra = BitVec.ofNat 32 (a + 256 * k) ∧ s1.m.regs.x p.rb = BitVec.ofNat 32 (b + 256 * k) ∧
          ∀ q, bps (q / 4 * 4) = false → s1.m.mem q = s.mem q) ∧
    ∃ s1, Top.execAll env (debugCalls l limit (V (7 * K + 3) + 1)) (Top.fresh (s.machine pc)) = .ok (s1, V (7 * K + 3)) ∧
      s1.reason = .userRequest ∧ s1.status = .halted ∧ s1.instret = 7 * K + 4 + V (7 * K + 3) ∧
      ∀ l', l'.Nodup → (∀ a, a ∈ l' ↔ a ∈ l) → ∃ s2, Top.clearAll l' s1 = (.ok (), s2) ∧ s2.m.pc = pc + 44 ∧
        (∀ i < 8, ∀ w < 8, Spec.loadLE 4 s2.m.mem (d + 32 * Spec.cellRow i w + 4 * Spec.cellCol i w) =
          (s.acc (Spec.cellRow i w) (Spec.cellCol i w) + BitVec.ofInt 32 (matCell cmd s.mem a b K i w)).toNat) ∧
        (∀ q, (q < d ∨ d + 256 ≤ q) → s2.m.mem q = s.mem q) ∧ ∀ r < 8, ∀ c < 8, s2.m.regs.acc r c = 0 := by
  have arith : ∀ {k a : Nat}, k < K → pc.toNat + 44 ≤ a ∨ a + 256 * K ≤ pc.toNat →
      pc.toNat + 44 ≤ a + 256 * k ∨ a + 256 * k + 256 ≤ pc.toNat := by
    clear * -
    intro k a h1 h2
    omega
  have arith' : ∀ {k a : Nat}, k < K → a + 256 * K ≤ lim → a + 256 * k + 256 ≤ lim := by
    clear * -
    intro k a h1 h2
    omega
  obtain ⟨free, pos, fits, xn⟩ := hn
  have free' := free
  simp only [List.mem_cons, List.not_mem_nil, or_false, not_or] at free'
  obtain ⟨q0, qa, qb, qd, ql, qc⟩ := free'
  have hr := hp.regs
  simp only [List.nodup_cons, List.mem_cons, List.not_mem_nil, or_false, not_or, not_false_eq_true] at hr
  obtain ⟨-, ⟨nab, nad, nal, nac⟩, ⟨nbd, nbl, nbc⟩, ⟨ndl, ndc⟩, nlc, -⟩ := hr
  have hrounds := mat_rounds P.maxPhys P.fresh p B W hp cmd hc.1 hc.2.1 hc.2.2 a b lim hlim s hs.xl hs.xc hs.xa hs.xb K ha hb
    rn free xn
  have hex : ∀ k, ∃ s', k ≤ K → times (loopBody P.maxPhys P.fresh p.body rn p.rl) k s = .ok s' ∧
      MatInv p (decide (Spec.bitsAt cmd 21 1 = 1)) (decide (Spec.bitsAt cmd 31 1 = 1)) (Spec.sbitsAt cmd 12 9)
        (Spec.sbitsAt cmd 22 9) (4 * Spec.bitsAt cmd 2 5) (4 * (Spec.bitsAt cmd 7 5 + 1 - Spec.bitsAt cmd 2 5)) a b
        { s with x := fun q => if q = rn then BitVec.ofNat 32 ((K - k) * (s.x p.rl).toNat) else s.x q } k s' := by
    intro k
    by_cases h : k ≤ K
    · obtain ⟨s', h'⟩ := hrounds k h
      exact ⟨s', fun _ => h'⟩
    · exact ⟨s, fun h' => absurd h' h⟩
  choose S hS using hex
  have hS0 : S 0 = s := by
    have := (hS 0 (Nat.zero_le _)).1
    simp only [times, Outcome.ok.injEq] at this
    exact this.symm
  have hstep : ∀ k < K, loopBody P.maxPhys P.fresh p.body rn p.rl (S k) = .ok (S (k + 1)) := by
    intro k hk
    have := (hS (k + 1) hk).1
    rwa [times, (hS k (by omega)).1, Outcome.ok_bind] at this
  have hmem : ∀ k ≤ K, (S k).mem = s.mem := fun k hk => (hS k hk).2.mem
  have hoth : ∀ k ≤ K, ∀ q, q ≠ p.ra → q ≠ p.rb → q ≠ rn → (S k).x q = s.x q := fun k hk q h1 h2 h3 =>
    ((hS k hk).2.others q h1 h2).trans (if_neg h3)
  have hxl : ∀ k ≤ K, 128 ≤ ((S k).x p.rl).toNat := fun k hk => by
    rw [hoth k hk _ (Ne.symm nal) (Ne.symm nbl) (Ne.symm ql)]; exact hs.xl
  have hxd : (S K).x p.rd = BitVec.ofNat 32 d := by
    rw [hoth K (Nat.le_refl _) _ (Ne.symm nad) (Ne.symm nbd) (Ne.symm qd)]; exact hs.xd
  have hxn : ∀ k ≤ K, (S k).x rn = BitVec.ofNat 32 ((K - k) * (s.x p.rl).toNat) := fun k hk =>
    ((hS k hk).2.others rn qa qb).trans (if_pos rfl)
  have hn : ∀ k, 0 < k → k < K → (S k).x rn ≠ 0 := by
    intro k _ hk h
    have h1 := congrArg BitVec.toNat ((hxn k (by omega)).symm.trans h)
    have h2 : (K - k) * (s.x p.rl).toNat ≤ K * (s.x p.rl).toNat := Nat.mul_le_mul_right _ (by omega)
    have h3 : 1 * 128 ≤ (K - k) * (s.x p.rl).toNat := Nat.mul_le_mul (by omega) hs.xl
    rw [BitVec.toNat_ofNat, Nat.mod_eq_of_lt (by omega)] at h1
    rw [show (0 : BitVec 32).toNat = 0 from rfl] at h1
    omega
  have h0 : (S K).x rn = 0 := by
    rw [hxn K (Nat.le_refl _), Nat.sub_self, Nat.zero_mul]
    rfl
  have hI := (hS K (Nat.le_refl _)).2
  obtain ⟨t, ht, hm, hf, hz, -, -⟩ := mat_tail P.maxPhys P.fresh p B W hp d lim hlim hd' (S K) (hxl K (Nat.le_refl _)) hxd
  have hv : ∀ i ∈ p.body ++ p.tail, i.row.sem ≠ .scalar := by
    intro i hi
    simp only [MatProg.body, MatProg.tail, List.cons_append, List.nil_append, List.mem_cons, List.not_mem_nil, or_false] at hi
    rcases hi with rfl | rfl | rfl | rfl | rfl | rfl | rfl | rfl
    · rw [hp.ld _ (by simp)]; exact fun h => nomatch h
    · rw [hp.ld _ (by simp)]; exact fun h => nomatch h
    · rw [hp.ld _ (by simp)]; exact fun h => nomatch h
    · rw [hp.ld _ (by simp)]; exact fun h => nomatch h
    · rw [hp.conv]; exact fun h => nomatch h
    · rw [hp.get]; exact fun h => nomatch h
    · rw [hp.st _ (by simp)]; exact fun h => nomatch h
    · rw [hp.st _ (by simp)]; exact fun h => nomatch h
  have hlen : (loopCode p.body p.tail rn p.rl sub bne mpause).length = 11 := rfl
  have hpc : machineAt pc.toNat (0, S 0) = s.machine pc := by
    rw [hS0]
    show s.machine (BitVec.ofNat 32 (pc.toNat + 4 * 0)) = _
    rw [Nat.mul_zero, Nat.add_zero, BitVec.ofNat_toNat, BitVec.setWidth_eq]
  have hpcj : ∀ j, BitVec.ofNat 32 (pc.toNat + 4 * j) = pc + BitVec.ofNat 32 (4 * j) := by
    intro j
    rw [BitVec.ofNat_add, BitVec.ofNat_toNat, BitVec.setWidth_eq]
  have hat : AsmAt (loopCode p.body p.tail rn p.rl sub bne mpause) (S 0).mem pc.toNat := by
    rw [hS0]
    refine ⟨fun k hk => ?_, hw.2⟩
    rw [hw.1 k hk]
    have := matWords_loop p sub bne mpause rn
    simp only [← this, List.getElem_map]
  have hbl : p.body.length = 5 := rfl
  have htl : p.tail.length = 3 := rfl
  obtain ⟨code, hcode⟩ : ∃ code, code = loopCode p.body p.tail rn p.rl sub bne mpause := ⟨_, rfl⟩
  rw [← hcode] at hlen hat
  have hi44 : pc.toNat + 4 * code.length = pc.toNat + 44 := by rw [hlen]
  have hoff : ∀ k < K, KeepsOff P p.body (S k) pc.toNat (pc.toNat + 4 * code.length) := by
    intro k hk
    rw [hi44]
    exact mat_body_off P p B W hp (a + 256 * k) (b + 256 * k) lim _ _ hlim (arith' hk ha) (arith' hk hb) (S k) (hS k (Nat.le_of_lt hk)).2.xa
      (hS k (Nat.le_of_lt hk)).2.xb (hxl k (Nat.le_of_lt hk)) (arith hk hca) (arith hk hcb)
  have hoff' : KeepsOff P p.tail (S K) pc.toNat (pc.toNat + 4 * code.length) := by
    rw [hi44]
    exact mat_tail_off P p B W hp d lim _ _ hlim hd' (S K) hxd (hxl K (Nat.le_refl _)) hcd
  have hT : 7 * K + 3 = (p.body.length + 2) * K + p.tail.length := by rw [hbl, htl]
  have hjs' : ∀ j ∈ js, j < p.body.length + 2 + p.tail.length := by rw [hbl, htl]; exact hjs
  have hV' : V = fun i => ((List.range i).filter fun k => decide (wordNo p.body.length K k ∈ js)).length := by rw [hbl]; exact hV
  have hB' : LoopBase P p.body.length rn p.rl sub bne mpause := by rw [hbl]; exact hB
  have key := C121_loop env P henv p.body p.tail rn p.rl sub bne mpause hB' hd hv S K hstep pos hn h0 t ht code hcode
    pc.toNat hal hat hoff hoff' (7 * K + 3) hT js hjs' l hl limit hlt V hV' bps hbps
  rw [hpc, hbl, htl] at key
  obtain ⟨g1, s1, e1, e2, e3, e4, e5⟩ := key
  have hcells : ∀ i < 8, ∀ w < 8, Spec.cellRow i w < 8 ∧ Spec.cellCol i w < 8 := by decide +kernel
  refine ⟨fun i hi hij => ?_, s1, e1, e2, e3, by rw [e4], fun l' h1 h2 => ?_⟩
  · obtain ⟨s2, u, k1, k2, k3, k4, k5, k6, -⟩ := g1 i hi hij
    refine ⟨s2, k1, k2, k3, k4.1.trans (hpcj _), k5, fun k hk hik => ?_⟩
    have hu := k6 k hk 0 (Nat.zero_le _) hik
    cases hu
    have hregs := k4.2.1
    refine ⟨fun i hi w hw => ?_, ?_, ?_, fun q hq => ?_⟩
    · rw [hregs]; exact (hS k (by omega)).2.acc i hi w hw
    · rw [hregs]; exact (hS k (by omega)).2.xa
    · rw [hregs]; exact (hS k (by omega)).2.xb
    · rw [k4.2.2.1 q hq]; exact congrFun (hmem k (by omega)) q
  · obtain ⟨s2, k1, k2⟩ := e5 l' h1 h2
    refine ⟨s2, k1, ?_, ?_, ?_, ?_⟩ <;> rw [k2]
    · exact hpcj 11
    · intro i hi w hw
      show Spec.loadLE 4 t.mem _ = _
      rw [hm _ (hcells i hi w hw).1 _ (hcells i hi w hw).2, hI.acc i hi w hw]
      rfl
    · intro q hq
      exact (hf q hq).trans (congrFun (hmem K (Nat.le_refl _)) q)
    · exact hz

/-! ## Example -/

/-- Ten tiles on either side, every byte of them 3, and the program at `0x100`. -/
def threes : Arch where
  x := fun q => if q = 5 then 128 else if q = 6 then matCmd else if q = 7 then 0x1000 else if q = 8 then 0x2000 else if q = 9 then 0x3000
    else if q = 10 then 1280 else 0
  v := fun _ => 0
  mem := Spec.placed (fun _ => 3) [(0x100, bytesOf (matWords matBytes matSub matBne mpauseWord))]
  acc := fun _ _ => 0
  dw := fun _ => none

/-- A breakpoint at the head of the loop: the fifth `Run` stops before the fifth tile, when 28 instructions and four stops have been
counted besides this one, with `4 * 32 * 3 * 3` in every cell of the accumulator; the eleventh ends in the `mpause`, and clearing
the breakpoint leaves `10 * 32 * 3 * 3` in every cell of the result. -/
example (keep : Nat → Nat → Bool) :
    (∃ s1, Top.execAll ⟨vecSem matParams, keep⟩ (debugCalls [0x100] 1000 5) (Top.fresh (threes.machine 0x100)) = .ok (s1, 5) ∧
      s1.reason = .softwareBreakpoint ∧ s1.m.pc = 0x100 ∧ s1.instret = 33 ∧
      ∀ i < 8, ∀ w < 8, s1.m.regs.acc (Spec.cellRow i w) (Spec.cellCol i w) = 1152) ∧
    ∃ s1 s2, Top.execAll ⟨vecSem matParams, keep⟩ (debugCalls [0x100] 1000 11) (Top.fresh (threes.machine 0x100)) = .ok (s1, 10) ∧
      s1.reason = .userRequest ∧ s1.instret = 84 ∧ Top.clearAll [0x100] s1 = (.ok (), s2) ∧ s2.m.pc = 0x12c ∧
      ∀ i < 8, ∀ w < 8, Spec.loadLE 4 s2.m.mem (0x3000 + 32 * Spec.cellRow i w + 4 * Spec.cellCol i w) = 2880 := by
  have hv4 : ∀ i < 8, ∀ w < 8, BitVec.ofInt 32 (matCell matCmd threes.mem 0x1000 0x2000 4 i w) = 1152 := by decide +kernel
  have hv10 : ∀ i < 8, ∀ w < 8, BitVec.ofInt 32 (matCell matCmd threes.mem 0x1000 0x2000 10 i w) = 2880 := by decide +kernel
  obtain ⟨V, hV⟩ : ∃ V : Nat → Nat, V = fun i => ((List.range i).filter fun k => decide (wordNo 5 10 k ∈ [0])).length := ⟨_, rfl⟩
  have hV28 : V 28 = 4 := by rw [hV]; decide +kernel
  have hV73 : V (7 * 10 + 3) = 10 := by rw [hV]; decide +kernel
  obtain ⟨g, s1, e1, e2, -, e4, e5⟩ := C121_matrix ⟨vecSem matParams, keep⟩ matParams rfl matBytes .i8 .i32 matBytes_ok matParams_known 10
    _ _ _ matParams_base matCmd (by decide +kernel) 0x1000 0x2000 0x3000 10 (2 ^ 31) (by decide) (by decide) (by decide) (by decide)
    threes ⟨by decide +kernel, by decide +kernel, by decide +kernel, by decide +kernel, by decide +kernel⟩
    ⟨by decide +kernel, by decide, by decide +kernel, by decide +kernel⟩ 0x100 (by decide)
    ⟨by decide +kernel, by decide⟩ (by decide) (by decide) (by decide) [0] (by decide) [0x100] (by decide) 1000 (by decide) V hV _ rfl
  constructor
  · obtain ⟨s2, k1, k2, -, k4, k5, k6⟩ := g 28 (by decide) (by decide)
    rw [hV28] at k1 k5
    refine ⟨s2, k1, k2, k4, k5, fun i hi w hw => ?_⟩
    rw [(k6 4 (by decide) rfl).1 i hi w hw, hv4 i hi w hw, show threes.acc _ _ = 0#32 from rfl, BitVec.zero_add]
  · obtain ⟨s2, k1, k2, k3, -⟩ := e5 [0x100] (by decide) (by simp)
    rw [hV73] at e1 e4
    refine ⟨s1, s2, e1, e2, e4, k1, k2, fun i hi w hw => ?_⟩
    rw [k3 i hi w hw, hv10 i hi w hw, show threes.acc _ _ = 0#32 from rfl, BitVec.zero_add]
    decide

end Verif.Props
