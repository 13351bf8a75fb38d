import Verif.Props.Debugged
import Verif.Props.DwCore

/-!
# Property C120: straight vector code debugged with breakpoints

Any sequence of vector instructions with an `mpause` behind it that keeps off its own words, with breakpoints on any of its words; and
the depthwise convolution as an instance.
-/

namespace Verif.Props
open Verif Verif.Model Verif.Proofs
open Verif.Spec.Program (Machine Sem Stop word ebreak next run TameAt Shows visits Clear semiEntry semiExit)

/-- No instruction of the sequence, executed from `s` on, reads or writes a byte from `lo` to `hi - 1`. -/
def KeepsOff (P : VecParams) (is : List Inst) (s : Arch) (lo hi : Nat) : Prop :=
  ∀ j (h : j < is.length) t, runAll P.maxPhys P.fresh (is.take j) s = .ok t → ∀ q,
    Spec.Reads P.maxPhys is[j].row.sem is[j].word t.x q ∨ Spec.Writes P.maxPhys is[j].row.sem is[j].word t.x q → q < lo ∨ hi ≤ q

theorem run_snoc {maxPhys : Nat} {fresh : Nat → VReg} {l : List Inst} {i : Inst} {s t t2 : Arch}
    (h1 : runAll maxPhys fresh l s = .ok t) (h2 : runAll maxPhys fresh (l ++ [i]) s = .ok t2) : i.run maxPhys fresh t = .ok t2 := by
  rw [runAll_append, h1, Outcome.ok_bind, runAll] at h2
  obtain ⟨t3, h3, h4⟩ := bind_ok_inv h2
  cases h4
  exact h3

/-- The bytes the sequence keeps off do not change. -/
theorem off_mem {P : VecParams} {is : List Inst} (hk : Known P is) {s : Arch} {lo hi : Nat} (hoff : KeepsOff P is s lo hi) :
    ∀ k ≤ is.length, ∀ t, runAll P.maxPhys P.fresh (is.take k) s = .ok t → ∀ q, lo ≤ q → q < hi → t.mem q = s.mem q := by
  intro k
  induction k with
  | zero => intro _ t h; cases h; exact fun _ _ _ => rfl
  | succ k ih =>
    intro hk' t h q h1 h2
    have hlt : k < is.length := by omega
    rw [List.take_succ_eq_append_getElem hlt] at h
    obtain ⟨u, hu⟩ : ∃ u, runAll P.maxPhys P.fresh (is.take k) s = .ok u := by
      rw [runAll_append] at h
      obtain ⟨u, hu, -⟩ := bind_ok_inv h
      exact ⟨u, hu⟩
    have hx := run_exec (run_snoc hu h)
    rw [← ih (by omega) u hu q h1 h2]
    refine C95_confined P.maxPhys P.fresh _ (hk _ (List.getElem_mem hlt)).1.1 _ u t false hx q (fun hq => ?_)
    have := hoff k hlt u hu q (.inr hq)
    omega

/-- C120: straight vector code with breakpoints on any of its words (`js` are their numbers). `Run`, called again and again, stops
at each of them in order, showing exactly what the instructions in front of it compute; the `Run` after the last ends in the
`mpause`. The instruction counter is the number of instructions plus one for each stop, and clearing the breakpoints, in any order,
gives exactly what the instructions compute. Needed: the code keeps off its own words, and they are aligned. -/
theorem C120_straight (env : Top.Env VecRegs) (P : VecParams) (henv : env.sem = vecSem P) (is : List Inst) (hk : Known P is)
    (hv : ∀ i ∈ is, i.row.sem ≠ .scalar) (mpause : BitVec 32) (hP : Pause P mpause) (hmk : mpause ≠ semiEntry ∧ mpause ≠ semiExit)
    (s t : Arch) (ht : runAll P.maxPhys P.fresh is s = .ok t) (pc : BitVec 32) (hal : pc.toNat % 4 = 0)
    (hw : CodeAt (is.map Inst.word ++ [mpause]) s pc) (N : Nat) (hN : N = is.length)
    (hoff : KeepsOff P is s pc.toNat (pc.toNat + (4 * N + 4)))
    (js : List Nat) (hjs : ∀ j ∈ js, j < N) (l : List Nat) (hl : l = js.map fun j => pc.toNat + 4 * j) (limit : Nat) (hlim : N < limit)
    (B : Nat → Nat) (hBj : B = fun j => ((List.range j).filter fun i => decide (i ∈ js)).length) (bps : Nat → Bool)
    (hbps : bps = fun a => decide (a ∈ l)) :
    (∀ j ∈ js, ∃ s1 t1, Top.execAll env (debugCalls l limit (B j + 1)) (Top.fresh (s.machine pc)) = .ok (s1, B j + 1) ∧
      s1.reason = .softwareBreakpoint ∧ s1.status = .halted ∧ runAll P.maxPhys P.fresh (is.take j) s = .ok t1 ∧
      Shows bps s1.m (t1.machine (pc + BitVec.ofNat 32 (4 * j))) ∧ s1.instret = j + B j + 1) ∧
    ∃ s1, Top.execAll env (debugCalls l limit (B N + 1)) (Top.fresh (s.machine pc)) = .ok (s1, B N) ∧
      s1.reason = .userRequest ∧ s1.status = .halted ∧ s1.m.pc = pc + BitVec.ofNat 32 (4 * N + 4) ∧ s1.instret = N + 1 + B N ∧
      ∀ l', l'.Nodup → (∀ a, a ∈ l' ↔ a ∈ l) → ∃ s2, Top.clearAll l' s1 = (.ok (), s2) ∧
        s2.m = t.machine (pc + BitVec.ofNat 32 (4 * N + 4)) := by
  have hlen : (is.map Inst.word ++ [mpause]).length = N + 1 := by simp [hN]
  have hpc := hw.2
  rw [hlen] at hpc
  have tn : ∀ j ≤ N, (pc + BitVec.ofNat 32 (4 * j)).toNat = pc.toNat + 4 * j := fun j hj => toNat_addOfNat (by omega)
  obtain ⟨C, hC⟩ : ∃ C : Nat → Prop, C = fun q => pc.toNat ≤ q ∧ q < pc.toNat + (4 * N + 4) := ⟨_, rfl⟩
  obtain ⟨A, hA⟩ : ∃ A : Nat → Bool, A = fun q => decide (pc.toNat ≤ q ∧ q < pc.toNat + (4 * N + 4)) := ⟨_, rfl⟩
  have inA : ∀ j ≤ N, A (pc.toNat + 4 * j) = true := by
    intro j hj; rw [hA]; simp only [decide_eq_true_eq]; omega
  have outA : ∀ q, (q < pc.toNat ∨ pc.toNat + (4 * N + 4) ≤ q) → A (q / 4 * 4) = false := by
    intro q hq; rw [hA]; simp only [decide_eq_false_iff_not]; omega
  have hmem := off_mem hk hoff
  have hword : ∀ j (hj : j < N + 1) (u : Arch), (∀ q, pc.toNat ≤ q → q < pc.toNat + (4 * N + 4) → u.mem q = s.mem q) →
      word u.mem (pc + BitVec.ofNat 32 (4 * j)).toNat = (is.map Inst.word ++ [mpause])[j]'(by rw [hlen]; exact hj) := by
    intro j hj u hu
    rw [tn j (by omega), word_congr (g := s.mem) (fun q hq => hu _ (by omega) (by omega))]
    exact hw.1 j (by rw [hlen]; exact hj)
  have mid : ∀ k ≤ N, ∃ u, runAll P.maxPhys P.fresh (is.take k) s = .ok u ∧
      Good (vecSem P) C (s.machine pc) k ∧ run (vecSem P) k (s.machine pc) = u.machine (pc + BitVec.ofNat 32 (4 * k)) := by
    intro k hkN
    obtain ⟨u, hu⟩ := runAll_take P.maxPhys P.fresh is k s t ht
    have hlk : (is.take k).length = k := by rw [List.length_take]; omega
    obtain ⟨g, r, -⟩ := block P C (is.take k) s u pc (fun j hj => hk j (List.mem_of_mem_take hj)) hu
      (fun k' hk' t' ht' q hq => by
        rw [hlk] at hk'
        rw [List.take_take, Nat.min_eq_left hk'] at ht'
        rw [hC] at hq
        exact hmem k' (by omega) t' ht' q hq.1 hq.2)
      (fun j hj => by
        have hj' : j < k := by rw [List.length_map, hlk] at hj; exact hj
        have := hw.1 j (by rw [hlen]; omega)
        rw [this, List.getElem_append_left (by rw [List.length_map]; omega)]
        simp)
      (by rw [hlk]; omega) (fun q h1 h2 => by rw [hlk] at h2; rw [hC]; exact ⟨h1, by omega⟩)
    rw [hlk] at g r
    exact ⟨u, hu, g, r⟩
  obtain ⟨u, hu, gN, rN⟩ := mid N (Nat.le_refl _)
  have hut : u = t := by
    rw [hN, List.take_length, ht] at hu
    cases hu; rfl
  subst hut
  have hkeep : ∀ k ≤ N, ∀ u, runAll P.maxPhys P.fresh (is.take k) s = .ok u → ∀ q, pc.toNat ≤ q → q < pc.toNat + (4 * N + 4) →
      u.mem q = s.mem q := fun k hkN u hu q h1 h2 => hmem k (by omega) u hu q h1 h2
  have hwm : word u.mem (pc + BitVec.ofNat 32 (4 * N)).toNat = mpause := by
    rw [hword N (by omega) u (hkeep N (Nat.le_refl _) u hu)]
    simp [hN]
  have hnx := next_base P hP.word hP.rows u _ hwm
  rw [hP.sem, addOfNat_add4] at hnx
  have hq : ∀ i < N, (next (vecSem P) (run (vecSem P) i (s.machine pc))).2 = [] := fun i hi => (gN i hi).1
  have hl1 : (next (vecSem P) (run (vecSem P) N (s.machine pc))).2 = [.ev .userRequest] := by rw [rN, hnx]; rfl
  have rE : run (vecSem P) (N + 1) (s.machine pc) = u.machine (pc + BitVec.ofNat 32 (4 * N + 4)) := by rw [Top.run_succ, rN, hnx]
  have htame : ∀ i ≤ N, TameAt (vecSem P) A (run (vecSem P) i (s.machine pc)) := by
    intro i hi
    by_cases e : i = N
    · rw [e, rN]
      refine tame_base P hP.rows A _ hwm hP.word ?_ ?_ (fun x _ => x) (fun r => r) [.userRequest] (fun m' => hP.sem _ m')
      · show (pc + BitVec.ofNat 32 (4 * N)).toNat % 4 = 0
        rw [tn N (by omega)]; omega
      · show A (pc + BitVec.ofNat 32 (4 * N)).toNat = true
        rw [tn N (by omega)]; exact inA N (by omega)
    · have hi' : i < is.length := by omega
      obtain ⟨v, hv1, -, hr⟩ := mid i hi
      obtain ⟨v2, hv2, -, -⟩ := mid (i + 1) (by omega)
      rw [List.take_succ_eq_append_getElem hi'] at hv2
      have hx := run_exec (run_snoc hv1 hv2)
      have hm := hk _ (List.getElem_mem hi')
      have hwj : word v.mem (pc + BitVec.ofNat 32 (4 * i)).toNat = is[i].word := by
        rw [hword i (by omega) v (hkeep i hi v hv1), List.getElem_append_left (by simpa using hi'), List.getElem_map]
      rw [hr]
      refine C95_tame P A (v.machine (pc + BitVec.ofNat 32 (4 * i))) is[i].row hm.1.1 ?_ (false, v2) ?_
        (by show word v.mem (pc + BitVec.ofNat 32 (4 * i)).toNat ≠ _; rw [hwj]; exact exec_ne_ebreak hm.1 hx) ?_ ?_ ?_ ?_
      · show P.dec (word v.mem (pc + BitVec.ofNat 32 (4 * i)).toNat) = _
        rw [hwj]; exact hm.2
      · show execRow P.maxPhys P.fresh is[i].row (word v.mem (pc + BitVec.ofNat 32 (4 * i)).toNat) v = _
        rw [hwj]; exact hx
      · show (pc + BitVec.ofNat 32 (4 * i)).toNat % 4 = 0
        rw [tn i (by omega)]; omega
      · show A (pc + BitVec.ofNat 32 (4 * i)).toNat = true
        rw [tn i (by omega)]; exact inA i (by omega)
      · intro q hq
        change Spec.Reads P.maxPhys _ (word v.mem (pc + BitVec.ofNat 32 (4 * i)).toNat) v.x q at hq
        rw [hwj] at hq
        exact outA q (hoff i hi' v hv1 q (.inl hq))
      · intro q hq
        change Spec.Writes P.maxPhys _ (word v.mem (pc + BitVec.ofNat 32 (4 * i)).toNat) v.x q at hq
        rw [hwj] at hq
        exact outA q (hoff i hi' v hv1 q (.inr hq))
  have hne : ∀ j < N + 1, word s.mem (pc.toNat + 4 * j) ≠ ebreak ∧ word s.mem (pc.toNat + 4 * j) ≠ semiEntry ∧
      word s.mem (pc.toNat + 4 * j) ≠ semiExit := by
    intro j hj
    rw [hw.1 j (by rw [hlen]; exact hj)]
    by_cases h5 : j < N
    · have hji : j < is.length := by omega
      rw [List.getElem_append_left (by simpa using hji), List.getElem_map]
      have hs := hv _ (List.getElem_mem hji)
      have hm := (hk _ (List.getElem_mem hji)).1
      exact ⟨ne_ebreak hm hs, ne_marks hm hs⟩
    · obtain rfl : j = N := by omega
      rw [List.getElem_append_right (by simp [hN])]
      simp only [hN, List.length_map, Nat.sub_self, List.getElem_cons_zero]
      exact ⟨hP.word, hmk⟩
  have inl : ∀ j, pc.toNat + 4 * j ∈ l ↔ j ∈ js := by
    intro j
    rw [hl, List.mem_map]
    refine ⟨fun ⟨i, hi, e⟩ => ?_, fun h => ⟨j, h, rfl⟩⟩
    obtain rfl : i = j := by omega
    exact hi
  have hpcs : ∀ j ≤ N, (run (vecSem P) j (s.machine pc)).pc = pc + BitVec.ofNat 32 (4 * j) := by
    intro j hj
    obtain ⟨v, -, -, hr⟩ := mid j hj
    rw [hr]; rfl
  rw [← henv] at hq hl1 rE htame hpcs
  have at' : ∀ j ≤ N, bps (run env.sem j (s.machine pc)).pc.toNat = decide (j ∈ js) := by
    intro j hj
    rw [hpcs j hj, tn j hj, hbps]
    simp only [inl j]
  have hlast : (run env.sem N (s.machine pc)).pc.toNat ∉ l := by
    rw [hpcs N (Nat.le_refl _), tn N (Nat.le_refl _), inl N]
    intro h
    exact absurd (hjs N h) (by omega)
  have hBs : ∀ j, B (j + 1) = B j + if j ∈ js then 1 else 0 := by
    intro j
    rw [hBj]
    simp only [List.range_succ, List.filter_append, List.length_append]
    by_cases h : j ∈ js <;> simp [h]
  have part : ∀ j ≤ N, visits env.sem bps (s.machine pc) j = B j := by
    intro j
    induction j with
    | zero => intro _; rw [hBj]; simp [visits]
    | succ j ih =>
      intro hj
      rw [Top.visits_succ, ih (by omega), at' j (by omega), hBs j]
      simp only [decide_eq_true_eq]
  have total : visits env.sem bps (s.machine pc) (N + 1) = B N := by
    rw [Top.visits_succ, part N (Nat.le_refl _), if_neg]
    · rfl
    · rw [hbps]; simpa using hlast
  have hh : (next env.sem (run env.sem N (s.machine pc))).2 ≠ [] := by rw [hl1]; simp
  obtain ⟨g1, s1, e1, e2, e3, e4, e5, e6⟩ := C96_debugged_partial env A (s.machine pc) N hq hh htame l
    (by
      intro q hq'
      rw [hl, List.mem_map] at hq'
      obtain ⟨j, hj, rfl⟩ := hq'
      have := hjs j hj
      refine ⟨by omega, inA j (by omega), (hne j (by omega)).1, fun _ => ⟨(hne j (by omega)).2.1, (hne j (by omega)).2.2,
        fun _ => .inr ⟨inA (j + 1) (by omega), (hne (j + 1) (by omega)).2.2⟩⟩⟩)
    hlast limit hlim bps hbps _ rfl
  rw [total] at e1 e5
  refine ⟨fun j hj => ?_, s1, e1, ?_, e3, ?_, e5, fun l' hn hm => ?_⟩
  · have h7 := hjs j hj
    obtain ⟨s2, k1, k2, k3, k4, k5⟩ := g1 j (by omega) (by rw [hpcs j (by omega), tn j (by omega)]; exact (inl j).2 hj)
    rw [part j (by omega)] at k1 k5
    obtain ⟨v, hv1, -, hr⟩ := mid j (by omega)
    rw [henv, hr] at k4
    exact ⟨s2, v, k1, k2, k3, hv1, k4, k5⟩
  · rw [e2]
    have : ∀ (L : List Stop) (h : L ≠ []), L = [.ev .userRequest] → reasonOf (L.getLast h) = .userRequest := by
      intro L h e; subst e; rfl
    exact this _ hh hl1
  · rw [e4.1, rE]; rfl
  · obtain ⟨s2, k1, k2⟩ := e6 l' hn hm
    exact ⟨s2, k1, by rw [k2, rE]⟩

/-! ## The depthwise convolution -/

/-- The instructions of the depthwise unit leave the scalar registers alone. -/
theorem unit_x (maxPhys : Nat) (fresh : Nat → VReg) : ∀ (is : List Inst) (s t : Arch),
    (∀ i ∈ is, i.Ok ∧ ((∃ wr, i.row.sem = .dwconv wr) ∨ (i.row.sem = .adwinit ∧ AccForm i.word))) →
    runAll maxPhys fresh is s = .ok t → t.x = s.x
  | [], s, t, _, h => by cases h; rfl
  | i :: is, s, t, hi, h => by
    rw [runAll] at h
    obtain ⟨u, h1, h2⟩ := bind_ok_inv h
    rw [unit_x maxPhys fresh is u t (fun j hj => hi j (by simp [hj])) h2]
    obtain ⟨o, ⟨wr, hs⟩ | ⟨hs, hf⟩⟩ := hi i (by simp)
    · have hx := run_exec h1
      rw [exec_dwconv maxPhys fresh o.1 o.2.1 hs s, Option.some.injEq] at hx
      obtain ⟨p, -, hp⟩ := bind_ok_inv hx
      simp only [Outcome.ok.injEq, Prod.mk.injEq] at hp
      rw [← hp.2]
    · have hx := run_exec h1
      obtain ⟨n, -, he⟩ := exec_adwinit maxPhys fresh o.1 hf hs s
      rw [he, Option.some.injEq] at hx
      obtain ⟨p, -, hp⟩ := bind_ok_inv hx
      cases hp; rfl

/-- The bytes the depthwise program has to do with: the data, the biases, the results. -/
theorem dw_off (P : VecParams) (p : DwProg) (W : CTy) (hp : p.Ok W) (ls : List Inst) (B : CTy) (ra g : Nat)
    (hls : DwLoads p ls B ra g) (a b d lim : Nat) (hlim : lim = if P.maxPhys ≤ 0x3fffff then 2 ^ 31 else 2 ^ 32)
    (ha : a + 128 * ls.length ≤ lim) (hb : b + 128 ≤ lim) (hd : d + 128 ≤ lim) (s : Arch) (hs : DwStart p ra a b d s) (lo hi : Nat)
    (hca : hi ≤ a ∨ a + 128 * ls.length ≤ lo) (hcb : hi ≤ b ∨ b + 128 ≤ lo) (hcd : hi ≤ d ∨ d + 128 ≤ lo) :
    KeepsOff P (ls ++ p.insts) s lo hi := by
  have hfree := hls.free
  simp only [List.mem_cons, List.not_mem_nil, or_false, not_or] at hfree
  obtain ⟨q0, qb, qd, ql⟩ := hfree
  have hr := hp.regs
  simp only [List.nodup_cons, List.mem_cons, List.not_mem_nil, or_false, not_or, not_false_eq_true] at hr
  obtain ⟨⟨n0b, n0d, n0l⟩, ⟨nbd, nbl⟩, ndl, -⟩ := hr
  have hlim32 : lim ≤ 2 ^ 32 := by subst hlim; split <;> decide
  have hsW : W.bits / 8 = 4 := by rw [hp.word]
  have hsB : B.bits / 8 = 1 := by rw [hls.byte]
  have hcW : ∀ x : BitVec 32, 128 ≤ x.toNat → min x.toNat ((if true then 4 else 1) * Spec.lanes W.bits) = 32 := by
    intro x hx
    rw [if_pos rfl, hp.word]
    show min _ (4 * 8) = _
    omega
  have hcB : ∀ x : BitVec 32, 128 ≤ x.toNat → min x.toNat ((if true then 4 else 1) * Spec.lanes B.bits) = 128 := by
    intro x hx
    rw [if_pos rfl, hls.byte]
    show min _ (4 * 32) = _
    omega
  have loads : ∀ k ≤ ls.length, ∃ s', runAll P.maxPhys P.fresh (ls.take k) s = .ok s' ∧
      ∀ q, s'.x q = if q = ra then BitVec.ofNat 32 (a + 128 * k) else s.x q := by
    intro k hk
    have hlk : (ls.take k).length = k := by rw [List.length_take]; omega
    obtain ⟨s', r, -, -, x⟩ := run_loads P.maxPhys P.fresh B hls.byte ra p.rl lim hlim q0 (Ne.symm n0l) ql (ls.take k) g a s
      (fun i hi => by
        have hi := List.mem_of_mem_take hi
        exact ⟨hls.dec i hi, hls.ld i hi, hls.src i hi, hls.len i hi⟩)
      (fun j h => by rw [List.getElem_take]; exact hls.dst j (by omega)) hs.xa hs.full (by rw [hlk]; omega)
    rw [hlk] at x
    exact ⟨s', r, x⟩
  obtain ⟨s1, r1, x1⟩ := loads ls.length (Nat.le_refl _)
  rw [List.take_length] at r1
  have dec := hp.dec
  have hunit : ∀ k ∈ p.init :: p.taps, k.Ok ∧ ((∃ wr, k.row.sem = .dwconv wr) ∨ (k.row.sem = .adwinit ∧ AccForm k.word)) := by
    intro k hk
    have hm : k ∈ p.insts := by
      unfold DwProg.insts
      rcases List.mem_cons.1 hk with rfl | h
      · simp
      · exact List.mem_append_right _ (List.mem_append_left _ h)
    refine ⟨dec k hm, ?_⟩
    rcases List.mem_cons.1 hk with rfl | h
    · exact .inr ⟨hp.init, (field_eq ..).trans hp.form.1, (field_eq ..).trans hp.form.2⟩
    · rcases List.mem_append.1 (show k ∈ p.convs ++ [p.out] from h) with h | h
      · exact .inl ⟨_, hp.convs k h⟩
      · rw [List.mem_singleton] at h; rw [h]; exact .inl ⟨_, hp.out⟩
  intro j hj t ht q hq
  by_cases hjl : j < ls.length
  · -- a load of data
    obtain ⟨s', r, x⟩ := loads j (by omega)
    rw [List.take_append_of_le_length (by omega), r, Outcome.ok.injEq] at ht
    subst ht
    rw [List.getElem_append_left hjl] at hq
    have hm := List.getElem_mem hjl
    rw [hls.ld _ hm] at hq
    rcases hq with hq | hq
    · have := feet_lp P.maxPhys ls[j].word B (by rw [hls.byte]; omega) true s'.x (by rw [hls.src _ hm]; exact q0)
        (by rw [hls.len _ hm]; exact Ne.symm n0l) (a + 128 * j) 128
        (by rw [hls.src _ hm, x, if_pos rfl]; exact effBase_small hlim (by omega))
        (by rw [hls.len _ hm, x, if_neg (Ne.symm ql)]; exact hcB _ hs.full) (by rw [hsB]; omega) q hq
      rw [hsB] at this
      omega
    · exact hq.elim
  · obtain ⟨i, rfl⟩ : ∃ i, j = ls.length + i := ⟨j - ls.length, by omega⟩
    rw [List.take_length_add_append, runAll_append, r1, Outcome.ok_bind] at ht
    have hi : i < p.insts.length := by rw [List.length_append] at hj; omega
    have hget : (ls ++ p.insts)[ls.length + i] = p.insts[i] := by
      rw [List.getElem_append_right (by omega)]
      simp
    rw [hget] at hq
    match i, hi, ht, hq with
    | 0, _, ht, hq =>
      change Spec.Reads P.maxPhys p.ld.row.sem p.ld.word t.x q ∨ Spec.Writes P.maxPhys p.ld.row.sem p.ld.word t.x q at hq
      rw [hp.ld] at hq
      cases ht
      rcases hq with hq | hq
      · have := feet_lp P.maxPhys p.ld.word W (by rw [hp.word]) true s1.x (Ne.symm n0b) (Ne.symm n0l) b 32
          (by show Spec.effBase _ (s1.x p.rb) = b; rw [x1, if_neg (Ne.symm qb), hs.entry.xb]; exact effBase_small hlim (by omega))
          (by
            show min (s1.x p.rl).toNat _ = _
            rw [x1, if_neg (Ne.symm ql)]; exact hcW _ hs.full) (by rw [hsW]; omega) q hq
        rw [hsW] at this
        omega
      · exact hq.elim
    | 1, _, ht, hq =>
      change Spec.Reads P.maxPhys p.init.row.sem p.init.word t.x q ∨ Spec.Writes P.maxPhys p.init.row.sem p.init.word t.x q at hq
      rw [hp.init] at hq
      exact (hq.elim (fun h => h) (fun h => h)).elim
    | i + 2, hi, ht, hq =>
      have hi' : i < (p.taps ++ [p.st]).length := by
        simp only [DwProg.insts, List.length_append, List.length_cons, List.length_nil] at hi ⊢
        omega
      change Spec.Reads P.maxPhys (p.taps ++ [p.st])[i].row.sem (p.taps ++ [p.st])[i].word t.x q ∨
        Spec.Writes P.maxPhys (p.taps ++ [p.st])[i].row.sem (p.taps ++ [p.st])[i].word t.x q at hq
      by_cases htap : i < p.taps.length
      · rw [List.getElem_append_left htap] at hq
        have hm := List.getElem_mem htap
        have hdw : ∃ wr, p.taps[i].row.sem = .dwconv wr := by
          rcases List.mem_append.1 (show p.taps[i] ∈ p.convs ++ [p.out] from hm) with h | h
          · exact ⟨_, hp.convs _ h⟩
          · rw [List.mem_singleton] at h; rw [h]; exact ⟨_, hp.out⟩
        obtain ⟨wr, hdw⟩ := hdw
        rw [hdw] at hq
        exact (hq.elim (fun h => h) (fun h => h)).elim
      · obtain rfl : i = p.taps.length := by rw [List.length_append, List.length_singleton] at hi'; omega
        rw [List.getElem_append_right (by omega)] at hq
        simp only [Nat.sub_self, List.getElem_cons_zero] at hq
        rw [hp.st] at hq
        have htk : p.insts.take (p.taps.length + 2) = p.ld :: p.init :: p.taps := by
          simp [DwProg.insts, List.take_succ_cons]
        rw [htk, runAll] at ht
        obtain ⟨u, h1, h2⟩ := bind_ok_inv ht
        obtain ⟨u', h3, -, -, -, xu⟩ := run_vldLp P.maxPhys P.fresh (dec p.ld (by simp [DwProg.insts])) hp.ld (Ne.symm n0b)
          (Ne.symm n0l) s1 b 32
          (by show Spec.effBase _ (s1.x p.rb) = b; rw [x1, if_neg (Ne.symm qb), hs.entry.xb]; exact effBase_small hlim (by omega))
          (by
            show min (s1.x p.rl).toNat _ = _
            rw [x1, if_neg (Ne.symm ql)]; exact hcW _ hs.full) (by rw [hsW]; omega)
        rw [h3] at h1
        cases h1
        change ∀ q, u.x q = if q = p.rb then _ else _ at xu
        have ht' := unit_x P.maxPhys P.fresh (p.init :: p.taps) u t hunit h2
        rcases hq with hq | hq
        · exact hq.elim
        · have := feet_lp P.maxPhys p.st.word W (by rw [hp.word]) true t.x (Ne.symm n0d) (by rw [hp.len]; exact Ne.symm n0l) d 32
            (by
              show Spec.effBase _ (t.x p.rd) = d
              rw [ht', xu, if_neg (Ne.symm nbd), x1, if_neg (Ne.symm qd), hs.entry.xd]; exact effBase_small hlim (by omega))
            (by
              rw [hp.len, ht', xu, if_neg (Ne.symm nbl), x1, if_neg (Ne.symm ql)]; exact hcW _ hs.full)
            (by rw [hsW]; omega) q hq
          rw [hsW] at this
          omega

/-- C120: the depthwise convolution debugged with breakpoints on any of its instructions. `Run`, called again and again, stops at
each in order, showing what the instructions in front of it compute; the `Run` after the last finishes the convolution, and once
the breakpoints are cleared, in any order, memory and registers are those of `C119_run`. Needed: data, biases and results are apart
from the code, which is aligned. -/
theorem C120_filter (env : Top.Env VecRegs) (P : VecParams) (henv : env.sem = vecSem P) (p : DwProg) (W : CTy) (hp : p.Ok W)
    (ls : List Inst) (T : CTy) (ra g : Nat) (hls : DwLoads p ls T ra g) (hk : Known P (ls ++ p.insts)) (mpause : BitVec 32)
    (hP : Pause P mpause) (hmk : mpause ≠ semiEntry ∧ mpause ≠ semiExit) (a b d lim N : Nat) (hN : N = (ls ++ p.insts).length)
    (hlim : lim = if P.maxPhys ≤ 0x3fffff then 2 ^ 31 else 2 ^ 32)
    (ha : a + 128 * ls.length ≤ lim) (hb : b + 128 ≤ lim) (hd : d + 128 ≤ lim) (s : Arch) (hs : DwStart p ra a b d s)
    (pc : BitVec 32) (hal : pc.toNat % 4 = 0) (hw : CodeAt (dwWords p ls mpause) s pc)
    (hca : pc.toNat + (4 * N + 4) ≤ a ∨ a + 128 * ls.length ≤ pc.toNat) (hcb : pc.toNat + (4 * N + 4) ≤ b ∨ b + 128 ≤ pc.toNat)
    (hcd : pc.toNat + (4 * N + 4) ≤ d ∨ d + 128 ≤ pc.toNat)
    (js : List Nat) (hjs : ∀ j ∈ js, j < N) (l : List Nat) (hl : l = js.map fun j => pc.toNat + 4 * j) (limit : Nat) (hlt : N < limit)
    (B : Nat → Nat) (hBj : B = fun j => ((List.range j).filter fun i => decide (i ∈ js)).length) (bps : Nat → Bool)
    (hbps : bps = fun a => decide (a ∈ l)) :
    (∀ j ∈ js, ∃ s1 t1, Top.execAll env (debugCalls l limit (B j + 1)) (Top.fresh (s.machine pc)) = .ok (s1, B j + 1) ∧
      s1.reason = .softwareBreakpoint ∧ s1.status = .halted ∧ runAll P.maxPhys P.fresh ((ls ++ p.insts).take j) s = .ok t1 ∧
      Shows bps s1.m (t1.machine (pc + BitVec.ofNat 32 (4 * j))) ∧ s1.instret = j + B j + 1) ∧
    ∃ s1, Top.execAll env (debugCalls l limit (B N + 1)) (Top.fresh (s.machine pc)) = .ok (s1, B N) ∧
      s1.reason = .userRequest ∧ s1.status = .halted ∧ s1.m.pc = pc + BitVec.ofNat 32 (4 * N + 4) ∧ s1.instret = N + 1 + B N ∧
      ∀ l', l'.Nodup → (∀ a, a ∈ l' ↔ a ∈ l) → ∃ s2, Top.clearAll l' s1 = (.ok (), s2) ∧
        s2.m.pc = pc + BitVec.ofNat 32 (4 * N + 4) ∧ DwDone p ls.length ra g a b d s s2.m.regs.x s2.m.mem := by
  obtain ⟨-, -, -, t, ht, -, hD⟩ := filter_line P p W hp ls T ra g hls hk mpause hP a b d lim N hN hlim ha hb hd s hs pc hw hcd
  have hv : ∀ i ∈ ls ++ p.insts, i.row.sem ≠ .scalar := by
    intro i hi
    simp only [List.mem_append, List.mem_cons, List.not_mem_nil, or_false, DwProg.insts, DwProg.taps] at hi
    rcases hi with hi | (rfl | rfl) | (hi | rfl) | rfl
    · rw [hls.ld i hi]; simp
    · rw [hp.ld]; simp
    · rw [hp.init]; simp
    · rw [hp.convs i hi]; simp
    · rw [hp.out]; simp
    · rw [hp.st]; simp
  obtain ⟨h1, s1, e1, e2, e3, e4, e5, e6⟩ := C120_straight env P henv (ls ++ p.insts) hk hv mpause hP hmk s t ht pc hal
    (by unfold dwWords at hw; exact hw) N hN
    (dw_off P p W hp ls T ra g hls a b d lim hlim ha hb hd s hs _ _ hca hcb hcd) js hjs l hl limit hlt B hBj bps hbps
  refine ⟨h1, s1, e1, e2, e3, e4, e5, fun l' hn hm => ?_⟩
  obtain ⟨s2, k1, k2⟩ := e6 l' hn hm
  exact ⟨s2, k1, by rw [k2]; rfl, by rw [k2]; exact hD⟩

/-! ## Example -/

set_option maxRecDepth 100000 in
/-- The program of the example of `Verif.Props.DwCore` with breakpoints on the fourth load and on the `adwinit`, the ninth word:
the second `Run` stops at the `adwinit`, eight instructions done, and the third finishes. -/
example (keep : Nat → Nat → Bool) :
    (∃ s1, Top.execAll ⟨vecSem dwParams, keep⟩ (debugCalls [0x120, 0x10c] 100 2) (Top.fresh (dwState.machine 0x100)) = .ok (s1, 2) ∧
      s1.reason = .softwareBreakpoint ∧ s1.m.pc = 0x120 ∧ s1.instret = 10) ∧
    ∃ s1 s2, Top.execAll ⟨vecSem dwParams, keep⟩ (debugCalls [0x120, 0x10c] 100 3) (Top.fresh (dwState.machine 0x100)) = .ok (s1, 2) ∧
      s1.reason = .userRequest ∧ s1.instret = 16 ∧ Top.clearAll [0x10c, 0x120] s1 = (.ok (), s2) ∧
      Spec.memElem true 32 s2.m.mem (0x3000 + 4 * 9) = 9 * (-56 * 3) + 100 := by
  obtain ⟨h1, s1, e1, e2, -, -, e5, e6⟩ := C120_filter ⟨vecSem dwParams, keep⟩ dwParams rfl nineTaps .i32 nineTaps_ok sevenLoads .i8
    8 0 sevenLoads_ok dwParams_known mpauseWord dwParams_pause (by decide +kernel) 0x1000 0x2000 0x3000 _ 13 rfl rfl (by decide +kernel)
    (by decide +kernel) (by decide +kernel) dwState
    ⟨⟨by decide +kernel, by decide +kernel, by decide +kernel, by decide +kernel⟩, by decide +kernel, by decide +kernel,
      by decide +kernel⟩ 0x100 (by decide)
    ⟨fun k hk => by
      have h : ∀ k (h : k < (dwWords nineTaps sevenLoads mpauseWord).length), word dwState.mem ((0x100 : BitVec 32).toNat + 4 * k) =
          (dwWords nineTaps sevenLoads mpauseWord)[k] := by decide +kernel
      exact h k hk, by decide +kernel⟩ (by decide +kernel) (by decide +kernel) (by decide +kernel)
    [8, 3] (by decide) [0x120, 0x10c] rfl 100 (by decide) _ rfl _ rfl
  refine ⟨?_, ?_⟩
  · obtain ⟨s1, t1, k1, k2, -, -, k4, k5⟩ := h1 8 (by decide)
    exact ⟨s1, k1, k2, k4.1, k5⟩
  · obtain ⟨s2, k1, -, k2⟩ := e6 [0x10c, 0x120] (by decide) (by simp [or_comm])
    refine ⟨s1, s2, e1, e2, e5, k1, (k2.sums 6 (by decide)).trans ?_⟩
    decide +kernel

end Verif.Props
