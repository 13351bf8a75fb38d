import Verif.Proofs.Trace
import Verif.Spec.Trace
import Verif.Props.RunControl

/-! # The instruction trace (C83, C84) -/

namespace Verif.Props
open Verif Verif.Model.Top Verif.Model.Trace Verif.Proofs.Top
open Verif.Spec.Program
open Verif.Spec.Trace (path)

variable {σ : Type}

/-- The entries of a trace, as pairs. -/
def pairs (l : List Entry) : List (BitVec 32 × BitVec 32) := l.map fun e => (e.address, e.opcode)

theorem pairs_path (sem : Sem σ) (m : Machine σ) (j : Nat) : pairs (Proofs.Trace.path sem j m) = path sem m j := by
  induction j with
  | zero => rfl
  | succ j ih =>
    rw [Proofs.Trace.path_succ]
    unfold pairs path at *
    rw [List.map_append, ih, List.range_succ, List.map_append]
    rfl

/-- C83 after any session, from a state that is not a breakpoint stop (missing: resuming from a breakpoint, and programs
that write to their code, for which it is false, see below). The trace holds the instructions the program executed,
all of them and in order, followed by one entry for the breakpoint at which the run stopped, if it did; and the
instruction counter advances by its length. -/
theorem C83_trace_partial (env : Env σ) (C : Nat → Bool) (m0 : Machine σ) (ht : Tame env.sem C m0) (ops : List Op)
    (hl : LegalAll env C ops (fresh m0)) (s : St σ) (hits : Nat) (hs : execAll env ops (fresh m0) = .ok (s, hits))
    (hr : s.reason ≠ .softwareBreakpoint) (k : Nat) :
    ∃ i j s', Shows s.bps s.m (run env.sem i m0) ∧ runHalt env k s = .ok (.ok (), s') ∧
      Shows s'.bps s'.m (run env.sem (i + j) m0) ∧ s'.instret = s.instret + (traceRun env k s).length ∧
      ((s'.reason ≠ .softwareBreakpoint ∧ pairs (traceRun env k s) = path env.sem (run env.sem i m0) j) ∨
       (s'.reason = .softwareBreakpoint ∧ s.bps (run env.sem (i + j) m0).pc.toNat = true ∧
        pairs (traceRun env k s) = path env.sem (run env.sem i m0) j ++ [((run env.sem (i + j) m0).pc, ebreak)])) := by
  obtain ⟨i, s2, hits', e, hg, -⟩ := execAll_good ops (good_fresh ht) hl
  rw [hs] at e; injection e with e; injection e with e1 e2; subst e1
  have hso := hg.clean hr
  have e : runStart env s = (.ok (), { s with status := .running, halted := false }) := by
    unfold runStart
    rw [if_neg (by simp [hg.status])]
    simp only [hso, Bool.false_eq_true, if_false]
  obtain ⟨j, s', h1, h2, h3⟩ := Proofs.Trace.traceRun_loop env (s := { s with status := .running, halted := false })
    (rel_of_fields hg.rel rfl rfl rfl rfl) hg.tame rfl k
  rw [← run_add] at h2
  have hlen : ∀ (d : Nat) (m : Machine σ), (Proofs.Trace.path env.sem d m).length = d := by
    intro d
    induction d with
    | zero => intro m; rfl
    | succ d ih => intro m; simp [Proofs.Trace.path, ih]
  have he : runHalt env k s = .ok (.ok (), s') := by unfold runHalt; rw [e]; exact h1
  have ht : traceRun env k s = traceLoop env k k 0 ({ s with status := .running, halted := false } : St σ).m.pc.toNat
    { s with status := .running, halted := false } := by unfold traceRun; rw [e]
  rw [← ht] at h3
  refine ⟨i, j, s', hg.rel.shows, he, h2.shows, ?_⟩
  rcases h3 with ⟨h3, h4, h5⟩ | ⟨h3, h4, h5, h6⟩
  · rw [h4, hlen]
    exact ⟨h5, .inl ⟨h3, pairs_path ..⟩⟩
  · rw [h6, List.length_append, hlen]
    refine ⟨h5, .inr ⟨h3, by rw [run_add]; exact h4, ?_⟩⟩
    rw [show pairs (Proofs.Trace.path env.sem j (run env.sem i m0) ++ [⟨(run env.sem j (run env.sem i m0)).pc, ebreak⟩]) =
      pairs (Proofs.Trace.path env.sem j (run env.sem i m0)) ++ [((run env.sem j (run env.sem i m0)).pc, ebreak)] from
      List.map_append, pairs_path, ← run_add]

example : traceRun demoEnv 4 (fresh demo) = [⟨0, 0x00150513⟩, ⟨4, 0x10a00023⟩, ⟨8, 0xff9ff06f⟩, ⟨0, 0x00150513⟩] ∧
    traceRun demoEnv 10 demo1 = [⟨0, 0x00150513⟩, ⟨4, ebreak⟩] := by decide +kernel

/-- C83 is false when a run resumes from a breakpoint: the instruction under it is executed and counted, and is not in the
trace. -/
theorem C83_resumed (env : Env σ) (C : Nat → Bool) (m0 : Machine σ) (ht : Tame env.sem C m0) (ops : List Op)
    (hl : LegalAll env C ops (fresh m0)) (s : St σ) (hits : Nat) (hs : execAll env ops (fresh m0) = .ok (s, hits))
    (hr : s.reason = .softwareBreakpoint) (k : Nat) :
    ∃ i j s', Shows s.bps s.m (run env.sem i m0) ∧ runHalt env k s = .ok (.ok (), s') ∧
      Shows s'.bps s'.m (run env.sem (i + 1 + j) m0) ∧
      s'.instret = s.instret + (traceRun env k s).length + 1 ∧
      (s'.reason ≠ .softwareBreakpoint → pairs (traceRun env k s) = path env.sem (run env.sem (i + 1) m0) j) := by
  obtain ⟨i, s2, hits', e, hg, -⟩ := execAll_good ops (good_fresh ht) hl
  rw [hs] at e; injection e with e; injection e with e1 e2; subst e1
  obtain ⟨hso, hb⟩ := hg.stopped hr
  have hr' : Rel env.sem C ({ s with stepOver := false } : St σ) (run env.sem i m0) := rel_of_fields hg.rel rfl rfl rfl rfl
  obtain ⟨g1, g2⟩ := stepPast_bp env hr' (hg.tame 0) hb
  have e : runStart env s =
      (.ok (), { stepPast env { s with stepOver := false } with status := .running, halted := false }) := by
    unfold runStart
    rw [if_neg (by simp [hg.status])]
    simp only [hso, if_true]
  obtain ⟨j, s', h1, h2, h3⟩ := Proofs.Trace.traceRun_loop env
    (s := { stepPast env { s with stepOver := false } with status := .running, halted := false })
    (rel_of_fields g1 rfl rfl rfl rfl) (Tame.next hg.tame) rfl k
  have hn : (next env.sem (run env.sem i m0)).1 = run env.sem (i + 1) m0 := (run_succ ..).symm
  have hlen : ∀ (d : Nat) (m : Machine σ), (Proofs.Trace.path env.sem d m).length = d := by
    intro d
    induction d with
    | zero => intro m; rfl
    | succ d ih => intro m; simp [Proofs.Trace.path, ih]
  have he : runHalt env k s = .ok (.ok (), s') := by unfold runHalt; rw [e]; exact h1
  have ht : traceRun env k s = traceLoop env k k 0
    ({ stepPast env { s with stepOver := false } with status := .running, halted := false } : St σ).m.pc.toNat
    { stepPast env { s with stepOver := false } with status := .running, halted := false } := by unfold traceRun; rw [e]
  have hi : ({ stepPast env { s with stepOver := false } with status := .running, halted := false } : St σ).instret =
    s.instret + 1 := g2.instret
  rw [← ht, hi] at h3
  rw [hn] at h2 h3
  rw [← run_add] at h2
  refine ⟨i, j, s', hg.rel.shows, he, h2.shows, ?_, ?_⟩
  · rcases h3 with ⟨h3, h4, h5⟩ | ⟨h3, h4, h5, h6⟩
    · rw [h4, hlen]; omega
    · rw [h6, List.length_append, hlen]; simp only [List.length_cons, List.length_nil]; omega
  · intro hns
    rcases h3 with ⟨h3, h4, h5⟩ | ⟨h3, h4, h5, h6⟩
    · rw [h4]; exact pairs_path ..
    · exact absurd h3 hns

example : traceRun demoEnv 2 demo3 = [⟨8, 0xff9ff06f⟩, ⟨0, 0x00150513⟩] := by decide +kernel

/-- A machine whose instruction at 0 writes `nop` over itself and asks for a halt. -/
def selfEnv : Env Unit := ⟨{ inst := fun _ _ m => ({ m with mem := putWord m.mem 0 0x13 }, [.userRequest]) }, fun _ _ => true⟩
def selfMachine : Machine Unit := ⟨0, putWord (fun _ => 0) 0 0x00a02023, ()⟩

/-- C83 is false for a program that overwrites the instruction it executes: the trace shows the word written. -/
theorem C83_overwritten : pairs (traceRun selfEnv 1 (fresh selfMachine)) = [(0, 0x13)] ∧
    path selfEnv.sem selfMachine 1 = [(0, 0x00a02023)] := by decide +kernel

/-! ## C84 -/

theorem lastSlash_none {p : Path} (h : '/' ∉ p) : lastSlash p = none := by
  induction p with
  | nil => rfl
  | cons c p ih =>
    simp only [List.mem_cons, not_or] at h
    rw [lastSlash, ih h.2]
    exact if_neg (fun e => h.1 e.symm)

theorem lastSlash_append (d f : Path) (hf : '/' ∉ f) : lastSlash (d ++ '/' :: f) = some d.length := by
  induction d with
  | nil => simp [lastSlash, lastSlash_none hf]
  | cons c d ih => simp [lastSlash, ih]

/-- C84 for a path with a directory part, `d/f` (missing: a file in the root or in the working directory, see below). When
`d` is a directory or can be made, and the path is not a directory, the file holds exactly the entries of the run, whatever it
held before; nothing else changes but for `d`. -/
theorem C84_written_partial (fs : Fs) (d f : Path) (hd : d ≠ []) (hf : '/' ∉ f) (l : List Entry)
    (h : fs d = some .dir ∨ (fs d = none ∧ parentIsDir fs d = true)) (hn : fs (d ++ '/' :: f) ≠ some .dir) :
    (writeTrace fs (d ++ '/' :: f) l).1 = .dump ∧ (writeTrace fs (d ++ '/' :: f) l).2 (d ++ '/' :: f) = some (.file l) ∧
    (writeTrace fs (d ++ '/' :: f) l).2 d = some .dir ∧
    ∀ q, q ≠ d → q ≠ d ++ '/' :: f → (writeTrace fs (d ++ '/' :: f) l).2 q = fs q := by
  have hls := lastSlash_append d f hf
  have hdp : d ≠ d ++ '/' :: f := by intro e; have := congrArg List.length e; simp at this
  have htd : traceDir (d ++ '/' :: f) = d := by unfold traceDir; rw [hls]; simp
  have hpar : ∀ g : Fs, g d = some .dir → parentIsDir g (d ++ '/' :: f) = true := by
    intro g hg
    unfold parentIsDir
    rw [hls]
    cases hdl : d.length with
    | zero => rfl
    | succ n => have e : (d ++ '/' :: f).take (n + 1) = d := by rw [← hdl, List.take_left]
                show (g ((d ++ '/' :: f).take (n + 1)) == some .dir) = true; rw [e, hg]; rfl
  have key : ∃ g : Fs, mkdir fs d = (true, g) ∧ g d = some .dir ∧ g (d ++ '/' :: f) = fs (d ++ '/' :: f) ∧ ∀ q, q ≠ d → g q = fs q := by
    unfold mkdir
    rw [if_neg hd]
    rcases h with h | ⟨h, h'⟩
    · rw [if_pos (by rw [h]; rfl)]
      exact ⟨fs, rfl, h, rfl, fun _ _ => rfl⟩
    · rw [if_neg (by rw [h]; simp), if_pos h']
      exact ⟨_, rfl, by simp [setNode], if_neg hdp.symm, fun q hq => if_neg hq⟩
  obtain ⟨g, h1, h2, h3, h4⟩ := key
  have ho : openOut g (d ++ '/' :: f) = (true, setNode g (d ++ '/' :: f) (.file [])) := by
    unfold openOut
    rw [if_neg]
    rintro (e | e | e)
    · simp at e
    · rw [h3] at e; exact hn e
    · rw [hpar g h2] at e; cases e
  have hw : writeTrace fs (d ++ '/' :: f) l = (.dump, setNode (setNode g (d ++ '/' :: f) (.file [])) (d ++ '/' :: f) (.file l)) := by
    unfold writeTrace openTrace
    rw [htd, h1]
    simp only [if_true, ho]
  rw [hw]
  refine ⟨rfl, by simp [setNode], ?_, fun q hq hq' => ?_⟩
  · simp only [setNode, if_neg hdp]; exact h2
  · simp only [setNode, if_neg hq']; exact h4 q hq

example : (writeTrace (fun p => if p = "/tmp".toList then some .dir else none) "/tmp/t.pb".toList [⟨0, 0x13⟩]).2 "/tmp/t.pb".toList =
    some (.file [⟨0, 0x13⟩]) := by decide +kernel

/-- C84 is false for a new file in the working directory: a directory of that name is made, the trace is lost, and the
message says that it is written. -/
theorem C84_relative (fs : Fs) (p : Path) (hp : p ≠ []) (hs : '/' ∉ p) (hn : fs p = none) (l : List Entry) :
    writeTrace fs p l = (.dump, setNode fs p .dir) := by
  have h0 := lastSlash_none hs
  have ht : traceDir p = p := by unfold traceDir; rw [h0]
  have hm : mkdir fs p = (true, setNode fs p .dir) := by
    unfold mkdir
    rw [if_neg hp, if_neg (by rw [hn]; simp), if_pos (by unfold parentIsDir; rw [h0])]
  unfold writeTrace openTrace
  rw [ht, hm]
  simp [openOut, setNode]

/-- C84 is false for a file in the root directory: the directory part is empty and cannot be made. This is reported. -/
theorem C84_root (fs : Fs) (f : Path) (hf : '/' ∉ f) (l : List Entry) : writeTrace fs ('/' :: f) l = (.failed, fs) := by
  have h0 := lastSlash_append [] f hf
  have ht : traceDir ('/' :: f) = [] := by unfold traceDir; rw [show lastSlash ('/' :: f) = some 0 from h0]; rfl
  unfold writeTrace openTrace
  rw [ht]
  simp [mkdir]

/-- C84 is false when the directory part names a file: nothing is written, and the message says that it is. -/
theorem C84_not_directory (fs : Fs) (d f : Path) (hd : d ≠ []) (hf : '/' ∉ f) (l l' : List Entry) (h : fs d = some (.file l')) :
    writeTrace fs (d ++ '/' :: f) l = (.dump, fs) := by
  have hls := lastSlash_append d f hf
  have htd : traceDir (d ++ '/' :: f) = d := by unfold traceDir; rw [hls]; simp
  have hm : mkdir fs d = (true, fs) := by unfold mkdir; rw [if_neg hd, if_pos (by rw [h]; rfl)]
  have hp : parentIsDir fs (d ++ '/' :: f) = false := by
    unfold parentIsDir
    rw [hls]
    cases hdl : d.length with
    | zero => exact absurd (List.length_eq_zero_iff.1 hdl) hd
    | succ n => have e : (d ++ '/' :: f).take (n + 1) = d := by rw [← hdl, List.take_left]
                show (fs ((d ++ '/' :: f).take (n + 1)) == some .dir) = false; rw [e, h]; rfl
  unfold writeTrace openTrace
  rw [htd, hm]
  simp [openOut, hp]

/-- C84 is false over several runs: each run starts the file anew, so that only the last one is kept. -/
theorem C84_last_only (fs : Fs) (d f : Path) (hd : d ≠ []) (hf : '/' ∉ f) (l l' : List Entry) (h : fs d = some .dir)
    (hn : fs (d ++ '/' :: f) ≠ some .dir) :
    (writeTrace (writeTrace fs (d ++ '/' :: f) l).2 (d ++ '/' :: f) l').2 (d ++ '/' :: f) = some (.file l') := by
  obtain ⟨-, h2, h3, -⟩ := C84_written_partial fs d f hd hf l (.inl h) hn
  exact (C84_written_partial _ d f hd hf l' (.inl h3) (by rw [h2]; simp)).2.1

end Verif.Props
