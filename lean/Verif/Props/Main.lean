import Verif.Model.Main
import Verif.Model.Threads
import Verif.Spec.Main

/-! # The command-line simulators (C77, C78) -/

namespace Verif.Props

open Verif Verif.Model.Main
open Verif.Spec.Main (File IsElf Short startAt)

theorem magic (b0 b1 b2 b3 : BitVec 8) :
    (b0.toNat + 256 * b1.toNat + 65536 * b2.toNat + 16777216 * b3.toNat = 0x464c457f) ↔
      b0 = 0x7f ∧ b1 = 0x45 ∧ b2 = 0x4c ∧ b3 = 0x46 := by
  have h0 := b0.isLt; have h1 := b1.isLt; have h2 := b2.isLt; have h3 := b3.isLt
  simp only [← BitVec.toNat_inj, BitVec.toNat_ofNat, BitVec.ofNat_eq_ofNat]
  omega

/-- C77 for files that are not shorter than four bytes (missing: shorter ones, see `C77_short`): the test for ELF files. -/
theorem C77_elf_partial (f : File) (hf : ¬ Short f) : ∃ b, isElfFile f = .ok b ∧ (b = true ↔ IsElf f) := by
  cases f with
  | none => exact ⟨false, rfl, by simp [IsElf]⟩
  | some l =>
    match l with
    | b0 :: b1 :: b2 :: b3 :: t =>
      refine ⟨_, rfl, ?_⟩
      rw [beq_iff_eq, magic]
      simp [IsElf]
    | [] => exact absurd ⟨_, rfl, by simp⟩ hf
    | [_] => exact absurd ⟨_, rfl, by simp⟩ hf
    | [_, _] => exact absurd ⟨_, rfl, by simp⟩ hf
    | [_, _, _] => exact absurd ⟨_, rfl, by simp⟩ hf

theorem isElf_true {f : File} (h : IsElf f) : isElfFile f = .ok true := by
  obtain ⟨t, rfl⟩ := h; rfl

theorem isElf_false {f : File} (hs : ¬ Short f) (h : ¬ IsElf f) : isElfFile f = .ok false := by
  obtain ⟨b, e, hb⟩ := C77_elf_partial f hs
  rw [e]
  cases b with
  | false => rfl
  | true => exact absurd (hb.1 rfl) h

/-- C77 is false for a file shorter than four bytes: `main` compares an uninitialised word. -/
theorem C77_short {f : File} (h : Short f) (fl : Flags) (an : Answers) : mainV1 [f] fl an = .ub := by
  obtain ⟨l, rfl, hl⟩ := h
  match l with
  | [] | [_] | [_, _] | [_, _, _] => rfl
  | _ :: _ :: _ :: _ :: _ => simp at hl; omega

example : Short (some [0x13, 0x00]) ∧ ¬ Short none ∧ IsElf (some [0x7f, 0x45, 0x4c, 0x46, 1]) := by
  exact ⟨⟨_, rfl, by decide⟩, by simp [Short], ⟨_, rfl⟩⟩

/-- C77: anything but one argument is refused before a simulator is made. -/
theorem C77_args (args : List File) (h : args.length ≠ 1) (fl : Flags) (an : Answers) :
    mainV1 args fl an = .ok (mainV2 args fl an) ∧ (mainV2 args fl an).code = -1 ∧ (mainV2 args fl an).calls = [] ∧
      (mainV2 args fl an).warned = false := by
  match args with
  | [] => exact ⟨rfl, rfl, rfl, rfl⟩
  | [_] => simp at h
  | _ :: _ :: _ => exact ⟨rfl, rfl, rfl, rfl⟩

/-- What is called once the program is loaded and the pc written. -/
def goes (fl : Flags) : List Call := if fl.i = true ∨ fl.interactive = true then [.shell] else [.run, .wait]

/-- The entry point, as the calls see it. -/
theorem entry_toNat (flag : Option (BitVec 32)) (elf : BitVec 64) :
    ((match flag with
      | some e => (e.zeroExtend 64 : BitVec 64)
      | none => elf).truncate 32 : BitVec 32).toNat = startAt flag elf := by
  cases flag with
  | none => simp [startAt, BitVec.truncate_eq_setWidth, BitVec.toNat_setWidth]
  | some e =>
    simp only [startAt, BitVec.truncate_eq_setWidth, BitVec.zeroExtend, BitVec.toNat_setWidth]
    have := e.isLt
    omega

theorem warned_iff (elf : BitVec 64) (v : BitVec 32) : (elf != v.zeroExtend 64) = true ↔ v.toNat ≠ elf.toNat := by
  rw [bne_iff_ne, ne_eq, ne_eq, ← BitVec.toNat_inj]
  simp only [BitVec.zeroExtend, BitVec.toNat_setWidth]
  have := v.isLt
  rw [Nat.mod_eq_of_lt (by omega)]
  exact not_congr eq_comm

/-- C77: both simulators, given an ELF file. When the loader refuses the file or the pc cannot be written, the exit code
tells and nothing runs. Otherwise the pc is written once, with the flag or the entry point of the file, and the program is
started; a message is written exactly when the pc is not the entry point of the file. -/
theorem C77_elf {f : File} (hf : IsElf f) (fl : Flags) (an : Answers) (r : Result)
    (hr : mainV1 [f] fl an = .ok r ∨ mainV2 [f] fl an = r) :
    (an.loadElf = none → r.code = -1 ∧ r.calls = [.loadElf] ∧ r.warned = false) ∧
    ∀ elf, an.loadElf = some elf → ∃ v : BitVec 32, v.toNat = startAt fl.entryPoint elf ∧
      r.calls = [.loadElf, .writePc v] ++ (if an.writePc then goes fl else []) ∧
      r.code = (if an.writePc then 0 else -1) ∧ (r.warned = true ↔ v.toNat ≠ elf.toNat) := by
  rcases hr with hr | rfl
  · dsimp only [mainV1] at hr
    rw [isElf_true hf] at hr
    simp only [Outcome.ok_bind, Bool.not_true, Bool.false_and, Bool.false_eq_true, if_false, if_true] at hr
    cases hl : an.loadElf with
    | none => rw [hl] at hr; injection hr with hr; subst hr; exact ⟨fun _ => ⟨rfl, rfl, rfl⟩, fun _ h => nomatch h⟩
    | some elf =>
      rw [hl] at hr; injection hr with hr
      refine ⟨(fun h => nomatch h), fun e he => ?_⟩
      injection he with he; subst he
      refine ⟨_, entry_toNat fl.entryPoint elf, ?_⟩
      rw [← warned_iff, ← hr]
      unfold startV1 goes
      cases an.writePc <;> cases fl.i <;> cases fl.interactive <;> cases fl.entryPoint <;> simp
  · unfold mainV2 loadProgramV2
    cases hl : an.loadElf with
    | none => exact ⟨fun _ => ⟨rfl, rfl, rfl⟩, fun _ h => nomatch h⟩
    | some elf =>
      refine ⟨(fun h => nomatch h), fun e he => ?_⟩
      injection he with he; subst he
      refine ⟨_, entry_toNat fl.entryPoint elf, ?_⟩
      rw [← warned_iff]
      unfold goes
      cases an.writePc <;> cases fl.i <;> cases fl.interactive <;> cases fl.entryPoint <;> simp

/-- C77: the first simulator, given a raw image: it needs the entry point flag, is not run interactively, and is loaded at
the offset flag. There is no entry point of the file to differ from. -/
theorem C77_image_partial {f : File} (hs : ¬ Short f) (hf : ¬ IsElf f) (fl : Flags) (an : Answers) :
    ∃ r, mainV1 [f] fl an = .ok r ∧ r.warned = false ∧
      ((fl.i = true ∨ fl.interactive = true ∨ fl.entryPoint = none) → r.code = -1 ∧ r.calls = []) ∧
      ∀ v, fl.i = false → fl.interactive = false → fl.entryPoint = some v →
        r.calls = .loadImage fl.binMemoryOffset :: (if an.loadImage then .writePc v :: (if an.writePc then [.run, .wait] else []) else []) ∧
        r.code = (if an.loadImage ∧ an.writePc then 0 else -1) := by
  dsimp only [mainV1]
  rw [isElf_false hs hf]
  simp only [Outcome.ok_bind, Bool.not_false, Bool.true_and]
  cases h1 : fl.i <;> cases h2 : fl.interactive <;> cases h3 : fl.entryPoint <;> cases h4 : an.loadImage <;> cases h5 : an.writePc <;>
    simp [startV1, h1, h2, h5]

/-- C77 fails for errors of the run: the exit code does not depend on them. -/
theorem C77_status_ignored (args : List File) (fl : Flags) (an : Answers) (a b : Bool) :
    mainV1 args fl { an with run := a, wait := b } = mainV1 args fl an ∧
    mainV2 args fl { an with run := a, wait := b } = mainV2 args fl an := by
  constructor <;> rfl

example : (mainV2 [some []] {} { loadElf := some 0x100000100, run := false }).code = 0 ∧
    (mainV2 [some []] {} { loadElf := some 0x100000100, run := false }).calls = [.loadElf, .writePc 0x100, .run, .wait] ∧
    (mainV2 [some []] {} { loadElf := some 0x100000100, run := false }).warned = true := by decide +kernel

/-! ### Control-C -/

theorem startV1_procs (fl : Flags) (an : Answers) (loads : List Call) (v : BitVec 32) (b : Bool) :
    (startV1 fl an loads v b).procs = procsKept := by
  unfold startV1
  dsimp only
  split
  · rfl
  · split <;> rfl

theorem mainV1_one {f : File} {b : Bool} (e : isElfFile f = .ok b) (fl : Flags) (an : Answers) :
    ∃ r, mainV1 [f] fl an = .ok r ∧ r.procs = procsKept := by
  dsimp only [mainV1]
  rw [e]
  simp only [Outcome.ok_bind]
  split
  · exact ⟨_, rfl, rfl⟩
  · split
    · split
      · exact ⟨_, rfl, rfl⟩
      · exact ⟨_, rfl, startV1_procs ..⟩
    · split
      · exact ⟨_, rfl, rfl⟩
      · split
        · exact ⟨_, rfl, rfl⟩
        · exact ⟨_, rfl, startV1_procs ..⟩

/-- C78: while the simulator exists, a control-C either ends the process or asks the simulator to halt, and it does the
latter exactly while the handler is installed and the pointer is set. Missing: the end of the process, see
`C78_v1_dangling` and `C78_v2_dangling`. -/
theorem C78_alive_partial (args : List File) (fl : Flags) (an : Answers) (r : Result)
    (hr : mainV1 args fl an = .ok r ∨ mainV2 args fl an = r) (p : Proc) (hp : p ∈ r.procs) (ho : p.obj ≠ .destroyed) :
    ∃ x, sigint p = .ok x ∧ (x = .halts ↔ p.handler = true ∧ p.ptr = true) := by
  have hmem : p ∈ procsKept ∨ p ∈ procsReset := by
    have h0 : (⟨false, false, .none⟩ : Proc) ∈ procsKept := by decide
    rcases hr with hr | rfl
    · match args with
      | [] => injection hr with hr; subst hr; left; rw [List.mem_singleton.1 hp]; exact h0
      | _ :: _ :: _ => injection hr with hr; subst hr; left; rw [List.mem_singleton.1 hp]; exact h0
      | [f] =>
        cases he : isElfFile f with
        | ub => dsimp only [mainV1] at hr; rw [he] at hr; cases hr
        | abort => dsimp only [mainV1] at hr; rw [he] at hr; cases hr
        | ok b =>
          obtain ⟨r', e', hk⟩ := mainV1_one he fl an
          rw [hr] at e'; injection e' with e'; subst e'
          rw [hk] at hp; exact .inl hp
    · match args with
      | [] => left; rw [List.mem_singleton.1 hp]; exact h0
      | _ :: _ :: _ => left; rw [List.mem_singleton.1 hp]; exact h0
      | [f] =>
        dsimp only [mainV2] at hp
        split at hp
        · exact .inl hp
        · split at hp <;> exact .inr hp
  have hall : ∀ p ∈ procsKept ++ procsReset, p.obj ≠ .destroyed →
      ∃ x, sigint p = .ok x ∧ (x = .halts ↔ p.handler = true ∧ p.ptr = true) := by
    simp only [procsKept, procsReset, List.cons_append, List.nil_append, List.forall_mem_cons]
    refine ⟨?_, ?_, ?_, ?_, ?_, ?_, ?_, ?_, ?_, ?_, ?_, ?_⟩
    all_goals first
      | (intro h; exact absurd rfl h)
      | (intro _; exact ⟨_, rfl, by decide⟩)
      | simp
  exact hall p (List.mem_append.2 hmem) ho

/-- C78 for the second simulator, when the program was loaded: no control-C meets a destroyed simulator, and only a
simulator that exists is asked to halt. -/
theorem C78_v2_partial (f : File) (fl : Flags) (an : Answers) (hl : an.loadElf ≠ none) (hw : an.writePc = true) (p : Proc)
    (hp : p ∈ (mainV2 [f] fl an).procs) : sigint p ≠ .ub ∧ (sigint p = .ok .halts → p.obj = .alive) := by
  have : (mainV2 [f] fl an).procs = procsReset := by
    unfold mainV2 loadProgramV2
    cases h : an.loadElf with
    | none => exact absurd h hl
    | some e => simp only [hw, Bool.not_true, Bool.false_eq_true, if_false]; split <;> rfl
  rw [this] at hp
  revert p
  decide

/-- C78: what a control-C does in the successive situations of the process, given one argument: it ends the process until
the handler is installed. -/
theorem C78_list_partial (f : File) (fl : Flags) (an : Answers) :
    (∀ r, mainV1 [f] fl an = .ok r →
      r.procs.map sigint = [.ok .killed, .ok .killed, .ok .killed, .ok .halts, .ub]) ∧
    ((an.loadElf = none ∨ an.writePc = false) →
      (mainV2 [f] fl an).procs.map sigint = [.ok .killed, .ok .killed, .ok .killed, .ok .halts, .ub]) ∧
    (an.loadElf ≠ none → an.writePc = true →
      (mainV2 [f] fl an).procs.map sigint = [.ok .killed, .ok .killed, .ok .killed, .ok .halts, .ok .exits, .ok .exits]) := by
  refine ⟨fun r hr => ?_, fun h => ?_, fun hl hw => ?_⟩
  · cases he : isElfFile f with
    | ub => dsimp only [mainV1] at hr; rw [he] at hr; cases hr
    | abort => dsimp only [mainV1] at hr; rw [he] at hr; cases hr
    | ok b =>
      obtain ⟨r', e', hk⟩ := mainV1_one he fl an
      rw [hr] at e'; injection e' with e'; subst e'
      rw [hk]; rfl
  · unfold mainV2 loadProgramV2
    cases hl : an.loadElf with
    | none => rfl
    | some e =>
      rw [hl] at h
      simp only [reduceCtorEq, false_or] at h
      simp only [h, Bool.not_false, if_true]
      rfl
  · unfold mainV2 loadProgramV2
    cases h : an.loadElf with
    | none => exact absurd h hl
    | some e => simp only [hw, Bool.not_true, Bool.false_eq_true, if_false]; split <;> rfl

/-- C78: with another number of arguments a control-C ends the process. -/
theorem C78_no_args (args : List File) (h : args.length ≠ 1) (fl : Flags) (an : Answers) :
    (mainV2 args fl an).procs.map sigint = [.ok .killed] := by
  match args with
  | [] => rfl
  | [_] => simp at h
  | _ :: _ :: _ => rfl

/-- C78 is false for the first simulator, however it ends: the pointer is never reset, and a control-C after `main` has
returned calls a member of the destroyed simulator. -/
theorem C78_v1_dangling {f : File} (hs : ¬ Short f) (fl : Flags) (an : Answers) :
    ∃ r p, mainV1 [f] fl an = .ok r ∧ r.procs.getLast? = some p ∧ sigint p = .ub := by
  obtain ⟨b, e, -⟩ := C77_elf_partial f hs
  obtain ⟨r, h, hk⟩ := mainV1_one e fl an
  exact ⟨r, ⟨true, true, .destroyed⟩, h, by rw [hk]; rfl, rfl⟩

/-- C78 is false for the second simulator when the program cannot be loaded. -/
theorem C78_v2_dangling (f : File) (fl : Flags) (an : Answers) (hl : an.loadElf = none) :
    ∃ p, (mainV2 [f] fl an).procs.getLast? = some p ∧ sigint p = .ub := by
  unfold mainV2 loadProgramV2
  rw [hl]
  exact ⟨_, rfl, rfl⟩

example : sigint ⟨true, true, .alive⟩ = .ok .halts ∧ sigint ⟨true, false, .destroyed⟩ = .ok .exits := by decide

/-- C78 fails before `Run`: `Halt` on a core that has not been started has no effect, so the simulation starts all the
same. -/
theorem C78_lost {σ : Type} (env : Model.Top.Env σ) (m0 : Spec.Program.Machine σ) (l : List Model.Threads.Act) :
    Model.Threads.acts env (.halt :: .run :: l) (Model.Threads.initial (Model.Top.fresh m0)) =
      Model.Threads.acts env (.run :: l) (Model.Threads.initial (Model.Top.fresh m0)) := by
  rfl

end Verif.Props
