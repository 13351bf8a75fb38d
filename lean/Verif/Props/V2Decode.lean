import Verif.Proofs.V2Tables

/-! # Decoding on the second core (C65 – C67, C69 – C71) -/

namespace Verif.Props
open Verif Verif.Model
open Verif.Spec (bitsAt)
open Verif.Spec.V2Isa (Line)

/-- The row has no effect on the word: it is bound to the no-op function, it shifts into x0, or it is a fence with an
empty predecessor set. -/
def V2Idle (r : V2Isa.Row) (w : BitVec 32) : Prop :=
  r.sems = ["&::mpact::sim::riscv::RiscVINop"] ∨
  ((r.sems = ["&::mpact::sim::riscv::RV32::RiscVISll"] ∨ r.sems = ["&::mpact::sim::riscv::RV32::RiscVISra"]) ∧
    r.parts.map (·.2) = [["rd"]] ∧ bitsAt w 7 5 = 0) ∨
  (r.sems = ["&::mpact::sim::riscv::RiscVIFence"] ∧ bitsAt w 24 4 = 0)

theorem V2Idle.of {c d : Model.Row} {r : V2Isa.Row} {w : BitVec 32} (hc : c.matches w = true) (hd : d.matches w = true)
    (h : Proofs.V2Isa.idle c d r = true) : V2Idle r w := by
  simp only [Proofs.V2Isa.idle, Bool.or_eq_true, Bool.and_eq_true, beq_iff_eq, List.contains_iff_mem,
    Proofs.V2Isa.shifts, List.mem_cons, List.not_mem_nil, or_false] at h
  rcases h with (h | ⟨⟨h1, h2⟩, h3⟩) | ⟨h1, h2⟩
  · exact .inl h
  · refine .inr (.inl ⟨h1, h2, ?_⟩)
    rw [← Proofs.V2Isa.field_bitsAt]
    exact h3.elim (Proofs.forces_field hc) (Proofs.forces_field hd)
  · refine .inr (.inr ⟨h1, ?_⟩)
    rw [← Proofs.V2Isa.field_bitsAt]
    exact h2.elim (Proofs.forces_field hc) (Proofs.forces_field hd)

/-- C65: two rows that both match a word are the same row, or print the same name and both do nothing on that word. So
whichever of them the decoder returns, the instruction has the same effect. Missing: they are not always the same row
(`C65_overlap`). -/
theorem C65_unique_partial {r r' : V2Isa.Row} {w : BitVec 32} (hr : r ∈ V2Isa.rows) (hr' : r' ∈ V2Isa.rows)
    (h : r.matches w = true) (h' : r'.matches w = true) :
    r = r' ∨ (r.mnem = r'.mnem ∧ V2Idle r w ∧ V2Idle r' w) := by
  have hp := Proofs.V2Isa.pairsOk_pairwise V2Isa.rows (Proofs.V2Isa.keys_eq ▸ Proofs.V2Isa.pairs_ok)
  let R : V2Isa.Row → V2Isa.Row → Prop := fun a b =>
    ∀ w, a.matches w = true → b.matches w = true → a.mnem = b.mnem ∧ V2Idle a w ∧ V2Idle b w
  have hp : V2Isa.rows.Pairwise R := hp.imp fun {a b} hab w ha hb =>
    ⟨(hab w ha hb).1,
     .of ((Proofs.V2Isa.toCube_matches a w).2 ha) ((Proofs.V2Isa.toCube_matches b w).2 hb) (hab w ha hb).2.1,
     .of ((Proofs.V2Isa.toCube_matches a w).2 ha) ((Proofs.V2Isa.toCube_matches b w).2 hb) (hab w ha hb).2.2⟩
  rcases Proofs.V2Isa.mem_rows_pair (R := R) (fun a b hab w ha hb => ⟨(hab w hb ha).1.symm, (hab w hb ha).2.2, (hab w hb ha).2.1⟩)
    hp hr hr' with e | e
  · exact .inl e
  · exact .inr (e w h h')

/-- The rows that match a word, by name. -/
def v2Names (w : BitVec 32) : List String := (V2Isa.rows.filter (·.matches w)).map (·.name)

/-- C65 fails as it stands: the table has words with several rows, here `slli x0, x1, 0` and a fence. -/
theorem C65_overlap :
    v2Names 0x00009013#32 = ["slli", "slli_hint1", "slli_hint2"] ∧ v2Names 0x0010000f#32 = ["fence", "fence_hint5"] := by
  decide +kernel

example : v2Names 0x00b50533#32 = ["add"] ∧ v2Names 0x02b5b533#32 = ["mulhu"] := by decide +kernel

/-- The row performs the instruction of the line on the word: it is bound to the functions of the line with its
operands, or it does nothing and neither does the instruction (a hint). -/
def V2Performs (e : Line) (r : V2Isa.Row) (w : BitVec 32) : Prop :=
  (r.operands = e.parts ∧ r.sems = e.sems) ∨
  (r.sems = ["&::mpact::sim::riscv::RiscVINop"] ∧ ∃ b ∈ e.nopIf, bitsAt w b.1 b.2.1 = b.2.2)

theorem V2Performs.of {e : Line} {r : V2Isa.Row} {w : BitVec 32} (hm : r.matches w = true)
    (h : Proofs.V2Isa.performs e r = true) : V2Performs e r w := by
  simp only [Proofs.V2Isa.performs, Bool.or_eq_true, Bool.and_eq_true, beq_iff_eq, List.any_eq_true] at h
  rcases h with h | ⟨h1, b, hb, h2⟩
  · exact .inl h
  · refine .inr ⟨h1, b, hb, ?_⟩
    rw [← Proofs.V2Isa.field_bitsAt]
    exact Proofs.forces_field ((Proofs.V2Isa.toCube_matches r w).2 hm) h2

/-- Scalar words without a row of their own: `add x0, x0, x2 … x5` (the Zihintntl hints), fences with reserved fields, and
`csrrw` on CSR 0xC00. -/
def V2ScalarHole (w : BitVec 32) : Prop :=
  (bitsAt w 0 7 = 0x33 ∧ bitsAt w 12 3 = 0 ∧ bitsAt w 25 7 = 0 ∧ bitsAt w 7 5 = 0 ∧ bitsAt w 15 5 = 0 ∧
    (bitsAt w 20 5 = 2 ∨ bitsAt w 20 5 = 3 ∨ bitsAt w 20 5 = 4 ∨ bitsAt w 20 5 = 5)) ∨
  (bitsAt w 0 7 = 0x0f ∧ bitsAt w 12 3 = 0 ∧ bitsAt w 28 4 = 0 ∧ bitsAt w 20 4 = 0 ∧ bitsAt w 7 5 ≠ 0 ∧ bitsAt w 15 5 ≠ 0) ∨
  (bitsAt w 0 7 = 0x0f ∧ bitsAt w 12 3 = 0 ∧ bitsAt w 28 4 ≠ 0 ∧ bitsAt w 20 12 ≠ 0x833) ∨
  (bitsAt w 0 7 = 0x73 ∧ bitsAt w 12 3 = 1 ∧ bitsAt w 20 12 = 0xc00)

theorem v2ScalarHole_iff (w : BitVec 32) : V2ScalarHole w ↔ ∃ d ∈ Proofs.V2Isa.scalarHoles, d.matches w = true := by
  simp only [Proofs.V2Isa.scalarHoles, List.map_cons, List.map_nil, List.cons_append, List.nil_append, List.mem_cons,
    List.not_mem_nil, or_false, exists_eq_or_imp, exists_eq_left, Proofs.V2Isa.cube_matches, forall_eq_or_imp, forall_eq,
    false_imp_iff, implies_true, and_true, Proofs.V2Isa.field_bitsAt, V2ScalarHole, ne_eq]
  constructor
  · rintro (⟨a, b, c, d, e, f | f | f | f⟩ | ⟨a, b, c, d, e, f⟩ | ⟨a, b, c, d⟩ | h)
    · exact .inl ⟨a, b, c, d, e, f⟩
    · exact .inr (.inl ⟨a, b, c, d, e, f⟩)
    · exact .inr (.inr (.inl ⟨a, b, c, d, e, f⟩))
    · exact .inr (.inr (.inr (.inl ⟨a, b, c, d, e, f⟩)))
    · exact .inr (.inr (.inr (.inr (.inl ⟨⟨a, b, c, d⟩, e, f⟩))))
    · exact .inr (.inr (.inr (.inr (.inr (.inl ⟨⟨a, b⟩, c, d⟩)))))
    · exact .inr (.inr (.inr (.inr (.inr (.inr h)))))
  · rintro (⟨a, b, c, d, e, f⟩ | ⟨a, b, c, d, e, f⟩ | ⟨a, b, c, d, e, f⟩ | ⟨a, b, c, d, e, f⟩ | ⟨⟨a, b, c, d⟩, e, f⟩ |
      ⟨⟨a, b⟩, c, d⟩ | h)
    · exact .inl ⟨a, b, c, d, e, .inl f⟩
    · exact .inl ⟨a, b, c, d, e, .inr (.inl f)⟩
    · exact .inl ⟨a, b, c, d, e, .inr (.inr (.inl f))⟩
    · exact .inl ⟨a, b, c, d, e, .inr (.inr (.inr f))⟩
    · exact .inr (.inl ⟨a, b, c, d, e, f⟩)
    · exact .inr (.inr (.inl ⟨a, b, c, d⟩))
    · exact .inr (.inr (.inr h))

theorem unimp_hole {r : V2Isa.Row} {w : BitVec 32} (hr : r ∈ V2Isa.rows) (hn : r.name = "unimp") (hm : r.matches w = true) :
    w = 0xc0001073#32 := by
  have h : V2Isa.rows.all (fun r => r.name != "unimp" || Proofs.V2Isa.inside (Proofs.rowKey (Proofs.V2Isa.toCube r))
    (Proofs.V2Isa.toCube r) (Proofs.rowKey Proofs.V2Isa.unimpWord) Proofs.V2Isa.unimpWord) = true := by decide +kernel
  have h := List.all_eq_true.1 h r hr
  simp only [Bool.or_eq_true, bne_iff_ne, ne_eq, hn, not_true, false_or] at h
  have := Proofs.V2Isa.inside_sound h ((Proofs.V2Isa.toCube_matches r w).2 hm)
  rw [Proofs.V2Isa.unimpWord, Proofs.V2Isa.cube_matches] at this
  have := this.1 _ (List.mem_singleton.2 rfl)
  rw [Proofs.V2Isa.field_bitsAt, bitsAt] at this
  apply BitVec.eq_of_toNat_eq
  have hw := w.isLt
  simp only [Nat.pow_zero, Nat.div_one] at this
  rw [show (0xc0001073#32).toNat = 0xc0001073 from rfl]
  omega

/-- C66: every word of the scalar listing (RV32IMF, Zicsr, Zifencei, Zbb, machine mode, `mpause`) outside `V2ScalarHole`
has a row, and every row that matches it performs the instruction. Missing: the words of `V2ScalarHole`. -/
theorem C66_scalar_partial {e : Line} (he : e ∈ Spec.V2Isa.scalar) {w : BitVec 32} (hw : e.Is w) (hh : ¬ V2ScalarHole w) :
    (∃ r ∈ V2Isa.rows, r.matches w = true) ∧ ∀ r ∈ V2Isa.rows, r.matches w = true → V2Performs e r w := by
  have h := (Proofs.V2Isa.lineOk_sound (List.all_eq_true.1 Proofs.V2Isa.scalar_ok e he) hw).2 (by simp)
  refine ⟨h.2.resolve_right fun hd => hh ((v2ScalarHole_iff w).2 hd), fun r hr hm => ?_⟩
  rcases h.1 r hr hm with hn | hp
  · refine absurd ?_ hh
    rw [unimp_hole hr hn hm]
    exact .inr (.inr (.inr (by decide)))
  · exact .of hm hp

/-- C66 fails for the words of `V2ScalarHole`: no row matches them (they raise an illegal instruction exception), except
`unimp`, the word 0xC0001073. -/
theorem C66_hole {w : BitVec 32} (h : V2ScalarHole w) (hu : w ≠ 0xc0001073#32) (r : V2Isa.Row) (hr : r ∈ V2Isa.rows) :
    r.matches w = false := by
  obtain ⟨d, hd, hm⟩ := (v2ScalarHole_iff w).1 h
  obtain ⟨rs, h1, -, h4⟩ := Proofs.V2Isa.meeting_sound (List.all_eq_true.1 Proofs.V2Isa.holes_none d hd)
  cases hc : r.matches w with
  | false => rfl
  | true =>
    have := List.all_eq_true.1 h1 r (h4 w hm r hr hc)
    simp only [Bool.and_eq_true, beq_iff_eq] at this
    exact absurd (unimp_hole hr this.1 hc) hu

/-- `add x0, x0, x2` and `fence` with a reserved `fm` are in the listing and have no row. -/
theorem C66_witness :
    ((∃ e ∈ Spec.V2Isa.scalar, e.mnem = "add" ∧ e.Is 0x00200033#32) ∧ v2Names 0x00200033#32 = []) ∧
    ((∃ e ∈ Spec.V2Isa.scalar, e.mnem = "fence" ∧ e.Is 0x1ff0000f#32) ∧ v2Names 0x1ff0000f#32 = []) := by
  refine ⟨⟨⟨Spec.V2Isa.opReg "add" 0 0 "RiscVIAdd", by simp [Spec.V2Isa.scalar, Spec.V2Isa.rv32i], rfl, ?_⟩, by decide +kernel⟩,
    ⟨⟨_, List.mem_append_left _ (List.mem_append_left _ (List.mem_append_left _ (List.mem_append_left _ (List.mem_append_left _
      (List.mem_of_getElem (i := 37) (h := by decide) rfl))))), rfl, ?_⟩, by decide +kernel⟩⟩
  · exact ⟨by decide, by decide⟩
  · exact ⟨by decide, by decide⟩

-- `xnor a0, a1, a2` and `lbu a0, 4(a1)`
example : (V2Isa.rows.filter (·.matches 0x40c5c533#32)).map (·.sems) = [["&::mpact::sim::riscv::RV32::RiscVXnor"]] ∧
    (V2Isa.rows.filter (·.matches 0x0045c503#32)).map (·.sems) =
      [["&::coralnpu::sim::CoralNPUV2Lbu", "&::mpact::sim::riscv::RV32::RiscVILbuChild"]] := by decide +kernel

/-- Vector instructions that C67 leaves out. -/
def v2VectorGaps : List String :=
  ["vlseg%nf\\\\e8ff.v", "vlseg%nf\\\\e16ff.v", "vlseg%nf\\\\e32ff.v", "vsuxseg%nf\\\\ei8.v", "vsuxseg%nf\\\\ei16.v",
   "vsuxseg%nf\\\\ei32.v", "vrsub.vi", "vsll.vi", "vsrl.vi", "vsra.vi"]

/-- C67: every word of the vector listing (Zve32x) has a row, and every row that matches it performs the instruction.
Missing: the instructions of `v2VectorGaps`. -/
theorem C67_vector_partial {e : Line} (he : e ∈ Spec.V2Isa.vector) {w : BitVec 32} (hw : e.Is w) (hn : e.mnem ∉ v2VectorGaps) :
    (∃ r ∈ V2Isa.rows, r.matches w = true) ∧ ∀ r ∈ V2Isa.rows, r.matches w = true → V2Performs e r w := by
  have h := (Proofs.V2Isa.lineOk_sound (List.all_eq_true.1 Proofs.V2Isa.vector_ok e he) hw).2 hn
  refine ⟨h.2.resolve_right (by simp), fun r hr hm => ?_⟩
  rcases h.1 r hr hm with hu | hp
  · have : w = 0xc0001073#32 := unimp_hole hr hu hm
    subst this
    have : (Spec.V2Isa.vector.all fun e => !(Proofs.V2Isa.lineCube e).matches 0xc0001073#32) = true := by decide +kernel
    have := List.all_eq_true.1 this e he
    rw [(Proofs.V2Isa.lineCube_matches e _).2 hw] at this
    exact absurd this (by decide)
  · exact .of hm hp

/-- C67 fails for the segment loads `vlseg…ff.v`: no row matches any of their words. -/
theorem C67_segment_ff {e : Line} (he : e ∈ Spec.V2Isa.vloadsFf) (hn : e.mnem ∈ v2VectorGaps) {w : BitVec 32} (hw : e.Is w)
    (r : V2Isa.Row) (hr : r ∈ V2Isa.rows) : r.matches w = false := by
  have hf : e ∈ Proofs.V2Isa.segFf := by
    have : (Spec.V2Isa.vloadsFf.all fun e => !v2VectorGaps.contains e.mnem || Proofs.V2Isa.isSegFf e) = true := by decide +kernel
    have := List.all_eq_true.1 this e he
    simp only [Bool.or_eq_true, Bool.not_eq_true', List.contains_eq_mem, hn, decide_true, Bool.true_eq_false, false_or] at this
    exact List.mem_filter.2 ⟨he, this⟩
  obtain ⟨rs, h1, -, h4⟩ := Proofs.V2Isa.meeting_sound (List.all_eq_true.1 Proofs.V2Isa.segFf_none e hf)
  cases hc : r.matches w with
  | false => rfl
  | true =>
    have := h4 w ((Proofs.V2Isa.lineCube_matches e w).2 hw) r hr hc
    rw [List.isEmpty_iff.1 h1] at this
    simp at this

/-- C67 fails for `vsuxseg2ei8.v v1, (x1), v0`: the only row is bound to the strided function, which takes the second
operand, here a vector register, as the stride. `vsoxseg2ei8.v` is bound to the indexed function. -/
theorem C67_vsuxseg :
    (V2Isa.rows.filter (·.matches 0x240080a7#32)).map (fun r => (r.sems, r.parts)) =
      [(["absl::bind_front(&::mpact::sim::riscv::VsSegmentStrided,1)"], [(["vs3", "rs1", "vs2", "vmask", "nf"], [])])] ∧
    (V2Isa.rows.filter (·.matches 0x2c0080a7#32)).map (fun r => (r.sems, r.parts)) =
      [(["absl::bind_front(&::mpact::sim::riscv::VsSegmentIndexed,1)"], [(["vs3", "rs1", "vs2", "vmask", "nf"], [])])] := by
  decide +kernel

/-- C67 fails for `vrsub.vi v1, v2, 3`: the only row has the destination register as its fourth source and no
destination. `vrsub.vx` has one. -/
theorem C67_vrsub :
    (V2Isa.rows.filter (·.matches 0x0e21b0d7#32)).map (fun r => (r.sems, r.parts)) =
      [(["&::mpact::sim::riscv::Vrsub"], [(["vs2", "simm5", "vmask", "vd"], [])])] ∧
    (V2Isa.rows.filter (·.matches 0x0e21c0d7#32)).map (fun r => (r.sems, r.parts)) =
      [(["&::mpact::sim::riscv::Vrsub"], [(["vs2", "rs1", "vmask"], ["vd"])])] := by
  decide +kernel

/-- C67: `vsll.vi`, `vsrl.vi` and `vsra.vi` have the right function, with the signed instead of the unsigned reading of
the immediate field (the two agree modulo 32: `C68_shift_imm`). -/
theorem C67_shift_imm :
    [0x9620b0d7#32, 0xa220b0d7#32, 0xa620b0d7#32].map (fun w => (V2Isa.rows.filter (·.matches w)).map fun r => (r.sems, r.parts)) =
      ["Vsll", "Vsrl", "Vsra"].map fun s => [(["&::mpact::sim::riscv::" ++ s], [(["vs2", "simm5", "vmask"], ["vd"])])] := by
  decide +kernel

-- `vadd.vv v1, v2, v3` and `vle32.v v1, (x1)`
example : (V2Isa.rows.filter (·.matches 0x022180d7#32)).map (fun r => (r.name, r.sems)) = [("vadd_vv", ["&::mpact::sim::riscv::Vadd"])] ∧
    (V2Isa.rows.filter (·.matches 0x0200e087#32)).map (·.name) = ["vle32_vm1"] := by decide +kernel

/-- Texts that the table prints for more than one instruction. -/
def v2Confused : List String :=
  ["xor", "csrwi", "fsgnjx.s", "max", "min", "vlseg%nf\\\\e.v", "vluxseg%nf\\\\ei1.v", "vluxseg%nf\\\\ei2.v",
   "vluxseg%nf\\\\ei4.v", "vsseg%nf\\\\e.v", "vsuxseg%nf\\\\ei1.v", "vsuxseg%nf\\\\ei2.v", "vsuxseg%nf\\\\ei4.v", "vmax.vv",
   "vmax.vx"]

/-- C69: the text printed for a word determines the instruction, up to the `m` of a mask operand: there is a function
from texts to names that gives the name of the line of the word. Missing: the texts of `v2Confused`. -/
theorem C69_text_partial : ∃ name : String → String, ∀ e ∈ Spec.V2Isa.listing, ∀ w, e.Is w → ∀ r ∈ V2Isa.rows,
    r.matches w = true → r.mnem ∉ v2Confused → w ≠ 0xc0001073#32 → e.mnem = name r.mnem ∨ e.mnem = name r.mnem ++ "m" := by
  refine ⟨Proofs.V2Isa.nameOf, fun e he w hw r hr hm hc hu => ?_⟩
  have h : r.name = "unimp" ∨ Proofs.V2Isa.named e r = true := by
    rcases List.mem_append.1 he with he | he
    · exact (Proofs.V2Isa.lineOk_sound (List.all_eq_true.1 Proofs.V2Isa.scalar_ok e he) hw).1 r hr hm
    · exact (Proofs.V2Isa.lineOk_sound (List.all_eq_true.1 Proofs.V2Isa.vector_ok e he) hw).1 r hr hm
  rcases h with h | h
  · exact absurd (unimp_hole hr h hm) hu
  · simp only [Proofs.V2Isa.named, Bool.or_eq_true, beq_iff_eq, List.contains_iff_mem] at h
    rcases h with (h | h) | h
    · exact .inl h.symm
    · exact .inr h.symm
    · exact absurd h hc

/-- Names of the lines of a word, and the texts of its rows. -/
def v2Lines (w : BitVec 32) : List String :=
  (Spec.V2Isa.listing.filter fun e => (Proofs.V2Isa.lineCube e).matches w).map (·.mnem)

def v2Texts (w : BitVec 32) : List (String × List String) := (V2Isa.rows.filter (·.matches w)).map fun r => (r.mnem, r.args)

theorem v2Lines_mem {n : String} {w : BitVec 32} (h : n ∈ v2Lines w) : ∃ e ∈ Spec.V2Isa.listing, e.mnem = n ∧ e.Is w := by
  obtain ⟨e, he, rfl⟩ := List.mem_map.1 h
  obtain ⟨h1, h2⟩ := List.mem_filter.1 he
  exact ⟨e, h1, rfl, (Proofs.V2Isa.lineCube_matches e w).1 h2⟩

/-- C69 fails: different instructions (unsigned and signed maximum and minimum, exclusive or and its complement, the two
sign operations, segment accesses of different element widths) are printed with the same text. -/
theorem C69_confused :
    [(0x00c5c533#32, 0x40c5c533#32), (0x20001053#32, 0x20002053#32), (0x0a006033#32, 0x0a007033#32),
     (0x0a004033#32, 0x0a005033#32), (0x20008087#32, 0x2000d087#32), (0x200080a7#32, 0x2000d0a7#32),
     (0x18000057#32, 0x1c000057#32), (0x18004057#32, 0x1c004057#32)].map
        (fun p => (v2Lines p.1, v2Lines p.2, v2Texts p.1 == v2Texts p.2 && (v2Texts p.1).length == 1)) =
      [(["xor"], ["xnor"], true), (["fsgnjn.s"], ["fsgnjx.s"], true), (["max"], ["maxu"], true), (["min"], ["minu"], true),
       (["vlseg%nf\\\\e8.v"], ["vlseg%nf\\\\e16.v"], true), (["vsseg%nf\\\\e8.v"], ["vsseg%nf\\\\e16.v"], true),
       (["vmaxu.vv"], ["vmax.vv"], true), (["vmaxu.vx"], ["vmax.vx"], true)] := by
  decide +kernel

-- `add a0, a1, a2` prints as `add`, `feq.s` as `fcmpeq`
example : v2Texts 0x00c58533#32 = [("add", ["%rd, %rs1, %rs2"])] ∧ v2Lines 0xa0c5a553#32 = ["feq.s"] ∧
    (v2Texts 0xa0c5a553#32).map (·.1) = ["fcmpeq"] := by decide +kernel

/-- C70: the scalar loads and stores, including `flw` and `fsw`, are bound to the functions of the core that check the
load/store unit ranges (C51). Missing: vector accesses (`C70_vector_unchecked`). -/
theorem C70_checked_partial {r : V2Isa.Row} (hr : r ∈ V2Isa.rows) {w : BitVec 32} (hm : r.matches w = true)
    (ha : bitsAt w 0 7 = 0x03 ∨ bitsAt w 0 7 = 0x23 ∨ ((bitsAt w 0 7 = 0x07 ∨ bitsAt w 0 7 = 0x27) ∧ bitsAt w 12 3 = 2)) :
    ∃ s ∈ ["Lb", "Lbu", "Lh", "Lhu", "Lw", "Sb", "Sh", "Sw", "Fsw"], r.sems.head? = some ("&::coralnpu::sim::CoralNPUV2" ++ s) := by
  have hc : ∃ c ∈ Proofs.V2Isa.scalarAccess, c.matches w = true := by
    simp only [Proofs.V2Isa.scalarAccess, List.mem_cons, List.not_mem_nil, or_false, exists_eq_or_imp, exists_eq_left,
      Proofs.V2Isa.cube_matches, forall_eq_or_imp, forall_eq, Proofs.V2Isa.field_bitsAt, false_imp_iff, implies_true,
      and_true]
    rcases ha with h | h | ⟨h | h, h'⟩
    · exact .inl h
    · exact .inr (.inl h)
    · exact .inr (.inr (.inl ⟨h, h'⟩))
    · exact .inr (.inr (.inr ⟨h, h'⟩))
  obtain ⟨c, hc, hcm⟩ := hc
  obtain ⟨rs, h1, -, h4⟩ := Proofs.V2Isa.meeting_sound (List.all_eq_true.1 Proofs.V2Isa.access_checked c hc)
  have h := List.all_eq_true.1 h1 r (h4 w hcm r hr hm)
  cases hs : r.sems.head? with
  | none => rw [hs] at h; exact absurd h (by decide)
  | some s =>
    rw [hs] at h
    simp only [Option.map_some, Option.getD_some, List.contains_iff_mem, Proofs.V2Isa.checkedNames, List.mem_map] at h
    obtain ⟨a, ha, rfl⟩ := h
    exact ⟨a, ha, rfl⟩

/-- C70 fails for vector accesses: `vle32.v`, `vse32.v`, `vluxei8.v` and `vl1re8.v` are bound to functions of mpact-riscv,
which do not know the ranges. -/
theorem C70_vector_unchecked :
    [0x0200e087#32, 0x0200e0a7#32, 0x06208087#32, 0x02808087#32].map
        (fun w => (V2Isa.rows.filter (·.matches w)).map (·.sems.head?)) =
      ["VlStrided,4", "VsStrided,4", "VlIndexed,1", "VlRegister,1,1"].map
        (fun s => [some ("absl::bind_front(&::mpact::sim::riscv::" ++ s ++ ")")]) := by
  decide +kernel

example : (V2Isa.rows.filter (·.matches 0x00452507#32)).map (·.sems.head?) = [some "&::coralnpu::sim::CoralNPUV2Lw"] := by
  decide +kernel

/-- Rows that accept reserved words. -/
def v2Lax : List String :=
  ["vlm", "vl1re8", "vl1re16", "vl1re32", "vl2re8", "vl2re16", "vl2re32", "vl4re8", "vl4re16", "vl4re32", "vl8re8",
   "vl8re16", "vl8re32", "vsm", "vse8ff", "vse16ff", "vse32ff", "vs1re8", "vs1re16", "vs1re32", "vs2re8", "vs2re16",
   "vs2re32", "vs4re8", "vs4re16", "vs4re32", "vs8re8", "vs8re16", "vs8re32", "vmv1r_vi", "vmv2r_vi", "vmv4r_vi",
   "vmv8r_vi", "vcompress_vv", "vmandnot_vv", "vmand_vv", "vmor_vv", "vmxor_vv", "vmornot_vv", "vmnand_vv", "vmnor_vv",
   "vmxnor_vv", "vwmaccus_vv", "vmv_x_s", "vmv_s_x", "vzext_vf8", "vsext_vf8", "vid"]

/-- C71: a word with a row is an encoding of the listing: reserved words are rejected. Missing: the rows of `v2Lax`. -/
theorem C71_reserved_partial {r : V2Isa.Row} (hr : r ∈ V2Isa.rows) (hn : r.name ∉ v2Lax) {w : BitVec 32}
    (hm : r.matches w = true) : ∃ e ∈ Spec.V2Isa.listing, e.Is w :=
  Proofs.V2Isa.listed_sound hm (List.all_eq_true.1 Proofs.V2Isa.rows_listed r hr) hn

/-- One reserved word for each row of `v2Lax`. -/
def v2Reserved : List (String × BitVec 32) :=
  [("vlm", 0xb00007), ("vl1re8", 0x12800007), ("vl1re16", 0x12805007), ("vl1re32", 0x12806007), ("vl2re8", 0x32800007),
   ("vl2re16", 0x32805007), ("vl2re32", 0x32806007), ("vl4re8", 0x72800007), ("vl4re16", 0x72805007), ("vl4re32", 0x72806007),
   ("vl8re8", 0xf2800007), ("vl8re16", 0xf2805007), ("vl8re32", 0xf2806007), ("vsm", 0xb00027), ("vse8ff", 0x1000027),
   ("vse16ff", 0x1005027), ("vse32ff", 0x1006027), ("vs1re8", 0x12800027), ("vs1re16", 0x2805027), ("vs1re32", 0x2806027),
   ("vs2re8", 0x32800027), ("vs2re16", 0x22805027), ("vs2re32", 0x22806027), ("vs4re8", 0x72800027), ("vs4re16", 0x62805027),
   ("vs4re32", 0x62806027), ("vs8re8", 0xf2800027), ("vs8re16", 0xe2805027), ("vs8re32", 0xe2806027), ("vmv1r_vi", 0x9c003057),
   ("vmv2r_vi", 0x9c00b057), ("vmv4r_vi", 0x9c01b057), ("vmv8r_vi", 0x9c03b057), ("vcompress_vv", 0x5c002057),
   ("vmandnot_vv", 0x60002057), ("vmand_vv", 0x64002057), ("vmor_vv", 0x68002057), ("vmxor_vv", 0x6c002057),
   ("vmornot_vv", 0x70002057), ("vmnand_vv", 0x74002057), ("vmnor_vv", 0x78002057), ("vmxnor_vv", 0x7c002057),
   ("vwmaccus_vv", 0xf8002057), ("vmv_x_s", 0x40002057), ("vmv_s_x", 0x40006057), ("vzext_vf8", 0x48012057),
   ("vsext_vf8", 0x4801a057), ("vid", 0x5218a057)]

/-- C71 fails: each row of `v2Lax` matches a word that is no encoding of the listing (wrong `vm`, `mew` or `vs2`, stores with
the load-only first-fault code, `vwmaccus.vv`, extensions by eight). -/
theorem C71_lax : v2Reserved.map (·.1) = v2Lax ∧
    ∀ p ∈ v2Reserved, (∃ r ∈ V2Isa.rows, r.name = p.1 ∧ r.matches p.2 = true) ∧ ∀ e ∈ Spec.V2Isa.listing, ¬ e.Is p.2 := by
  refine ⟨by decide +kernel, fun p hp => ?_⟩
  have h : v2Reserved.all (fun p => (V2Isa.rows.any fun r => r.matches p.2 && r.name == p.1) &&
    Spec.V2Isa.listing.all fun e => !(Proofs.V2Isa.lineCube e).matches p.2) = true := by decide +kernel
  have h := List.all_eq_true.1 h p hp
  simp only [Bool.and_eq_true, List.any_eq_true, beq_iff_eq, List.all_eq_true, Bool.not_eq_true'] at h
  obtain ⟨⟨r, hr, hm, hn⟩, hl⟩ := h
  refine ⟨⟨r, hr, hn, hm⟩, fun e he hw => ?_⟩
  have := hl e he
  rw [(Proofs.V2Isa.lineCube_matches e _).2 hw] at this
  exact absurd this (by decide)

-- The all-zero and all-one words, and 64-bit loads and shifts, have no row.
example : [0x00000000#32, 0xffffffff#32, 0x0045b503#32, 0x02059513#32].map v2Names = [[], [], [], []] := by decide +kernel

end Verif.Props
