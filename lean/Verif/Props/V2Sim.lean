import Verif.Model.V2Sim
import Verif.Spec.V2Sim
import Verif.Props.V2
import Verif.Proofs.V2Tables
import Verif.Proofs.V1Scalar

/-! # The simulator of the second core (C79 – C82) -/

namespace Verif.Props
open Verif Verif.Model Verif.Model.V2 Verif.Model.V2Sim
open Verif.Spec (bitsAt)
open Verif.Spec.V2 (Within Allowed)
open Verif.Spec.V2Sim (Pattern needs modes)

/-! ## C79 -/

/-- C79: the state the constructor makes has exactly the configuration of the options, whatever the base class does. -/
theorem C79_config (m0 : BitVec 64) (o : Options) :
    (configOf m0 o).itcmStart = o.itcmStart ∧ (configOf m0 o).itcmLength = o.itcmLength ∧
    (configOf m0 o).ranges = [⟨o.dtcmStart, o.dtcmLength⟩] ∧
    (configOf m0 o).misa.toNat % 2 ^ 26 = o.misa.toNat % 2 ^ 26 ∧ (configOf m0 o).misa.toNat / 2 ^ 62 = o.misa.toNat / 2 ^ 30 :=
  ⟨rfl, rfl, rfl, C53_recover o.misa⟩

/-- C79: a setting of the factory that was not made leaves the default of the state. -/
theorem C79_unset (m0 : BitVec 64) (rs : List Range) :
    Factory.create m0 (rs.foldl (fun f r => f.addRange r.start r.length) {}) = ⟨0, 0, m0, rs⟩ := by
  have h1 : ∀ (rs : List Range) (f : Factory), rs.foldl (fun f r => f.addRange r.start r.length) f =
      { f with ranges := f.ranges ++ rs } := by
    intro rs
    induction rs with
    | nil => intro f; simp
    | cons r t ih => intro f; rw [List.foldl_cons, ih]; simp [Factory.addRange]
  have h2 : ∀ (rs : List Range) (c : Config), rs.foldl (fun s r => { s with ranges := s.ranges ++ [r] }) c =
      { c with ranges := c.ranges ++ rs } := by
    intro rs
    induction rs with
    | nil => intro c; simp
    | cons r t ih => intro c; rw [List.foldl_cons, ih]; simp
  rw [h1]
  simp only [Factory.create, Bool.false_eq_true, if_false]
  rw [h2]
  simp

/-- C79: without flags, `main` makes the default options, and a flag changes its own option only. -/
theorem C79_flags : optionsOf none none none none none none = {} ∧
    (∀ a b c d e f, optionsOf (some a) (some b) (some c) (some d) (some e) (some f) = ⟨a, b, c, d, e, f⟩) ∧
    ∀ a b c d e f, optionsOf a b c d e f =
      ⟨a.getD ({} : Options).itcmStart, b.getD ({} : Options).itcmLength, c.getD ({} : Options).misa,
       d.getD ({} : Options).dtcmStart, e.getD ({} : Options).dtcmLength, f.getD ({} : Options).exitOnEbreak⟩ :=
  ⟨rfl, fun _ _ _ _ _ _ => rfl, fun _ _ _ _ _ _ => rfl⟩

/-- C79: with the default options an instruction is fetched exactly when its four bytes lie below 0x2000. -/
theorem C79_fetch (m0 : BitVec 64) (a : BitVec 64) (ha : a.toNat < 2 ^ 32) :
    decodeInstruction (configOf m0 {}).itcmStart (configOf m0 {}).itcmLength a = .fromMemory a ↔ a.toNat + 4 ≤ 0x2000 := by
  have h := C52_fetch_partial 0 0x2000 (by decide) (by decide) a ha
  have hw : Within 0 0x2000 a.toNat 4 ↔ a.toNat + 4 ≤ 0x2000 := by
    constructor
    · intro h; have := h 3 (by omega); omega
    · intro h i hi; omega
  show decodeInstruction 0 0x2000 a = .fromMemory a ↔ _
  rw [← hw]
  constructor
  · intro he
    refine Classical.byContradiction fun hn => ?_
    have := (h.2 hn).1
    rw [he] at this
    cases this
  · exact h.1

/-- C79: with the default options an access of `n` bytes that does not run over the end of the address space is allowed
exactly when it lies between 0x10000 and 0x18000. Missing: accesses that do, see `C51_wrapping_access`. -/
theorem C79_data_partial (m0 : BitVec 64) (a n : BitVec 32) (hn : 0 < n.toNat) (ha : a.toNat + n.toNat < 2 ^ 32) :
    isLsuAccessValid (configOf m0 {}).ranges a n = true ↔ 0x10000 ≤ a.toNat ∧ a.toNat + n.toNat ≤ 0x18000 := by
  rw [show (configOf m0 {}).ranges = [⟨0x10000, 0x8000⟩] from rfl]
  have hf : Fits [⟨0x10000, 0x8000⟩] := by
    intro r hr
    rw [List.mem_singleton] at hr
    subst hr
    decide
  rw [C51_check_partial _ hf a n hn ha]
  simp only [Allowed, asPairs, List.map_cons, List.map_nil, List.mem_singleton, exists_eq_left]
  show Within 0x10000 0x8000 _ _ ↔ _
  constructor
  · intro h
    have h0 := h 0 hn
    have h1 := h (n.toNat - 1) (by omega)
    omega
  · rintro ⟨h1, h2⟩ i hi
    omega

/-- C79: `mpause` always requests a halt and never traps. -/
theorem C79_mpause (pc : BitVec 64) (s : Requests) : mpause pc s = (none, s ++ [.userRequest]) := rfl

/-- C79: `ebreak` requests a halt when that was asked for, and otherwise raises the breakpoint exception at its address. -/
theorem C79_ebreak (o : Options) (pc : BitVec 64) (s : Requests) :
    (o.exitOnEbreak = true → ebreak o pc s = (none, s ++ [.userRequest])) ∧
    (o.exitOnEbreak = false → ebreak o pc s = (some ⟨false, 0, 3, pc⟩, s)) := by
  constructor <;> intro h <;> simp [ebreak, mpauseV2, onEbreak, h]

example : (configOf 0 {}).misa = 0x4000000000201120 ∧
    decodeInstruction (configOf 0 { itcmStart := 0x100 }).itcmStart (configOf 0 { itcmStart := 0x100 }).itcmLength 0xfc = .invalid 0xfc ∧
    ebreak { exitOnEbreak := true } 0x40 [] = (none, [.userRequest]) := by decide

/-! ## C80 -/

/-- The address an access is checked at is the address it is made at. -/
theorem exec_mem (rs : List Range) (op : Op) (base offset src : BitVec 32) (pc : BitVec 64) (s : St) :
    (exec rs op base offset src pc s).mem = s.mem ∨
    (isLsuAccessValid rs (base + offset) op.checked = true ∧
      (exec rs op base offset src pc s).mem = storeN s.mem (base + offset).toNat op.size src) := by
  have e : (if op = .fsw then ((base.zeroExtend 64 : BitVec 64) + offset.signExtend 64).truncate 32 else base + offset) =
      base + offset := by
    split
    · exact Proofs.V2.fsw_address base offset
    · rfl
  unfold exec
  rw [e]
  dsimp only
  split
  · rename_i h
    split
    · exact .inl rfl
    · exact .inr ⟨h, rfl⟩
  · exact .inl rfl

/-- C80 when the instruction memory lies below the data memory (missing: above it, where it is false, see
`C80_overwritten`): no sequence of scalar loads and stores, wrapping or not, changes a byte of a word that can be
fetched. -/
theorem C80_code_partial (m0 : BitVec 64) (o : Options) (h4 : 4 ≤ o.itcmLength.toNat)
    (hb : o.itcmStart.toNat + o.itcmLength.toNat ≤ o.dtcmStart.toNat) (l : List Access) (s : St) (a : BitVec 64)
    (ha : a.toNat < 2 ^ 32)
    (hf : decodeInstruction (configOf m0 o).itcmStart (configOf m0 o).itcmLength a = .fromMemory a) (i : Nat) (hi : i < 4) :
    (accesses (configOf m0 o) l s).mem (a.toNat + i) = s.mem (a.toNat + i) := by
  have hd := o.dtcmStart.isLt
  have hw : Within o.itcmStart.toNat o.itcmLength.toNat a.toNat 4 := by
    refine Classical.byContradiction fun hn => ?_
    have := ((C52_fetch_partial o.itcmStart o.itcmLength h4 (by omega) a ha).2 hn).1
    rw [show decodeInstruction o.itcmStart o.itcmLength a = .fromMemory a from hf] at this
    cases this
  have hw := hw i hi
  induction l generalizing s with
  | nil => rfl
  | cons x t ih =>
    unfold accesses
    rw [List.foldl_cons]
    refine (ih _).trans ?_
    rcases exec_mem (configOf m0 o).ranges x.op x.base x.offset x.src x.pc s with e | ⟨hv, e⟩
    · rw [e]
    · rw [e]
      obtain ⟨r, hr, h1, -⟩ := (Proofs.V2.valid_iff _ _ _).1 hv
      rw [show (configOf m0 o).ranges = [⟨o.dtcmStart, o.dtcmLength⟩] from rfl, List.mem_singleton] at hr
      subst hr
      dsimp only at h1
      unfold storeN
      rw [if_neg (by omega)]

example : decodeInstruction (configOf 0 {}).itcmStart (configOf 0 {}).itcmLength 0x1ffc = .fromMemory 0x1ffc ∧
    (accesses (configOf 0 {}) [⟨.sw, 0xfffffffe, 0, 0x6f, 0x40⟩] ⟨fun _ => 0, 0, none⟩).mem 0xfffffffe = 0x6f ∧
    (accesses (configOf 0 {}) [⟨.sw, 0x1ffc, 0, 0x6f, 0x40⟩] ⟨fun _ => 0, 0, none⟩).mem 0x1ffc = 0 := by decide +kernel

/-- Instruction memory at the top of the address space, data memory as by default. -/
def highItcm : Options := { itcmStart := 0xfffff000, itcmLength := 0xfff }

/-- C80 is false for an instruction memory above the data memory: `fsw` to 0xfffffff8 is accepted, because its end wraps,
and changes a word that can be fetched. -/
theorem C80_overwritten :
    highItcm.itcmStart.toNat + highItcm.itcmLength.toNat < 2 ^ 32 ∧
    decodeInstruction (configOf 0 highItcm).itcmStart (configOf 0 highItcm).itcmLength 0xfffffff8 = .fromMemory 0xfffffff8 ∧
    Within 0xfffff000 0xfff 0xfffffff8 4 ∧
    (accesses (configOf 0 highItcm) [⟨.fsw, 0xfffffff8, 0, 0x6f, 0x40⟩] ⟨fun _ => 0, 0, none⟩).mem 0xfffffff8 = 0x6f := by
  refine ⟨by decide, by decide +kernel, fun i hi => by omega, by decide +kernel⟩

/-! ## C81 -/

/-- The scalar memory instructions of the manual, by major opcode and width field, with the access they make. `flw` loads
a word. -/
def scalarMemory : List (Nat × Nat × Op) := [
  (0x03, 0, .lb), (0x03, 1, .lh), (0x03, 2, .lw), (0x03, 4, .lbu), (0x03, 5, .lhu),
  (0x23, 0, .sb), (0x23, 1, .sh), (0x23, 2, .sw), (0x07, 2, .lw), (0x27, 2, .fsw)]

def memCube (m : Nat × Nat × Op) : Model.Row := Proofs.V2Isa.cube [⟨12, 3, m.2.1⟩, ⟨0, 7, m.1⟩] []

theorem scalar_checked : scalarMemory.all (fun m => Proofs.V2Isa.meeting (memCube m) fun rs =>
    rs.all fun r => r.sems.head? == some (handler m.2.2)) = true := by decide +kernel

/-- C81 for the scalar memory instructions (missing: the vector ones, for which it is false, see `C81_vector`): whichever
row decodes one, it is bound to the function that checks the access, `exec`. -/
theorem C81_scalar_partial {m : Nat × Nat × Op} (hm : m ∈ scalarMemory) {w : BitVec 32} (h1 : bitsAt w 0 7 = m.1)
    (h2 : bitsAt w 12 3 = m.2.1) {r : V2Isa.Row} (hr : r ∈ V2Isa.rows) (h : r.matches w = true) :
    r.sems.head? = some (handler m.2.2) := by
  obtain ⟨rs, h3, -, h4⟩ := Proofs.V2Isa.meeting_sound (List.all_eq_true.1 scalar_checked m hm)
  have := List.all_eq_true.1 h3 r (h4 w ((Proofs.V2Isa.cube_matches _ _ w).2 ⟨by
    simp only [List.forall_mem_cons, Proofs.V2Isa.field_bitsAt]
    exact ⟨h2, h1, by simp⟩, by simp⟩) r hr h)
  exact beq_iff_eq.1 this

example : (∃ r ∈ V2Isa.rows, r.matches 0x00052507#32 = true) ∧ (bitsAt 0x00052507#32 0 7, bitsAt 0x00052507#32 12 3) = (0x07, 2) := by
  decide +kernel

def vectorCubes : List Model.Row :=
  [0x07, 0x27].flatMap fun op => [0, 5, 6, 7].map fun f3 => Proofs.V2Isa.cube [⟨12, 3, f3⟩, ⟨0, 7, op⟩] []

def allOps : List Op := [.lw, .lh, .lhu, .lb, .lbu, .sw, .sh, .sb, .fsw]

theorem vector_unchecked : vectorCubes.all (fun c => Proofs.V2Isa.meeting c fun rs =>
    rs.all fun r => allOps.all fun op => r.sems.head? != some (handler op)) = true := by decide +kernel

/-- C81 is false for the vector loads and stores: no row for one is bound to a function that checks the access. -/
theorem C81_vector {w : BitVec 32} (h1 : bitsAt w 0 7 = 0x07 ∨ bitsAt w 0 7 = 0x27)
    (h2 : bitsAt w 12 3 = 0 ∨ bitsAt w 12 3 = 5 ∨ bitsAt w 12 3 = 6 ∨ bitsAt w 12 3 = 7) {r : V2Isa.Row}
    (hr : r ∈ V2Isa.rows) (h : r.matches w = true) (op : Op) : r.sems.head? ≠ some (handler op) := by
  have hc : Proofs.V2Isa.cube [⟨12, 3, bitsAt w 12 3⟩, ⟨0, 7, bitsAt w 0 7⟩] [] ∈ vectorCubes := by
    unfold vectorCubes
    refine List.mem_flatMap.2 ⟨bitsAt w 0 7, by simpa using h1, List.mem_map.2 ⟨bitsAt w 12 3, by simpa using h2, rfl⟩⟩
  obtain ⟨rs, h3, -, h4⟩ := Proofs.V2Isa.meeting_sound (List.all_eq_true.1 vector_unchecked _ hc)
  have := List.all_eq_true.1 h3 r (h4 w ((Proofs.V2Isa.cube_matches _ _ w).2 ⟨by
    simp only [List.forall_mem_cons, Proofs.V2Isa.field_bitsAt]
    exact ⟨trivial, trivial, by simp⟩, by simp⟩) r hr h)
  have := List.all_eq_true.1 this op (by cases op <;> decide)
  exact bne_iff_ne.1 this

/-- There are such words: `vse32.v v8, (a0)` is a strided store. -/
theorem C81_vector_witness : (V2Isa.rows.filter (·.matches 0x02056427#32)).map (·.sems) =
    [["absl::bind_front(&::mpact::sim::riscv::VsStrided,4)"]] := by decide +kernel

/-! ## C82 -/

def patternCube (p : Pattern) : Model.Row := Proofs.V2Isa.cube (p.map fun f => ⟨f.1, f.2.1, f.2.2⟩) []

theorem patternCube_matches {p : Pattern} {w : BitVec 32} (h : p.Is w) : (patternCube p).matches w = true := by
  refine (Proofs.V2Isa.cube_matches _ _ w).2 ⟨fun f hf => ?_, by simp⟩
  obtain ⟨g, hg, rfl⟩ := List.mem_map.1 hf
  rw [Proofs.V2Isa.field_bitsAt]
  exact h g hg

/-- Every pattern whose letter is absent has no row. -/
def absentNone (misa : BitVec 64) (meet : Model.Row → (List V2Isa.Row → Bool) → Bool) (l : List (Pattern × Nat)) : Bool :=
  l.all fun n => misa.getLsbD n.2 || meet (patternCube n.1) List.isEmpty

theorem v2_absent : absentNone (configOf 0 {}).misa Proofs.V2Isa.meeting (needs ++ modes) = true := by decide +kernel

theorem v1_absent : absentNone misaV1 Proofs.V1Scalar.meeting needs = true := by decide +kernel

/-- C82 for the second core with the default options: a word that belongs to an extension with a letter is decoded only if
misa has that letter. -/
theorem C82_v2 {n : Pattern × Nat} (hn : n ∈ needs ++ modes) {w : BitVec 32} (hw : n.1.Is w) {r : V2Isa.Row}
    (hr : r ∈ V2Isa.rows) (h : r.matches w = true) (m0 : BitVec 64) : (configOf m0 {}).misa.getLsbD n.2 = true := by
  have := List.all_eq_true.1 v2_absent n hn
  rw [Bool.or_eq_true] at this
  rcases this with e | e
  · exact e
  · obtain ⟨rs, h1, -, h4⟩ := Proofs.V2Isa.meeting_sound e
    have := h4 w (patternCube_matches hw) r hr h
    rw [List.isEmpty_iff.1 h1] at this
    simp at this

/-- C82 for the scalar table of the first core, without `sret`, `sfence.vma` and `uret` (missing: these, see `C82_modes`). -/
theorem C82_v1_partial {n : Pattern × Nat} (hn : n ∈ needs) {w : BitVec 32} (hw : n.1.Is w) {r : V2Isa.Row}
    (hr : r ∈ V1Scalar.rows) (h : r.matches w = true) : misaV1.getLsbD n.2 = true := by
  have := List.all_eq_true.1 v1_absent n hn
  rw [Bool.or_eq_true] at this
  rcases this with e | e
  · exact e
  · obtain ⟨rs, h1, -, h4⟩ := Proofs.V1Scalar.meeting_sound e
    have := h4 w (patternCube_matches hw) r hr h
    rw [List.isEmpty_iff.1 h1] at this
    simp at this

/-- C82: conversely, each letter of the default misa of the second core has instructions: one word each for F, I, M and V. The
letters are these and no others, and both cores say that they have 32-bit registers. -/
theorem C82_letters : (∀ i, i < 26 → ((configOf 0 {}).misa.getLsbD i = true ↔ i = 5 ∨ i = 8 ∨ i = 12 ∨ i = 21)) ∧
    (configOf 0 {}).misa.toNat / 2 ^ 62 = 1 ∧ (∀ i, i < 26 → (misaV1.getLsbD i = true ↔ i = 8 ∨ i = 12 ∨ i = 23)) ∧
    misaV1.toNat / 2 ^ 62 = 1 ∧
    ([0x00c5f553#32, 0x00150513#32, 0x02c58533#32, 0x022180d7#32].map fun w =>
      (V2Isa.rows.filter (·.matches w)).map (·.name)) = [["fadd_s"], ["addi"], ["mul"], ["vadd_vv"]] := by
  refine ⟨by decide +kernel, by decide +kernel, by decide +kernel, by decide +kernel, by decide +kernel⟩

/-- C82 is false for the first core: it decodes `sret`, `uret` and `sfence.vma`, and its misa has neither S nor N. -/
theorem C82_modes :
    ([0x10200073#32, 0x00200073#32, 0x12000073#32].map fun w => (V1Scalar.rows.filter (·.matches w)).map (·.name)) = 
      [["sret"], ["uret"], ["sfence_vma_zz"]] ∧
    misaV1.getLsbD (Spec.V2Sim.bit 'S') = false ∧ misaV1.getLsbD (Spec.V2Sim.bit 'N') = false := by
  refine ⟨by decide +kernel, by decide, by decide⟩

/-- C82 is false for `mpause` on the second core: it is not standard, and misa has no X. The first core has it. -/
theorem C82_custom : (V2Isa.rows.filter (·.matches 0x08000073#32)).map (·.name) = ["mpause"] ∧
    (configOf 0 {}).misa.getLsbD (Spec.V2Sim.bit 'X') = false ∧ misaV1.getLsbD (Spec.V2Sim.bit 'X') = true := by
  refine ⟨by decide +kernel, by decide, by decide⟩

end Verif.Props
