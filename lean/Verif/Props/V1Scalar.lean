import Verif.Proofs.V1Scalar
import Verif.Proofs.V2Getters
import Verif.Spec.Rv32
import Verif.Model.V1Getters

/-! # Scalar instructions of the first core (C72 – C75) -/

namespace Verif.Props
open Verif Verif.Model
open Verif.Spec (bitsAt)
open Verif.Spec.V2Isa (Line)

/-- The row performs the instruction of the line on the word: it is bound to the functions of the line with its operands, or
it does nothing and neither does the instruction. -/
def V1Performs (e : Line) (r : V2Isa.Row) (w : BitVec 32) : Prop :=
  (r.parts = e.parts ∧ r.sems = e.sems) ∨
  (r.sems = ["&mpact::sim::riscv::RiscVINop"] ∧ ∃ b ∈ e.nopIf, bitsAt w b.1 b.2.1 = b.2.2)

theorem V1Performs.of {e : Line} {r : V2Isa.Row} {w : BitVec 32} (hm : r.matches w = true)
    (h : Proofs.V1Scalar.performs e r = true) : V1Performs e r w := by
  simp only [Proofs.V1Scalar.performs, Bool.or_eq_true, Bool.and_eq_true, beq_iff_eq, List.any_eq_true] at h
  rcases h with h | ⟨h1, b, hb, h2⟩
  · exact .inl h
  · refine .inr ⟨h1, b, hb, ?_⟩
    rw [← Proofs.V2Isa.field_bitsAt]
    exact Proofs.forces_field ((Proofs.V2Isa.toCube_matches r w).2 hm) h2

/-- Words of the listing without a row: `jalr x0, imm(x1)` and `addi x0, x0, imm` with a non-zero `imm`. -/
def V1ScalarHole (w : BitVec 32) : Prop := Spec.JalrHole w ∨ Spec.AddiHole w

theorem v1ScalarHole_iff (w : BitVec 32) : V1ScalarHole w ↔ ∃ d ∈ Proofs.V1Scalar.holes, d.matches w = true := by
  simp only [Proofs.V1Scalar.holes, List.mem_cons, List.not_mem_nil, or_false, exists_eq_or_imp, exists_eq_left,
    Proofs.V2Isa.cube_matches, forall_eq_or_imp, forall_eq, Proofs.V2Isa.field_bitsAt,
    V1ScalarHole, Spec.JalrHole, Spec.AddiHole, ne_eq, and_assoc]

/-- C72: every word of the scalar listing (RV32IM, Zicsr, Zifencei, privileged and own instructions) outside `V1ScalarHole`
has a row of the scalar group, and every such row performs the instruction. Missing: the words of `V1ScalarHole`. -/
theorem C72_scalar_partial {e : Line} (he : e ∈ Spec.V1Scalar.listing) {w : BitVec 32} (hw : e.Is w) (hh : ¬ V1ScalarHole w) :
    (∃ r ∈ V1Scalar.rows, r.matches w = true) ∧ ∀ r ∈ V1Scalar.rows, r.matches w = true → V1Performs e r w := by
  have h := Proofs.V1Scalar.lineOk_sound (List.all_eq_true.1 Proofs.V1Scalar.listing_ok e he) hw
  exact ⟨h.2.resolve_right fun hd => hh ((v1ScalarHole_iff w).2 hd), fun r hr hm => .of hm (h.1 r hr hm).1⟩

set_option maxRecDepth 100000 in
theorem v1_group0 : Gen.group0.map (fun r => (r.eq, r.ne)) = V1Scalar.rows.map (fun r => (r.eq, r.ne)) ∧
    (V1Scalar.rows.all fun r => r.gt.isEmpty && r.lt.isEmpty) = true ∧ (Gen.group0.all (·.group == 0)) = true ∧
    (allRows.all fun r => r.group != 0 || Gen.group0.contains r) = true := by decide +kernel

/-- C72: so the decoder, which tries this group first, selects a row that performs the instruction. -/
theorem C72_decodes_partial {e : Line} (he : e ∈ Spec.V1Scalar.listing) {w : BitVec 32} (hw : e.Is w) (hh : ¬ V1ScalarHole w)
    {r : Model.Row} (hd : Decodes w r) :
    r.group = 0 ∧ ∃ r' ∈ V1Scalar.rows, r'.eq = r.eq ∧ r'.ne = r.ne ∧ V1Performs e r' w := by
  obtain ⟨h1, h2, h3, h4⟩ := v1_group0
  have hmatch : ∀ (a : Model.Row) (b : V2Isa.Row), b ∈ V1Scalar.rows → (a.eq, a.ne) = (b.eq, b.ne) →
      (a.matches w = true ↔ b.matches w = true) := by
    intro a b hb hab
    have hg := List.all_eq_true.1 h2 b hb
    simp only [Bool.and_eq_true, List.isEmpty_iff] at hg
    simp only [Prod.mk.injEq] at hab
    simp [Model.Row.matches, V2Isa.Row.matches, hg.1, hg.2, hab.1, hab.2, Fld.holds, bne]
  obtain ⟨⟨r0, hr0, hm0⟩, hall⟩ := C72_scalar_partial he hw hh
  have hg0 : r.group = 0 := by
    refine Classical.byContradiction fun hne => ?_
    have : (r0.eq, r0.ne) ∈ V1Scalar.rows.map fun r => (r.eq, r.ne) := List.mem_map.2 ⟨r0, hr0, rfl⟩
    rw [← h1] at this
    obtain ⟨a, ha, hab⟩ := List.mem_map.1 this
    have hga := List.all_eq_true.1 h3 a ha
    simp only [beq_iff_eq] at hga
    have hin : a ∈ allRows := by simp [allRows, ha]
    have := hd.2.2 a hin (by omega)
    rw [(hmatch a r0 hr0 hab).2 hm0] at this
    exact absurd this (by decide)
  refine ⟨hg0, ?_⟩
  have hr := List.all_eq_true.1 h4 r hd.1
  simp only [hg0, bne_self_eq_false, Bool.false_or, List.contains_iff_mem] at hr
  have : (r.eq, r.ne) ∈ Gen.group0.map fun r => (r.eq, r.ne) := List.mem_map.2 ⟨r, hr, rfl⟩
  rw [h1] at this
  obtain ⟨b, hb, hab⟩ := List.mem_map.1 this
  have hb' := hall b hb ((hmatch r b hb hab.symm).1 hd.2.1)
  simp only [Prod.mk.injEq] at hab
  exact ⟨b, hb, hab.1, hab.2, hb'⟩

/-- C72: a word that a row of the scalar group accepts is a word of the listing. -/
theorem C72_only {r : V2Isa.Row} (hr : r ∈ V1Scalar.rows) {w : BitVec 32} (hm : r.matches w = true) :
    ∃ e ∈ Spec.V1Scalar.listing, e.Is w ∧ V1Performs e r w := by
  have h := List.all_eq_true.1 Proofs.V1Scalar.rows_listed r hr
  simp only [Proofs.V1Scalar.listed, List.any_eq_true] at h
  obtain ⟨e, he, hi⟩ := h
  have hw := (Proofs.V2Isa.lineCube_matches e w).1 (Proofs.V2Isa.inside_sound hi ((Proofs.V2Isa.toCube_matches r w).2 hm))
  exact ⟨e, he, hw, .of hm (((Proofs.V1Scalar.lineOk_sound (List.all_eq_true.1 Proofs.V1Scalar.listing_ok e he) hw).1 r hr hm).1)⟩

/-- C72 fails for the words of `V1ScalarHole`: no row of the scalar group matches them. -/
theorem C72_hole {w : BitVec 32} (h : V1ScalarHole w) (r : V2Isa.Row) (hr : r ∈ V1Scalar.rows) : r.matches w = false := by
  obtain ⟨d, hd, hm⟩ := (v1ScalarHole_iff w).1 h
  obtain ⟨rs, h1, -, h4⟩ := Proofs.V1Scalar.meeting_sound (List.all_eq_true.1 Proofs.V1Scalar.holes_none d hd)
  rw [List.isEmpty_iff] at h1
  cases hc : r.matches w with
  | false => rfl
  | true => exact absurd (h4 w hm r hr hc) (by simp [h1])

/-- The rows of the scalar group that match a word. -/
def v1Rows (w : BitVec 32) : List V2Isa.Row := V1Scalar.rows.filter (·.matches w)

-- `lbu a0, 4(a1)`, `sh a2, 8(a1)`, `csrrs a0, mstatus, x0`, `jalr x0, 4(x1)`
example : (v1Rows 0x0045c503#32).map (·.sems) = [["&mpact::sim::riscv::RV32::RiscVILbu", "&mpact::sim::riscv::RV32::RiscVILbuChild"]] ∧
    (v1Rows 0x00c59423#32).map (fun r => (r.parts, r.sems)) =
      [([(["rs1", "S_imm12", "rs2"], [])], ["&coralnpu::sim::CoralNPUIStore<uint16_t>"])] ∧
    (v1Rows 0x30002573#32).map (·.sems) = [["&mpact::sim::riscv::RV32::RiscVZiCsrrNw"]] ∧ v1Rows 0x00408067#32 = [] := by
  decide +kernel

/-! ### Operand values -/

/-- C74: each signed immediate has the value of the manual. -/
theorem C74_signed (w : BitVec 32) {p : String × (BitVec 32 → Int)} (hp : p ∈ Spec.V1Scalar.signedImms) :
    ∃ v, V1Scalar.getSource p.1 w = some (.imm v) ∧ v.toInt = p.2 w := by
  simp only [Spec.V1Scalar.signedImms, List.mem_cons, List.not_mem_nil, or_false] at hp
  rcases hp with rfl | rfl | rfl | rfl | rfl
  · refine ⟨_, rfl, ?_⟩
    rw [Proofs.V2Isa.sgn_int w 20 11 (by omega)]; simp only [Spec.V2Isa.bit, Nat.reduceAdd]; omega
  · refine ⟨_, rfl, ?_⟩
    rw [Proofs.V2Isa.sgn_int w 20 11 (by omega)]; simp only [Spec.V2Isa.bit, Nat.reduceAdd]; omega
  · exact ⟨_, rfl, Proofs.V2Isa.sImm_int w⟩
  · exact ⟨_, rfl, Proofs.V2Isa.bImm_int w⟩
  · exact ⟨_, rfl, Proofs.V2Isa.jImm_int w⟩

-- `beq x1, x2, -4`, `jal x1, -4`, `sw x1, -4(x2)`
example : V1Scalar.getSource "B_imm12" 0xfe208ee3#32 = some (.imm (-4)) ∧
    V1Scalar.getSource "J_imm20" 0xffdff0ef#32 = some (.imm (-4)) ∧
    V1Scalar.getSource "S_imm12" 0xfe112e23#32 = some (.imm (-4)) := by decide +kernel

/-- C74: each unsigned immediate has the value of the manual. -/
theorem C74_unsigned (w : BitVec 32) {p : String × (BitVec 32 → Nat)} (hp : p ∈ Spec.V1Scalar.unsignedImms) :
    ∃ v, V1Scalar.getSource p.1 w = some (.imm v) ∧ v.toNat = p.2 w := by
  simp only [Spec.V1Scalar.unsignedImms, List.mem_cons, List.not_mem_nil, or_false] at hp
  rcases hp with rfl | rfl | rfl | rfl | rfl
  · exact ⟨_, rfl, Proofs.V2Isa.uImm_nat w⟩
  all_goals exact ⟨_, rfl, Proofs.V2Isa.uns_nat w _ _ (by omega)⟩

-- `srai x1, x2, 31`, `csrrwi x10, mcause, 5`
example : V1Scalar.getSource "I_uimm5" 0x41f15093#32 = some (.imm 31) ∧ V1Scalar.getSource "csr" 0x3422d573#32 = some (.imm 0x342) ∧
    V1Scalar.getSource "CSR_uimm5" 0x3422d573#32 = some (.imm 5) := by decide +kernel

/-- C74: register operands name the register of their field. x0 reads as 0 and its writes go to a register that nobody
reads. -/
theorem C74_registers (w : BitVec 32) :
    (∀ p ∈ [("rs1", 15), ("rs2", 20)],
      V1Scalar.getSource p.1 w = some (if bitsAt w p.2 5 = 0 then .imm 0 else .xreg (bitsAt w p.2 5))) ∧
    V1Scalar.getDest "rd" w = some (if bitsAt w 7 5 = 0 then .x0 else .xreg (bitsAt w 7 5)) ∧
    V1Scalar.getDest "next_pc" w = some .pc ∧ V1Scalar.getDest "csr" w = some .csr := by
  have hf : ∀ p n, field w p n = bitsAt w p n := fun p n => Proofs.V2Isa.ext_nat w p n
  refine ⟨?_, ?_, rfl, rfl⟩
  · intro p hp
    simp only [List.mem_cons, List.not_mem_nil, or_false] at hp
    rcases hp with rfl | rfl <;> rw [← hf] <;> rfl
  · rw [← hf]; rfl

example : V1Scalar.getSource "rs1" 0x00b00533#32 = some (.imm 0) ∧ V1Scalar.getSource "rs2" 0x00b00533#32 = some (.xreg 11) ∧
    V1Scalar.getDest "rd" 0x00b00033#32 = some .x0 := by decide +kernel

def v1Sources : List String :=
  ["B_imm12", "CSR_uimm5", "csr", "I_imm12", "I_uimm5", "J_imm12", "J_imm20", "rs1", "rs2", "S_imm12", "U_imm20"]

def v1Dests : List String := ["csr", "next_pc", "rd"]

set_option maxRecDepth 100000 in
theorem v1_names_ok : V1Scalar.rows.all (fun r => r.parts.all fun p => p.1.all (v1Sources.contains ·) && p.2.all (v1Dests.contains ·)) =
    true := by decide +kernel

/-- C74: every operand that a scalar row names has a getter: no scalar instruction gets a null operand. -/
theorem C74_complete {r : V2Isa.Row} (hr : r ∈ V1Scalar.rows) {p : List String × List String} (hp : p ∈ r.parts) (w : BitVec 32) :
    (∀ s ∈ p.1, (V1Scalar.getSource s w).isSome = true) ∧ ∀ d ∈ p.2, (V1Scalar.getDest d w).isSome = true := by
  have h := List.all_eq_true.1 (List.all_eq_true.1 v1_names_ok r hr) p hp
  simp only [Bool.and_eq_true, List.all_eq_true, List.contains_iff_mem] at h
  have hs : ∀ s ∈ v1Sources, (V1Scalar.getSource s w).isSome = true := by
    simp only [v1Sources, List.forall_mem_cons]
    repeat' constructor
    simp
  have hd : ∀ d ∈ v1Dests, (V1Scalar.getDest d w).isSome = true := by
    simp only [v1Dests, List.forall_mem_cons]
    repeat' constructor
    simp
  exact ⟨fun s hsm => hs s (h.1 s hsm), fun d hdm => hd d (h.2 d hdm)⟩

example : V1Scalar.getSource "pred" 0#32 = none ∧ (V1Scalar.getSource "I_uimm5" 0#32).isSome = true := by decide +kernel

/-! ### Text -/

/-- C75: the name in the text of a row is a name of the instruction that the word encodes. Missing: the name `csrwi`
(`C75_confused`). -/
theorem C75_name_partial {e : Line} (he : e ∈ Spec.V1Scalar.listing) {w : BitVec 32} (hw : e.Is w) {r : V2Isa.Row}
    (hr : r ∈ V1Scalar.rows) (hm : r.matches w = true) (hc : r.mnem ≠ "csrwi") : Spec.V1Scalar.nameOf r.mnem = e.mnem := by
  have h := ((Proofs.V1Scalar.lineOk_sound (List.all_eq_true.1 Proofs.V1Scalar.listing_ok e he) hw).1 r hr hm).2
  simp only [Proofs.V1Scalar.named, Bool.or_eq_true, beq_iff_eq, hc, or_false] at h
  exact h

/-- C75 fails for `csrwi`: `csrrwi a0, mstatus, 0` clears the register and `csrrci a0, mstatus, 0` does not write it, and both
are printed as `csrwi a0, mstatus, 0`. -/
theorem C75_confused :
    (v1Rows 0x30005573#32).map (fun r => (r.mnem, r.args, r.sems)) =
      [("csrwi", ["%rd, %csr, %CSR_uimm5"], ["&mpact::sim::riscv::RV32::RiscVZiCsrrw"])] ∧
    V1Scalar.getSource "CSR_uimm5" 0x30005573#32 = some (.imm 0) ∧
    (v1Rows 0x30007573#32).map (fun r => (r.mnem, r.args, r.sems)) =
      [("csrwi", ["%rd, %csr, 0"], ["&mpact::sim::riscv::RV32::RiscVZiCsrrNw"])] := by decide +kernel

/-- C75 fails for the fences: `fence rw, rw` and `fence w, w` are both printed as `fence`. -/
theorem C75_fence : (v1Rows 0x0330000f#32).map (fun r => (r.mnem, r.args)) = [("fence", [])] ∧
    (v1Rows 0x0110000f#32).map (fun r => (r.mnem, r.args)) = [("fence", [])] ∧
    V1Scalar.getSource "I_imm12" 0x0330000f#32 ≠ V1Scalar.getSource "I_imm12" 0x0110000f#32 := by decide +kernel

example : (v1Rows 0x00b50533#32).map (fun r => (r.mnem, r.args)) = [("add", ["%rd, %rs1, %rs2"])] ∧
    (v1Rows 0xff010113#32).map (·.mnem) = ["addi"] ∧ (v1Rows 0x00008067#32).map (·.mnem) = ["ret"] := by decide +kernel

/-! ### Words that both cores accept -/

/-- Values of the operands of the parts of a row. -/
def v1Values (r : V2Isa.Row) (w : BitVec 32) : List (List (Option V2Isa.Src) × List (Option V2Isa.Dst)) :=
  r.parts.map fun p => (p.1.map (V1Scalar.getSource · w), p.2.map (V1Scalar.getDest · w))

def v2Values (r : V2Isa.Row) (w : BitVec 32) : List (List (Option V2Isa.Src) × List (Option V2Isa.Dst)) :=
  r.operands.map fun p => (p.1.map (V2Isa.getSource · w), p.2.map (V2Isa.getDest · w))

theorem v2Name_source {o : String} (ho : o ∈ v1Sources) (w : BitVec 32) :
    V1Scalar.getSource o w = V2Isa.getSource (Proofs.V1Scalar.v2Name o) w := by
  simp only [v1Sources, List.mem_cons, List.not_mem_nil, or_false] at ho
  rcases ho with rfl | rfl | rfl | rfl | rfl | rfl | rfl | rfl | rfl | rfl | rfl <;> rfl

theorem v1_dest {o : String} (ho : o ∈ v1Dests) (w : BitVec 32) : V1Scalar.getDest o w = V2Isa.getDest o w := by
  simp only [v1Dests, List.mem_cons, List.not_mem_nil, or_false] at ho
  rcases ho with rfl | rfl | rfl <;> rfl

/-- C73: a word that a scalar row of the first core and a row of the second core both accept is given the same operands,
with the same values, by both. Missing: fences (`C73_fence`), hints, which the second core binds to the function without
effect, and its `unimp`. -/
theorem C73_operands_partial {r r' : V2Isa.Row} (hr : r ∈ V1Scalar.rows) (hr' : r' ∈ V2Isa.rows) {w : BitVec 32}
    (hm : r.matches w = true) (hm' : r'.matches w = true) (hf : r.mnem ≠ "fence")
    (hn : r'.sems ≠ ["&::mpact::sim::riscv::RiscVINop"]) (hu : r'.name ≠ "unimp") : v1Values r w = v2Values r' w := by
  obtain ⟨rs, h1, -, h4⟩ := Proofs.V2Isa.meeting_sound (List.all_eq_true.1 Proofs.V1Scalar.cores_alike r hr)
  have h := List.all_eq_true.1 h1 r' (h4 w ((Proofs.V2Isa.toCube_matches r w).2 hm) r' hr' hm')
  simp only [Proofs.V1Scalar.alike, Proofs.V1Scalar.sameOperands, Bool.or_eq_true, beq_iff_eq, hf, hn, hu, or_false] at h
  rw [v1Values, v2Values, ← h, List.map_map]
  apply List.map_congr_left
  intro p hp
  have hnm := List.all_eq_true.1 (List.all_eq_true.1 v1_names_ok r hr) p hp
  simp only [Bool.and_eq_true, List.all_eq_true, List.contains_iff_mem] at hnm
  simp only [Function.comp, List.map_map, Prod.mk.injEq]
  exact ⟨List.map_congr_left fun o ho => v2Name_source (hnm.1 o ho) w, List.map_congr_left fun o ho => v1_dest (hnm.2 o ho) w⟩

/-- The rows of the second core that match a word. -/
def v2Rows (w : BitVec 32) : List V2Isa.Row := V2Isa.rows.filter (·.matches w)

/-- C73 fails for fences: `fence rw, rw` calls `RiscVIFence` with one source operand in the first core and with two in the
second. Both are linked with the same mpact-riscv (WORKSPACE lines 7-12), so one of them calls it with the wrong operands. -/
theorem C73_fence : (v1Rows 0x0330000f#32).map (fun r => (r.parts, r.sems)) =
      [([(["I_imm12"], [])], ["&mpact::sim::riscv::RiscVIFence"])] ∧
    (v2Rows 0x0330000f#32).map (fun r => (r.parts, r.sems)) =
      [([(["pred", "succ"], [])], ["&::mpact::sim::riscv::RiscVIFence"])] := by decide +kernel

-- `srai x1, x2, 31`
example : (v1Rows 0x41f15093#32).map (v1Values · 0x41f15093#32) = [[([some (.xreg 2), some (.imm 31)], [some (.xreg 1)])]] ∧
    (v2Rows 0x41f15093#32).map (v2Values · 0x41f15093#32) = [[([some (.xreg 2), some (.imm 31)], [some (.xreg 1)])]] := by
  decide +kernel

end Verif.Props
