import Verif.Proofs.V2Getters

/-! # Operands of the second core (C68) -/

namespace Verif.Props
open Verif Verif.Model
open Verif.Model.V2Isa (getSource getDest)
open Verif.Spec (bitsAt)

/-- C68: each signed immediate has the value of the manual. -/
theorem C68_signed (w : BitVec 32) {p : String × (BitVec 32 → Int)} (hp : p ∈ Spec.V2Isa.signedImms) :
    ∃ v, getSource p.1 w = some (.imm v) ∧ v.toInt = p.2 w := by
  simp only [Spec.V2Isa.signedImms, List.mem_cons, List.not_mem_nil, or_false] at hp
  rcases hp with rfl | rfl | rfl | rfl | rfl | rfl
  · refine ⟨_, rfl, ?_⟩
    rw [Proofs.V2Isa.sgn_int w 20 11 (by omega)]; simp only [Spec.V2Isa.bit, Nat.reduceAdd]; omega
  · refine ⟨_, rfl, ?_⟩
    rw [Proofs.V2Isa.sgn_int w 20 11 (by omega)]; simp only [Spec.V2Isa.bit, Nat.reduceAdd]; omega
  · exact ⟨_, rfl, Proofs.V2Isa.sImm_int w⟩
  · exact ⟨_, rfl, Proofs.V2Isa.bImm_int w⟩
  · exact ⟨_, rfl, Proofs.V2Isa.jImm_int w⟩
  · refine ⟨_, rfl, ?_⟩
    rw [Proofs.V2Isa.sgn_int w 15 4 (by omega)]; simp only [Spec.V2Isa.bit, Nat.reduceAdd]; omega

-- `beq x1, x2, -4`, `jal x1, -4`, `sw x1, -4(x2)`
example : getSource "B_imm12" 0xfe208ee3#32 = some (.imm (-4)) ∧ getSource "J_imm20" 0xffdff0ef#32 = some (.imm (-4)) ∧
    getSource "S_imm12" 0xfe112e23#32 = some (.imm (-4)) := by decide +kernel

/-- C68: each unsigned immediate has the value of the manual. -/
theorem C68_unsigned (w : BitVec 32) {p : String × (BitVec 32 → Nat)} (hp : p ∈ Spec.V2Isa.unsignedImms) :
    ∃ v, getSource p.1 w = some (.imm v) ∧ v.toNat = p.2 w := by
  simp only [Spec.V2Isa.unsignedImms, List.mem_cons, List.not_mem_nil, or_false] at hp
  rcases hp with rfl | rfl | rfl | rfl | rfl | rfl | rfl | rfl | rfl | rfl | rfl | rfl | rfl
  · exact ⟨_, rfl, Proofs.V2Isa.uImm_nat w⟩
  all_goals first
    | exact ⟨_, rfl, Proofs.V2Isa.uns_nat w _ _ (by omega)⟩
    | exact ⟨_, rfl, rfl⟩

example : getSource "U_imm20" 0xfffff0b7#32 = some (.imm 0xfffff000) ∧ getSource "csr" 0x34202573#32 = some (.imm 0x342) := by
  decide +kernel

/-- C68: register operands name the register of their field. x0 reads as 0 and its writes go to a register that nobody
reads; all other registers are themselves. -/
theorem C68_registers (w : BitVec 32) :
    (∀ p ∈ [("rs1", 15), ("rs2", 20)], getSource p.1 w = some (if bitsAt w p.2 5 = 0 then .imm 0 else .xreg (bitsAt w p.2 5))) ∧
    (∀ p ∈ [("frs1", 15), ("frs2", 20), ("frs3", 27)], getSource p.1 w = some (.freg (bitsAt w p.2 5))) ∧
    (∀ p ∈ [("vs1", 15), ("vs2", 20), ("vs3", 7), ("vd", 7)], getSource p.1 w = some (.vreg (bitsAt w p.2 5))) ∧
    getDest "rd" w = some (if bitsAt w 7 5 = 0 then .x0 else .xreg (bitsAt w 7 5)) ∧
    getDest "frd" w = some (.freg (bitsAt w 7 5)) ∧ getDest "vd" w = some (.vreg (bitsAt w 7 5)) ∧
    getDest "next_pc" w = some .pc ∧ getDest "csr" w = some .csr ∧ getDest "fflags" w = some .fflags := by
  have hf : ∀ p n, field w p n = bitsAt w p n := fun p n => Proofs.V2Isa.ext_nat w p n
  refine ⟨?_, ?_, ?_, ?_, ?_, ?_, rfl, rfl, rfl⟩
  · intro p hp
    simp only [List.mem_cons, List.not_mem_nil, or_false] at hp
    rcases hp with rfl | rfl <;> rw [← hf] <;> rfl
  · intro p hp
    simp only [List.mem_cons, List.not_mem_nil, or_false] at hp
    rcases hp with rfl | rfl | rfl <;> rw [← hf] <;> rfl
  · intro p hp
    simp only [List.mem_cons, List.not_mem_nil, or_false] at hp
    rcases hp with rfl | rfl | rfl | rfl <;> rw [← hf] <;> rfl
  · rw [← hf]; rfl
  · rw [← hf]; rfl
  · rw [← hf]; rfl

example : getSource "rs1" 0x00b00533#32 = some (.imm 0) ∧ getSource "rs2" 0x00b00533#32 = some (.xreg 11) ∧
    getDest "rd" 0x00b00033#32 = some .x0 := by decide +kernel

/-- C68: an instruction with `vm` = 0 is masked by v0, one with `vm` = 1 is not masked. -/
theorem C68_mask (w : BitVec 32) :
    getSource "vmask" w = some (if bitsAt w 25 1 = 0 then .mask 0 else .allTrue) ∧
    getSource "vmask_true" w = some .allTrue := by
  have hf : ∀ p n, field w p n = bitsAt w p n := fun p n => Proofs.V2Isa.ext_nat w p n
  refine ⟨?_, rfl⟩
  rw [← hf]; rfl

example : getSource "vmask" 0x022180d7#32 = some .allTrue ∧ getSource "vmask" 0x002180d7#32 = some (.mask 0) := by
  decide +kernel

/-- C68: every operand that a row names has a getter: no instruction gets a null operand. -/
theorem C68_complete {r : V2Isa.Row} (hr : r ∈ V2Isa.rows) {p : List String × List String} (hp : p ∈ r.parts) (w : BitVec 32) :
    (∀ s ∈ p.1, (getSource s w).isSome = true) ∧ ∀ d ∈ p.2, (getDest d w).isSome = true := by
  have h := List.all_eq_true.1 (List.all_eq_true.1 Proofs.V2Isa.names_ok r hr) p hp
  simp only [Bool.and_eq_true, List.all_eq_true, List.contains_iff_mem] at h
  have hs : ∀ s ∈ Proofs.V2Isa.sourceNames, (getSource s w).isSome = true := by
    simp only [Proofs.V2Isa.sourceNames, List.forall_mem_cons]
    repeat' constructor
    simp
  have hd : ∀ d ∈ Proofs.V2Isa.destNames, (getDest d w).isSome = true := by
    simp only [Proofs.V2Isa.destNames, List.forall_mem_cons]
    repeat' constructor
    simp
  exact ⟨fun s hsm => hs s (h.1 s hsm), fun d hdm => hd d (h.2 d hdm)⟩

example : getSource "rs4" 0#32 = none ∧ getDest "rs1" 0#32 = none ∧ (getSource "frs3" 0#32).isSome = true := by decide +kernel

/-- C68: the shift amount of `vsll.vi`, `vsrl.vi` and `vsra.vi`, read with a sign, agrees modulo 32 with the unsigned
field. -/
theorem C68_shift_imm (w : BitVec 32) : ∃ v, getSource "simm5" w = some (.imm v) ∧ v.toNat % 32 = bitsAt w 15 5 := by
  refine ⟨_, rfl, ?_⟩
  have h := Proofs.V2Isa.sgn_int w 15 4 (by omega)
  have hs := Proofs.V2Isa.bits_split w 15 4 1
  have hl := Proofs.V2Isa.bits_lt w 15 4
  have hb := Proofs.V2Isa.bits_lt w 19 1
  simp only [Nat.reduceAdd] at h hs
  have hv := (V2Isa.sgn w 15 5).isLt
  rw [BitVec.toInt_eq_toNat_cond] at h
  split at h <;> omega

/-- C68, the type immediates of `vsetvli` and `vsetivli`: zero-extended when their top bit is 0. Missing: with the top bit
set (a reserved type) they are sign-extended (`C68_zimm_signed`). -/
theorem C68_zimm_partial (w : BitVec 32) :
    (bitsAt w 30 1 = 0 → ∃ v, getSource "zimm11" w = some (.imm v) ∧ v.toNat = bitsAt w 20 11) ∧
    (bitsAt w 29 1 = 0 → ∃ v, getSource "zimm10" w = some (.imm v) ∧ v.toNat = bitsAt w 20 10) := by
  constructor
  · intro hz
    refine ⟨_, rfl, ?_⟩
    have h := Proofs.V2Isa.sgn_int w 20 10 (by omega)
    have hs := Proofs.V2Isa.bits_split w 20 10 1
    have hl := Proofs.V2Isa.bits_lt w 20 10
    simp only [Nat.reduceAdd, hz] at h hs
    have hv := (V2Isa.sgn w 20 11).isLt
    rw [BitVec.toInt_eq_toNat_cond] at h
    split at h <;> omega
  · intro hz
    refine ⟨_, rfl, ?_⟩
    have h := Proofs.V2Isa.sgn_int w 20 9 (by omega)
    have hs := Proofs.V2Isa.bits_split w 20 9 1
    have hl := Proofs.V2Isa.bits_lt w 20 9
    simp only [Nat.reduceAdd, hz] at h hs
    have hv := (V2Isa.sgn w 20 10).isLt
    rw [BitVec.toInt_eq_toNat_cond] at h
    split at h <;> omega

/-- C68 fails for the type immediates: `vsetvli x1, x2, 0x400` passes 0xFFFFFC00. -/
theorem C68_zimm_signed : bitsAt 0x400170d7#32 20 11 = 0x400 ∧ getSource "zimm11" 0x400170d7#32 = some (.imm 0xfffffc00) := by
  decide +kernel

example : getSource "zimm11" 0x0d0170d7#32 = some (.imm 0xd0) := by decide +kernel

/-- C68 fails for the shifts into x0: `slli x0, x1, 5` is bound to a row whose amount operand is the number of the source
register, so it is printed as a shift by 1. -/
theorem C68_hint_amount :
    ((V2Isa.rows.filter (·.matches 0x00509013#32)).map fun r => (r.name, r.args, r.parts)) =
      [("slli", ["%rd, %rs1, 0x%(r_uimm5:x)"], [(["rs1", "r_uimm5"], ["rd"])]),
       ("slli_hint1", ["%rd, %rs1, 0x%(I_uimm5:x)"], [(["rs1", "I_uimm5"], ["rd"])]),
       ("slli_hint2", ["%rd, %rs1, 0x%(I_uimm5:x)"], [(["rs1", "I_uimm5"], ["rd"])])] ∧
    getSource "r_uimm5" 0x00509013#32 = some (.imm 5) ∧ getSource "I_uimm5" 0x00509013#32 = some (.imm 1) ∧
    ((V2Isa.rows.filter (·.matches 0x0050d013#32)).map fun r => (r.name, r.args)) =
      [("srli_hint", ["%rd  %rs1, 0x%(I_uimm5:x)"])] := by
  decide +kernel

end Verif.Props
