import Verif.Proofs.PropAux

/-!
# C10, C11, C17: bit-level instructions, and the bitwise logic instructions

`Spec.bit x i` is bit `i` of the two's complement representation of the lane value `x`.
-/

namespace Verif.Props
open Verif Verif.Model Verif.Proofs

/-- C10: `vrev` moves bit `j` to bit `j XOR (count mod width)`. -/
theorem C10_vrev (T : CTy) (hs : T.signed = false) (hb : T.bits ≤ 32) (i : VInst) (rf : VRF)
    (a1 : Spec.NoOverlap i.vd i.vs1 i.n) (a2 : i.op2.NoOverlap i.vd i.n) :
    ∃ rf', (VOp.bin .rev T).run i rf = .ok rf' ∧
      Spec.LanewiseR false T.bits false T.bits i.n i.vd i.vs1 i.op2
        (fun a b c => ∀ j < T.bits, Spec.bit c j = Spec.bit a (j ^^^ (b.toNat % T.bits))) rf rf' := by
  apply bitwise_aux .rev T hs hb rfl _ _ i rf a1 a2
  intro x y
  obtain ⟨z, h1, h2⟩ := vRev_ok T hs hb x y
  refine ⟨z, h1, fun j hj => ?_⟩
  rw [bit_natCast, bit_natCast, Int.toNat_natCast]
  exact h2 j hj

/-- C10: reversing twice with the same count restores the value, and `count = width - 1` is the
full mirror image. -/
theorem C10_vrev_laws (w : Nat) (hw : w = 8 ∨ w = 16 ∨ w = 32) (a b c d : Int)
    (h1 : ∀ j < w, Spec.bit c j = Spec.bit a (j ^^^ (b.toNat % w)))
    (h2 : ∀ j < w, Spec.bit d j = Spec.bit c (j ^^^ (b.toNat % w))) :
    (∀ j < w, Spec.bit d j = Spec.bit a j) ∧
      (b.toNat % w = w - 1 → ∀ j < w, Spec.bit c j = Spec.bit a (w - 1 - j)) := by
  have hm : b.toNat % w < w := Nat.mod_lt _ (by omega)
  generalize b.toNat % w = m at *
  have hlt : ∀ j < w, j ^^^ m < w := by
    intro j hj
    rcases hw with rfl | rfl | rfl
    · exact Nat.xor_lt_two_pow (n := 3) hj hm
    · exact Nat.xor_lt_two_pow (n := 4) hj hm
    · exact Nat.xor_lt_two_pow (n := 5) hj hm
  constructor
  · intro j hj
    rw [h2 j hj, h1 _ (hlt j hj), Nat.xor_assoc, Nat.xor_self, Nat.xor_zero]
  · intro hmw j hj
    rw [h1 j hj, hmw]
    congr 1
    rcases hw with rfl | rfl | rfl
    · revert j; decide
    · revert j; decide
    · revert j; decide

/-- C11: `vror` rotates right by `count mod width`. -/
theorem C11_vror (T : CTy) (hs : T.signed = false) (hb : T.bits ≤ 32) (i : VInst) (rf : VRF)
    (a1 : Spec.NoOverlap i.vd i.vs1 i.n) (a2 : i.op2.NoOverlap i.vd i.n) :
    ∃ rf', (VOp.bin .ror T).run i rf = .ok rf' ∧
      Spec.LanewiseR false T.bits false T.bits i.n i.vd i.vs1 i.op2
        (fun a b c => ∀ j < T.bits, Spec.bit c j = Spec.bit a ((j + b.toNat) % T.bits)) rf rf' := by
  apply bitwise_aux .ror T hs hb rfl _ _ i rf a1 a2
  intro x y
  obtain ⟨z, h1, h2⟩ := vRor_ok T hs hb x y
  refine ⟨z, h1, fun j hj => ?_⟩
  rw [bit_natCast, bit_natCast, Int.toNat_natCast]
  have := h2 j hj
  rw [Nat.add_mod_mod] at this
  exact this

/-- `vand`, bit by bit. -/
theorem C17_vand (T : CTy) (hs : T.signed = false) (hb : T.bits ≤ 32) (i : VInst) (rf : VRF)
    (a1 : Spec.NoOverlap i.vd i.vs1 i.n) (a2 : i.op2.NoOverlap i.vd i.n) :
    ∃ rf', (VOp.bin .and T).run i rf = .ok rf' ∧
      Spec.LanewiseR false T.bits false T.bits i.n i.vd i.vs1 i.op2
        (fun a b c => ∀ j < T.bits, Spec.bit c j = (Spec.bit a j && Spec.bit b j)) rf rf' := by
  apply bitwise_aux .and T hs hb rfl _ _ i rf a1 a2
  intro x y
  refine ⟨x &&& y, vAnd_ok T hs hb x y, fun j hj => ?_⟩
  rw [bit_natCast, bit_natCast, bit_natCast, BitVec.toNat_and, Nat.testBit_and]

/-- `vor`, bit by bit. -/
theorem C17_vor (T : CTy) (hs : T.signed = false) (hb : T.bits ≤ 32) (i : VInst) (rf : VRF)
    (a1 : Spec.NoOverlap i.vd i.vs1 i.n) (a2 : i.op2.NoOverlap i.vd i.n) :
    ∃ rf', (VOp.bin .or T).run i rf = .ok rf' ∧
      Spec.LanewiseR false T.bits false T.bits i.n i.vd i.vs1 i.op2
        (fun a b c => ∀ j < T.bits, Spec.bit c j = (Spec.bit a j || Spec.bit b j)) rf rf' := by
  apply bitwise_aux .or T hs hb rfl _ _ i rf a1 a2
  intro x y
  refine ⟨x ||| y, vOr_ok T hs hb x y, fun j hj => ?_⟩
  rw [bit_natCast, bit_natCast, bit_natCast, BitVec.toNat_or, Nat.testBit_or]

/-- `vxor`, bit by bit. -/
theorem C17_vxor (T : CTy) (hs : T.signed = false) (hb : T.bits ≤ 32) (i : VInst) (rf : VRF)
    (a1 : Spec.NoOverlap i.vd i.vs1 i.n) (a2 : i.op2.NoOverlap i.vd i.n) :
    ∃ rf', (VOp.bin .xor T).run i rf = .ok rf' ∧
      Spec.LanewiseR false T.bits false T.bits i.n i.vd i.vs1 i.op2
        (fun a b c => ∀ j < T.bits, Spec.bit c j = (Spec.bit a j ^^ Spec.bit b j)) rf rf' := by
  apply bitwise_aux .xor T hs hb rfl _ _ i rf a1 a2
  intro x y
  refine ⟨x ^^^ y, vXor_ok T hs hb x y, fun j hj => ?_⟩
  rw [bit_natCast, bit_natCast, bit_natCast, BitVec.toNat_xor, Nat.testBit_xor]

/-- C17: `vnot` flips every bit. -/
theorem C17_vnot (i : VInst) (rf : VRF) (a1 : Spec.NoOverlap i.vd i.vs1 i.n) :
    ∃ rf', (VOp.un .not .i32).run i rf = .ok rf' ∧
      Spec.Lanewise1 true 32 i.n i.vd i.vs1 (fun a c => ∀ j < 32, Spec.bit c j = !Spec.bit a j) rf rf' := by
  apply un_run .not .i32 i rf (fun a c => ∀ j < 32, Spec.bit c j = !Spec.bit a j) _ a1
  intro a ha
  obtain ⟨x, rfl⟩ : ∃ x : BitVec 32, a = x.toInt := ⟨BitVec.ofInt 32 a, by
    rw [BitVec.toInt_ofInt, Int.bmod_eq_of_le_mul_two] <;> (simp only [inRange_i32] at ha; omega)⟩
  refine ⟨_, vNot_ok x, ?_, fun j _ => ?_⟩
  · have := (~~~x).toInt_lt; have := (~~~x).le_toInt
    rw [inRange_i32]; omega
  · rw [← bit_compl]
    congr 1
    rw [BitVec.toInt_eq_toNat_cond, BitVec.toInt_eq_toNat_cond, BitVec.toNat_not]
    have := x.isLt
    split <;> split <;> omega

/-- C17: `vclz` counts the leading zeros (`width` for 0). -/
theorem C17_vclz (T : CTy) (hs : T.signed = false) (hb : T.bits ≤ 32) (i : VInst) (rf : VRF)
    (a1 : Spec.NoOverlap i.vd i.vs1 i.n) :
    ∃ rf', (VOp.un .clz T).run i rf = .ok rf' ∧
      Spec.Lanewise1 false T.bits i.n i.vd i.vs1 (fun a c => Spec.LeadingRun false T.bits a.toNat c.toNat) rf rf' := by
  have := un_run .clz T i rf (fun a c => Spec.LeadingRun false T.bits a.toNat c.toNat) (by
    intro a ha
    obtain ⟨x, rfl⟩ := exists_bits T hs a ha
    obtain ⟨n, h1, h2⟩ := vClz_ok T hb x.toNat
    refine ⟨n, h1, ?_, by simpa using h2⟩
    have := h2.1
    cty_cases T <;> simp only [CTy.bits, CTy.size, inRange_u8, inRange_u16, inRange_u32] at * <;> omega) a1
  rwa [hs] at this

/-- C17: `vclb` counts the leading bits equal to the sign bit. -/
theorem C17_vclb (T : CTy) (hs : T.signed = false) (hb : T.bits ≤ 32) (i : VInst) (rf : VRF)
    (a1 : Spec.NoOverlap i.vd i.vs1 i.n) :
    ∃ rf', (VOp.un .clb T).run i rf = .ok rf' ∧
      Spec.Lanewise1 false T.bits i.n i.vd i.vs1
        (fun a c => Spec.LeadingRun (Spec.bit a (T.bits - 1)) T.bits a.toNat c.toNat) rf rf' := by
  have := un_run .clb T i rf (fun a c => Spec.LeadingRun (Spec.bit a (T.bits - 1)) T.bits a.toNat c.toNat) (by
    intro a ha
    obtain ⟨x, rfl⟩ := exists_bits T hs a ha
    obtain ⟨n, h1, h2⟩ := vClb_ok T hs hb x.toNat x.isLt
    refine ⟨n, h1, ?_, by rw [bit_natCast]; simpa using h2⟩
    have := h2.1
    cty_cases T <;> simp only [CTy.bits, CTy.size, inRange_u8, inRange_u16, inRange_u32] at * <;> omega) a1
  rwa [hs] at this

/-- C17: `vcpop` counts the ones. -/
theorem C17_vcpop (T : CTy) (hs : T.signed = false) (hb : T.bits ≤ 32) (i : VInst) (rf : VRF)
    (a1 : Spec.NoOverlap i.vd i.vs1 i.n) :
    ∃ rf', (VOp.un .cpop T).run i rf = .ok rf' ∧
      Spec.Lanewise1 false T.bits i.n i.vd i.vs1 (fun a c => c = Spec.ones T.bits a.toNat) rf rf' := by
  have := un_run .cpop T i rf (fun a c => c = Spec.ones T.bits a.toNat) (by
    intro a ha
    obtain ⟨x, rfl⟩ := exists_bits T hs a ha
    have h1 := vCpop_ok T hb x.toNat
    refine ⟨_, h1, ?_, by simp⟩
    have : Spec.ones T.bits x.toNat ≤ T.bits := by
      unfold Spec.ones
      exact le_trans (List.length_filter_le _ _) (by simp)
    generalize Spec.ones T.bits x.toNat = n at *
    cty_cases T <;> simp only [CTy.bits, CTy.size, inRange_u8, inRange_u16, inRange_u32] at * <;> omega) a1
  rwa [hs] at this

/-! ## Concrete instances -/

def rf1 : VRF := fun q => BitVec.ofNat 256 (q * 0x0123456789abcdef0123456789abcdef0123456789abcdef0123456789abcdef + 0x1200)

/-- `vrev.h` by 15 mirrors a half-word; strip-mined in place. -/
example : ∃ rf', (VOp.bin .rev .u16).run ⟨4, 4, .scalar 15, true⟩ rf1 = .ok rf' ∧
    (∀ j < 16, Spec.bit (Spec.lane false 16 (rf' 5) 3) j = Spec.bit (Spec.lane false 16 (rf1 5) 3) (15 - j)) ∧
    Spec.lane false 16 (rf1 5) 3 ≠ 0 := by
  obtain ⟨rf', h1, h2, h3⟩ := C10_vrev .u16 rfl (by decide) ⟨4, 4, .scalar 15, true⟩ rf1 (by decide) trivial
  refine ⟨rf', h1, fun j hj => ?_, by decide⟩
  refine (h2 1 (by decide) 3 (by decide) j hj).trans ?_
  congr 1
  revert j; decide

end Verif.Props
