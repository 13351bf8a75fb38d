import Verif.Proofs.FrameAll

/-! # Auxiliary lemmas of the property theorems on vector instructions -/

namespace Verif.Proofs
open Verif Verif.Model CVal

theorem bit_natCast (x i : Nat) : Spec.bit (x : Int) i = x.testBit i := by
  have e : ((x : Int) / 2 ^ i) % 2 = ((x / 2 ^ i % 2 : Nat) : Int) := by push_cast; rfl
  unfold Spec.bit
  rw [e, Nat.testBit_eq_decide_div_mod_eq]
  congr 1
  simp only [eq_iff_iff]; omega

theorem exists_bits (T : CTy) (hs : T.signed = false) (a : Int) (ha : T.InRange a) :
    ∃ x : BitVec T.bits, a = x.toNat := by
  have h1 : 0 ≤ a := by have := ha.1; simp only [CTy.lo, hs] at this; simpa using this
  have h2 : a < 2 ^ T.bits := by
    have := ha.2; simp only [CTy.hi, hs, Bool.false_eq_true, if_false] at this; omega
  refine ⟨BitVec.ofNat _ a.toNat, ?_⟩
  rw [BitVec.toNat_ofNat, Nat.mod_eq_of_lt]
  · omega
  · zify; rw [Int.toNat_of_nonneg h1]; exact h2

theorem bits_inRange (T : CTy) (hs : T.signed = false) (x : BitVec T.bits) : T.InRange x.toNat := by
  have := x.isLt
  constructor
  · simp [CTy.lo, hs]
  · simp only [CTy.hi, hs, Bool.false_eq_true, if_false]
    have : (x.toNat : Int) < 2 ^ T.bits := by exact_mod_cast this
    omega

theorem bitwise_aux (k : BinK) (T : CTy) (hs : T.signed = false) (hb : T.bits ≤ 32) (hk : k.dstTy T = T)
    (R : Int → Int → Int → Prop)
    (h : ∀ x y : BitVec T.bits, ∃ z : BitVec T.bits, k.fn T ⟨T, x.toNat⟩ ⟨T, y.toNat⟩ = .ok ⟨T, z.toNat⟩ ∧
      R x.toNat y.toNat z.toNat) (i : VInst) (rf : VRF)
    (a1 : Spec.NoOverlap i.vd i.vs1 i.n) (a2 : i.op2.NoOverlap i.vd i.n) :
    ∃ rf', (VOp.bin k T).run i rf = .ok rf' ∧
      Spec.LanewiseR false T.bits false T.bits i.n i.vd i.vs1 i.op2 R rf rf' := by
  have := bin_run k T hb i rf R (by
    intro a b ha hb'
    obtain ⟨x, rfl⟩ := exists_bits T hs a ha
    obtain ⟨y, rfl⟩ := exists_bits T hs b hb'
    obtain ⟨z, hz, hR⟩ := h x y
    exact ⟨z.toNat, by rw [hk]; exact hz, by rw [hk]; exact bits_inRange T hs z, hR⟩) a1 a2
  rwa [hk, hs] at this

theorem bit_compl (a : Int) (j : Nat) : Spec.bit (-a - 1) j = !Spec.bit a j := by
  have hp : (0 : Int) < 2 ^ j := by positivity
  have h : (-a - 1) / 2 ^ j = -(a / 2 ^ j) - 1 := by
    have h1 := Int.emod_nonneg a hp.ne'
    have h2 := Int.emod_lt_of_pos a hp
    have h3 := Int.mul_ediv_add_emod a (2 ^ j)
    rw [Int.ediv_eq_iff_of_pos hp]
    constructor <;> nlinarith
  unfold Spec.bit
  rw [h]
  have : a / 2 ^ j % 2 = 0 ∨ a / 2 ^ j % 2 = 1 := by omega
  rcases this with h | h
  · have : (-(a / 2 ^ j) - 1) % 2 = 1 := by omega
    simp [h, this]
  · have : (-(a / 2 ^ j) - 1) % 2 = 0 := by omega
    simp [h, this]

theorem lanes_wide (T : CTy) (hb : T.bits ≤ 16) : Spec.lanes T.bits = 2 * Spec.lanes (2 * T.bits) := by
  cases T <;> first | decide | (exfalso; revert hb; decide)

theorem vsubw_aux (T : CTy) (hb : T.bits ≤ 16) (a b : Int) (ha : T.InRange a) (hb' : T.InRange b) :
    WidK.fn .subw T.wide ⟨T, a⟩ ⟨T, b⟩ = .ok ⟨T.wide, Spec.wrap T.signed (2 * T.bits) (a - b)⟩ ∧
      T.wide.InRange (Spec.wrap T.signed (2 * T.bits) (a - b)) := by
  obtain ⟨-, -, hw, hsg⟩ := wide_size T hb
  refine ⟨vSubw_ok T hb a b ha hb', ?_⟩
  rw [← hw, ← hsg]
  exact specWrap_inRange T.wide _

theorem lanesOf_le (T : CTy) (index : Nat) (h : index ≤ 4) : index ≤ lanesOf T :=
  le_trans h (by cases T <;> decide)

theorem group_add (T : CTy) (rf : VRF) (b n j : Nat) :
    Spec.groupElem T.signed T.bits rf (b + n) j = Spec.groupElem T.signed T.bits rf b (n * lanesOf T + j) := by
  have hp := lanesOf_pos T
  unfold Spec.groupElem
  rw [← lanesOf_eq, Nat.mul_comm n, Nat.mul_add_div hp, Nat.mul_add_mod, Nat.add_assoc]

theorem cat_pair (T : CTy) (rf : VRF) (b n m : Nat) :
    Spec.catElem T.signed T.bits rf n b (.vreg (b + n)) m = Spec.groupElem T.signed T.bits rf b m := by
  unfold Spec.catElem
  split
  · rfl
  · rename_i h
    rw [Spec.Operand.groupElem, group_add, lanesOf_eq]
    congr 1; omega

theorem regs_of_flat (T : CTy) (rf rf' : VRF) (a b n : Nat)
    (h : ∀ j < n * lanesOf T, Spec.groupElem T.signed T.bits rf' a j = Spec.groupElem T.signed T.bits rf b j) :
    ∀ k < n, rf' (a + k) = rf (b + k) := by
  intro k hk
  apply reg_ext T
  intro e he
  have : (k + 1) * lanesOf T ≤ n * lanesOf T := Nat.mul_le_mul_right _ hk
  rw [Nat.add_mul] at this
  have := h (k * lanesOf T + e) (by omega)
  rwa [groupElem_split T rf' a k e he, groupElem_split T rf b k e he] at this

/-- Boolean check of the register file of a successful run. -/
def okAnd (o : Outcome VRF) (p : VRF → Bool) : Bool := match o with | .ok rf => p rf | _ => false

theorem okAnd_iff (o : Outcome VRF) (p : VRF → Bool) : okAnd o p = true ↔ ∃ rf, o = .ok rf ∧ p rf = true := by
  cases o <;> simp [okAnd]

end Verif.Proofs
