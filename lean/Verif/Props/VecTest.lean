import Verif.Proofs.OracleShift
import Verif.Proofs.OracleMul
import Verif.Proofs.VecTest3
import Verif.Proofs.Total

/-!
# C115: the repository's vector unit test passes for every register content

`/repo/sim/test/coralnpu_vector_instructions_test.cc` runs each vector instruction on random register
contents and compares every destination element with a value computed by its own C++ expressions.  Those
expressions and the harness around them are transcribed in `Verif.Spec.VecOracle` and
`Verif.Spec.VecTest`.  Here the comparisons are proved for all register contents and all values of the
scalar operand, for every instruction, element type and operand form of the test.
-/

namespace Verif.Props.VecTest
open Verif Verif.Model Verif.Proofs Verif.Spec.VecTest CVal

/-! ## The instantiations of the test -/

def signedTypes : List CTy := [.i8, .i16, .i32]
def unsignedTypes : List CTy := [.u8, .u16, .u32]

/-- The element types of each test (the `TEST_F` bodies, test.cc 292-1319). -/
def binTypes : BinK → List CTy
  | .add | .sub | .rsub | .eq | .ne | .adds | .subs | .sra | .mul => signedTypes
  | .dmulh false true => []
  | .dmulh _ _ => signedTypes
  | .addsu | .subsu | .and | .or | .xor | .sll | .srl | .rev | .ror => unsignedTypes
  | .lt | .le | .gt | .ge | .absd | .max | .min | .hadd _ | .hsub _ | .shift _ | .muls | .mulh _ =>
    signedTypes ++ unsignedTypes

/-- `VAbsd` has the unsigned type of the same width as destination (test.cc 434-438). -/
def binDst : BinK → CTy → CTy
  | .absd, T => T.toU
  | _, T => T

/-- The operation of each test. -/
def binOracle : BinK → CTy → CVal → CVal → Outcome CVal
  | .add => Spec.Oracle.add | .sub => Spec.Oracle.sub | .rsub => Spec.Oracle.rsub
  | .eq => Spec.Oracle.eq | .ne => Spec.Oracle.ne | .lt => Spec.Oracle.lt | .le => Spec.Oracle.le
  | .gt => Spec.Oracle.gt | .ge => Spec.Oracle.ge | .absd => Spec.Oracle.absd
  | .max => Spec.Oracle.max | .min => Spec.Oracle.min
  | .adds => Spec.Oracle.adds | .addsu => Spec.Oracle.addsu | .subs => Spec.Oracle.subs | .subsu => Spec.Oracle.subsu
  | .hadd r => Spec.Oracle.hadd r | .hsub r => Spec.Oracle.hsub r
  | .and => Spec.Oracle.and | .or => Spec.Oracle.or | .xor => Spec.Oracle.xor
  | .rev => Spec.Oracle.rev | .ror => Spec.Oracle.ror
  | .sll => Spec.Oracle.sll | .sra => Spec.Oracle.srx | .srl => Spec.Oracle.srx | .shift r => Spec.Oracle.shift r
  | .mul => Spec.Oracle.mul | .muls => Spec.Oracle.muls | .mulh r => Spec.Oracle.mulh r
  | .dmulh r rn => Spec.Oracle.dmulh r rn

def terOracle : TerK → CTy → CVal → CVal → CVal → Outcome CVal
  | .add3 => Spec.Oracle.add3 | .macc => Spec.Oracle.macc | .madd => Spec.Oracle.madd | .sel => Spec.Oracle.sel

def unTypes : UnK → List CTy
  | .not | .mv => [.i32]
  | .clb | .clz | .cpop => unsignedTypes

def unOracle : UnK → CTy → CVal → Outcome CVal
  | .not => Spec.Oracle.not | .clb => Spec.Oracle.clb | .clz => Spec.Oracle.clz | .cpop => Spec.Oracle.cpop
  | .mv => Spec.Oracle.mv

def widOracle : WidK → CTy → CVal → CVal → Outcome CVal
  | .addw => Spec.Oracle.addw | .subw => Spec.Oracle.subw | .mulw => Spec.Oracle.mulw

/-- Destination and source types of the widening tests. -/
def widTypes : List (CTy × CTy) := [(.i16, .i8), (.i32, .i16), (.u16, .u8), (.u32, .u16)]

/-- `VSrans`, `VSransr` (test.cc 1148-1184), `VSraqs`, `VSraqsr` (1186-1194). -/
def sransTypes : List (CTy × CTy) :=
  [(.i8, .i16), (.i16, .i32), (.u8, .u16), (.u16, .u32), (.i8, .i32), (.u8, .u32)]

/-- The instantiations: an instruction, the test it is given to, whether the test also uses the form with a
scalar second operand, whether with a vector one, and which strip-mining flags. -/
inductive Row : VOp → Test → List Bool → List Bool → Prop
  | bin (k : BinK) (T : CTy) : T ∈ binTypes k →
    Row (.bin k T) (.common (binDst k T) T T (fun _ => binOracle k (binDst k T)) false false) [false, true] [false, true]
  | ter (k : TerK) (T : CTy) : T ∈ signedTypes →
    Row (.ter k T) (.common T T T (terOracle k T) false false) [false, true] [false, true]
  | un (k : UnK) (T : CTy) : T ∈ unTypes k → Row (.un k T) (.unary T (unOracle k T)) [false] [false, true]
  | wid (k : WidK) (Td Ts : CTy) : (Td, Ts) ∈ widTypes →
    Row (.wid k Td Ts) (.common Td Ts Ts (fun _ => widOracle k Td) false false) [false, true] [false, true]
  | acc (Td Ts : CTy) : (Td, Ts) ∈ widTypes →
    Row (.acc Td Ts) (.common Td Td Ts (fun _ => Spec.Oracle.acc Td) false false) [false, true] [false, true]
  | packed (k : WidK) (Td Ts : CTy) : k ≠ .mulw → (Td, Ts) ∈ widTypes →
    Row (.packed k Td Ts) (.common Td Ts Ts (fun _ => widOracle k Td) true false) [false] [false, true]
  | srans (round : Bool) (Td Ts : CTy) : (Td, Ts) ∈ sransTypes →
    Row (.srans round Td Ts) (.common Td Ts Td (fun _ => Spec.Oracle.srans round Td) false false) [false, true] [false, true]
  | mvp (T : CTy) : T ∈ unsignedTypes →
    Row (.mvp T) (.common T T T (fun _ => Spec.Oracle.first T) false true)
      (if T = .u32 then [false, true] else [true]) [false, true]
  | slidehn (index : Nat) (T : CTy) : 1 ≤ index → index < 5 → T ∈ signedTypes →
    Row (.sliden true index T) (.moved T (fun _ => Spec.Oracle.first T) (slidenArgs T true index) false) [false] [true]
  | slidevn (index : Nat) (T : CTy) : 1 ≤ index → index < 5 → T ∈ signedTypes →
    Row (.sliden false index T) (.moved T (fun _ => Spec.Oracle.first T) (slidenArgs T false index) false)
      [false] [false, true]
  | slidehp (index : Nat) (T : CTy) : 1 ≤ index → index < 5 → T ∈ signedTypes →
    Row (.slidep true index T) (.moved T (fun _ => Spec.Oracle.first T) (slidepArgs T true index) false) [false] [true]
  | slidevp (index : Nat) (T : CTy) : 1 ≤ index → index < 5 → T ∈ signedTypes →
    Row (.slidep false index T) (.moved T (fun _ => Spec.Oracle.first T) (slidepArgs T false index) false)
      [false] [false, true]
  | evn (T : CTy) : T ∈ signedTypes →
    Row (.evn T) (.moved T (fun _ => Spec.Oracle.first T) evnOddArgs false) [false, true] [false, true]
  | odd (T : CTy) : T ∈ signedTypes →
    Row (.odd T) (.moved T (fun _ => Spec.Oracle.second T) evnOddArgs false) [false, true] [false, true]
  | evnodd (T : CTy) : T ∈ signedTypes →
    Row (.evnodd T) (.moved T (fun _ => Spec.Oracle.first T) evnOddArgs true) [false, true] [false, true]
  | zip (T : CTy) : T ∈ signedTypes →
    Row (.zip T) (.moved T (fun _ => Spec.Oracle.first T) (zipArgs T) true) [false, true] [false, true]

/-! ## Element functions -/

theorem mem_signed {T : CTy} (h : T ∈ signedTypes) : T.signed = true ∧ T.bits ≤ 32 := by
  revert h; cases T <;> decide
theorem mem_unsigned {T : CTy} (h : T ∈ unsignedTypes) : T.signed = false ∧ T.bits ≤ 32 := by
  revert h; cases T <;> decide
theorem mem_both {T : CTy} (h : T ∈ signedTypes ++ unsignedTypes) : T.bits ≤ 32 := by
  revert h; cases T <;> decide

theorem nonneg_of {T : CTy} (hs : T.signed = false) {a : Int} (ha : T.InRange a) : ∃ x : Nat, a = x ∧ x < 2 ^ T.bits := by
  refine ⟨a.toNat, ?_, ?_⟩ <;> revert hs ha <;> cases T <;> simp +decide [CTy.InRange, CTy.lo, CTy.hi, CTy.signed, CTy.bits] <;> omega

theorem bin_oracle (k : BinK) (T : CTy) (h : T ∈ binTypes k) (a b : Int) (ha : T.InRange a) (hb : T.InRange b) :
    k.fn T ⟨T, a⟩ ⟨T, b⟩ = binOracle k (binDst k T) ⟨T, a⟩ ⟨T, b⟩ := by
  cases k with
  | add => exact (o_add T (mem_signed h).2 a b ha hb).symm
  | sub => exact (o_sub T (mem_signed h).2 a b ha hb).symm
  | rsub => exact (o_rsub T (mem_signed h).2 a b ha hb).symm
  | eq => rfl
  | ne => rfl
  | lt => rfl
  | le => rfl
  | gt => rfl
  | ge => rfl
  | absd => exact (o_absd T (mem_both h) a b ha hb).symm
  | max => exact (o_max T a b ha hb).symm
  | min => exact (o_min T a b ha hb).symm
  | adds => exact (o_adds T (mem_signed h).1 (mem_signed h).2 a b ha hb).symm
  | addsu => exact (o_addsu T (mem_unsigned h).1 (mem_unsigned h).2 a b ha hb).symm
  | subs => exact (o_subs T (mem_signed h).1 (mem_signed h).2 a b ha hb).symm
  | subsu => rfl
  | hadd r => exact (o_hadd r T (mem_both h) a b ha hb).symm
  | hsub r => exact (o_hsub r T (mem_both h) a b ha hb).symm
  | and => rfl
  | or => rfl
  | xor => rfl
  | rev =>
    obtain ⟨hs, hw⟩ := mem_unsigned h
    obtain ⟨x, rfl, hx⟩ := nonneg_of hs ha
    obtain ⟨y, rfl, hy⟩ := nonneg_of hs hb
    exact (o_rev T hs hw x y hx hy).symm
  | ror =>
    obtain ⟨hs, hw⟩ := mem_unsigned h
    obtain ⟨x, rfl, hx⟩ := nonneg_of hs ha
    obtain ⟨y, rfl, -⟩ := nonneg_of hs hb
    exact (o_ror T hs hw x y hx).symm
  | sll => rfl
  | sra => rfl
  | srl => rfl
  | shift r => exact (o_shift r T (mem_both h) a b ha hb).symm
  | mul => exact (o_mul T (mem_signed h).2 a b ha hb).symm
  | muls => exact (o_muls T (mem_both h) a b ha hb).symm
  | mulh r => exact (o_mulh r T (mem_both h) a b ha hb).symm
  | dmulh r rn =>
    have h' : T ∈ signedTypes := by cases r <;> cases rn <;> first | exact h | cases h
    exact (o_dmulh r rn T (mem_signed h').1 (mem_signed h').2 a b ha hb).symm

theorem bin_bits {k : BinK} {T : CTy} (h : T ∈ binTypes k) : T.bits ≤ 32 := by
  have hd : ∀ r rn, T ∈ binTypes (.dmulh r rn) → T ∈ signedTypes := by
    intro r rn h; cases r <;> cases rn <;> first | exact h | cases h
  cases k <;> first | exact (mem_signed h).2 | exact (mem_unsigned h).2 | exact mem_both h | exact (mem_signed (hd _ _ h)).2

theorem bin_typed (k : BinK) (T : CTy) (x y : CVal) : Typed T (binOracle k T x y) := by
  cases k <;> simp only [binOracle, Spec.Oracle.add, Spec.Oracle.sub, Spec.Oracle.rsub, Spec.Oracle.eq, Spec.Oracle.ne,
    Spec.Oracle.lt, Spec.Oracle.le, Spec.Oracle.gt, Spec.Oracle.ge, Spec.Oracle.absd, Spec.Oracle.max, Spec.Oracle.min,
    Spec.Oracle.adds, Spec.Oracle.addsu, Spec.Oracle.subs, Spec.Oracle.subsu, Spec.Oracle.hadd, Spec.Oracle.hsub,
    Spec.Oracle.and, Spec.Oracle.or, Spec.Oracle.xor, Spec.Oracle.rev, Spec.Oracle.ror, Spec.Oracle.sll, Spec.Oracle.srx,
    Spec.Oracle.shift, Spec.Oracle.shiftS, Spec.Oracle.shiftU, Spec.Oracle.mul, Spec.Oracle.muls, Spec.Oracle.mulh,
    Spec.Oracle.dmulh, Spec.Oracle.clampS] <;> typed_tac

theorem ter_oracle (k : TerK) (T : CTy) (h : T ∈ signedTypes) (d a b : Int) (hd : T.InRange d) (ha : T.InRange a)
    (hb : T.InRange b) : k.fn T ⟨T, d⟩ ⟨T, a⟩ ⟨T, b⟩ = terOracle k T ⟨T, d⟩ ⟨T, a⟩ ⟨T, b⟩ := by
  obtain ⟨hs, hw⟩ := mem_signed h
  cases k with
  | add3 => exact (o_add3 T hw d a b hd ha hb).symm
  | macc => exact (o_macc T hs hw d a b hd ha hb).symm
  | madd => exact (o_madd T hs hw d a b hd ha hb).symm
  | sel => exact (o_sel T d a b hd hb).symm

theorem ter_typed (k : TerK) (T : CTy) (d x y : CVal) : Typed T (terOracle k T d x y) := by
  cases k <;> simp only [terOracle, Spec.Oracle.add3, Spec.Oracle.macc, Spec.Oracle.madd, Spec.Oracle.sel] <;> typed_tac

theorem un_oracle (k : UnK) (T : CTy) (h : T ∈ unTypes k) (a : Int) (ha : T.InRange a) :
    k.fn T ⟨T, a⟩ = unOracle k T ⟨T, a⟩ := by
  cases k with
  | not => rfl
  | mv => exact (o_mv T a ha).symm
  | cpop => obtain ⟨x, rfl, -⟩ := nonneg_of (mem_unsigned h).1 ha; exact (o_cpop T x).symm
  | clz =>
    obtain ⟨x, rfl, hx⟩ := nonneg_of (mem_unsigned h).1 ha
    exact (o_clz T (mem_unsigned h).1 (mem_unsigned h).2 x hx).symm
  | clb =>
    obtain ⟨x, rfl, hx⟩ := nonneg_of (mem_unsigned h).1 ha
    exact (o_clb T (mem_unsigned h).1 (mem_unsigned h).2 x hx).symm

theorem un_typed (k : UnK) (T : CTy) (x : CVal) : Typed T (unOracle k T x) := by
  cases k <;> simp only [unOracle, Spec.Oracle.not, Spec.Oracle.clb, Spec.Oracle.clz, Spec.Oracle.cpop, Spec.Oracle.mv] <;>
    typed_tac

theorem wid_typed (k : WidK) (T : CTy) (x y : CVal) : Typed T (widOracle k T x y) := by
  cases k <;> simp only [widOracle, Spec.Oracle.addw, Spec.Oracle.subw, Spec.Oracle.mulw] <;> typed_tac

theorem wid_mem {Td Ts : CTy} (h : (Td, Ts) ∈ widTypes) : Td = Ts.wide ∧ Ts.bits ≤ 16 := by
  revert h; cases Td <;> cases Ts <;> decide

theorem srans_mem {Td Ts : CTy} (h : (Td, Ts) ∈ sransTypes) :
    Td.signed = Ts.signed ∧ Td.bits ≤ 16 ∧ Ts.bits ≤ 32 ∧ (Ts.bits = 2 * Td.bits ∨ Ts.bits = 4 * Td.bits) ∧
      (Ts.size = 2 * Td.size ∨ Ts.size = 4 * Td.size) := by
  revert h; cases Td <;> cases Ts <;> decide

/-! ## The theorems -/

theorem row_agrees {v : VOp} {t : Test} {scs sts : List Bool} (h : Row v t scs sts) (sc : Option (BitVec 32)) (st : Bool)
    (hsc : sc.isSome ∈ scs) (hst : st ∈ sts) (rf : VRF) : Agrees v t sc st rf := by
  have none_of : ∀ s : Option (BitVec 32), s.isSome ∈ [false] → s = none := by
    intro s hs; cases s with
    | none => rfl
    | some x => simp at hs
  cases h with
  | bin k T h =>
    have hd : binDst k T = k.dstTy T := by cases k <;> rfl
    have := bin_agrees k T (bin_bits h) (binOracle k (binDst k T)) (fun a b => bin_oracle k T h a b)
      (by rw [hd]; exact bin_typed k _) sc st rf
    rw [hd] at this ⊢
    exact this
  | ter k T h => exact ter_agrees k T (mem_signed h).2 _ (ter_oracle k T h) (ter_typed k T) sc st rf
  | un k T h => rw [none_of sc hsc]; exact un_agrees k T _ (un_oracle k T h) (un_typed k T) st rf
  | wid k Td Ts h =>
    obtain ⟨rfl, hb⟩ := wid_mem h
    exact wid_agrees k Ts hb _ (fun a b _ _ => by cases k <;> rfl) (wid_typed k _) sc st rf
  | acc Td Ts h =>
    obtain ⟨rfl, hb⟩ := wid_mem h
    exact acc_agrees Ts hb _ (fun a b ha hb' => (o_acc Ts hb a b ha hb').symm)
      (fun x y => by simp only [Spec.Oracle.acc]; typed_tac) sc st rf
  | packed k Td Ts hk h =>
    obtain ⟨rfl, hb⟩ := wid_mem h
    rw [none_of sc hsc]
    exact packed_agrees k Ts hb _ (fun a b _ _ => by cases k <;> rfl) (wid_typed k _) st rf
  | srans round Td Ts h =>
    obtain ⟨h1, h2, h3, h4, h5⟩ := srans_mem h
    exact srans_agrees round Td Ts h2 h5 _ (fun a b ha _ => (o_srans round Td Ts h1 h2 h4 h3 a b ha).symm)
      (fun x y => by simp only [Spec.Oracle.srans]; typed_tac) sc st rf
  | mvp T h => exact mvp_agrees T (mem_unsigned h).2 sc st rf
  | slidehn i T h1 h2 h =>
    rw [none_of sc hsc]
    exact sliden_agrees true i (by omega) T (mem_signed h).2 st (fun _ => by simpa using hst) rf
  | slidevn i T h1 h2 h =>
    rw [none_of sc hsc]
    exact sliden_agrees false i (by omega) T (mem_signed h).2 st (by simp) rf
  | slidehp i T h1 h2 h =>
    rw [none_of sc hsc]
    exact slidep_agrees true i (by omega) T (mem_signed h).2 st (fun _ => by simpa using hst) rf
  | slidevp i T h1 h2 h =>
    rw [none_of sc hsc]
    exact slidep_agrees false i (by omega) T (mem_signed h).2 st (by simp) rf
  | evn T h => exact evn_agrees T (mem_signed h).2 sc st rf
  | odd T h => exact odd_agrees T (mem_signed h).2 sc st rf
  | evnodd T h => exact evnodd_agrees T (mem_signed h).2 sc st rf
  | zip T h => exact zip_agrees T (mem_signed h).2 sc st rf

/-- The instruction the test builds: destination `v32`, first source `v8`, and second source `v24` or the
value of the scalar register. -/
def instruction (scalar : Option (BitVec 32)) (strip : Bool) : VInst where
  vd := 32
  vs1 := 8
  op2 := match scalar with | none => .vreg 24 | some x => .scalar x
  strip := strip

/-- C115.  For every instantiation of the test and every content of the registers and of the scalar operand:
whenever the instruction has a result, every comparison of the test holds of it, and the instruction has
a result whenever the test's own expected values are defined. -/
theorem C115_passes {v : VOp} {t : Test} {scs sts : List Bool} (h : Row v t scs sts)
    (sc : Option (BitVec 32)) (hsc : sc.isSome ∈ scs) (st : Bool) (hst : st ∈ sts) (rf : VRF) :
    (∀ rf', v.run (instruction sc st) rf = .ok rf' → t.Passes sc st rf rf') ∧
      (t.Defined sc st rf ↔ ∃ rf', v.run (instruction sc st) rf = .ok rf') := by
  obtain ⟨h1, h2⟩ := row_agrees h sc st hsc hst rf
  refine ⟨h2, h1, ?_⟩
  rintro ⟨rf', hr⟩ op hop sub hsub e he
  exact ⟨_, h2 rf' hr op hop sub hsub e he⟩

/-- The rows in which the instruction is never undefined: all but the 32-bit `vsha`/`vshl` ones. -/
def Always : VOp → Prop
  | .bin (.shift _) T => T.bits ≤ 16
  | _ => True

theorem row_wf {v : VOp} {t : Test} {scs sts : List Bool} (h : Row v t scs sts) (ha : Always v)
    (sc : Option (BitVec 32)) (hsc : sc.isSome ∈ scs) (st : Bool) (hst : st ∈ sts) :
    opWf v (instruction sc st).scalar (instruction sc st).strip = true := by
  have hs : (instruction sc st).scalar = sc.isSome := by cases sc <;> rfl
  have ht : (instruction sc st).strip = st := rfl
  rw [hs, ht]
  cases h with
  | bin k T h =>
    show binWf k T = true
    have hw := bin_bits h
    cases k with
    | shift r => simp only [binWf, Bool.and_eq_true, decide_eq_true_eq]; exact ⟨hw, ha⟩
    | adds => simp [binWf, hw, (mem_signed h).1]
    | subs => simp [binWf, hw, (mem_signed h).1]
    | dmulh r rn =>
      have h' : T ∈ signedTypes := by cases r <;> cases rn <;> first | exact h | cases h
      simp [binWf, hw, (mem_signed h').1]
    | addsu => simp [binWf, hw, (mem_unsigned h).1]
    | subsu => simp [binWf, hw, (mem_unsigned h).1]
    | and => simp [binWf, hw, (mem_unsigned h).1]
    | or => simp [binWf, hw, (mem_unsigned h).1]
    | xor => simp [binWf, hw, (mem_unsigned h).1]
    | rev => simp [binWf, hw, (mem_unsigned h).1]
    | ror => simp [binWf, hw, (mem_unsigned h).1]
    | sll => simp [binWf, hw, (mem_unsigned h).1]
    | _ => simp [binWf, hw]
  | ter k T h =>
    obtain ⟨h1, h2⟩ := mem_signed h
    cases k <;> simp [opWf, h1, h2]
  | un k T h =>
    have : ∀ b c, T ∈ unTypes k → opWf (.un k T) b c = true := by cases k <;> cases T <;> decide
    exact this _ _ h
  | wid k Td Ts h =>
    obtain ⟨rfl, hb⟩ := wid_mem h
    simp [opWf, hb]
  | acc Td Ts h =>
    obtain ⟨rfl, hb⟩ := wid_mem h
    simp [opWf, hb]
  | packed k Td Ts hk h =>
    obtain ⟨rfl, hb⟩ := wid_mem h
    simp [opWf, hb]
  | srans round Td Ts h =>
    obtain ⟨h1, h2, h3, h4, -⟩ := srans_mem h
    simp [opWf, h1, h2, h3, h4]
  | mvp T h => simp [opWf, (mem_unsigned h).2]
  | slidehn i T h1 h2 h => simp at hsc hst; simp [opWf, (mem_signed h).2, hsc, hst]; omega
  | slidevn i T h1 h2 h => simp at hsc; simp [opWf, (mem_signed h).2, hsc]; omega
  | slidehp i T h1 h2 h => simp at hsc hst; simp [opWf, (mem_signed h).2, hsc, hst]; omega
  | slidevp i T h1 h2 h => simp at hsc; simp [opWf, (mem_signed h).2, hsc]; omega
  | evn T h => simp [opWf, (mem_signed h).2]
  | odd T h => simp [opWf, (mem_signed h).2]
  | evnodd T h => simp [opWf, (mem_signed h).2]
  | zip T h => simp [opWf, (mem_signed h).2]

/-- C115.  In all instantiations except the 32-bit shifts the test passes outright: the instruction completes,
whatever the registers contain, and every comparison of the test holds. -/
theorem C115_always {v : VOp} {t : Test} {scs sts : List Bool} (h : Row v t scs sts) (ha : Always v)
    (sc : Option (BitVec 32)) (hsc : sc.isSome ∈ scs) (st : Bool) (hst : st ∈ sts) (rf : VRF) :
    ∃ rf', v.run (instruction sc st) rf = .ok rf' ∧ t.Passes sc st rf rf' := by
  obtain ⟨rf', hr⟩ := run_total v (instruction sc st) (row_wf h ha sc hsc st hst) rf
  exact ⟨rf', hr, (C115_passes h sc hsc st hst rf).1 rf' hr⟩

/-! ## The test can fail, and the 32-bit shifts can be undefined -/

/-- Registers with `v8` all ones (bytes) and `v24` all twos. -/
def sample : VRF := fun r =>
  if r = 8 then 0x0101010101010101010101010101010101010101010101010101010101010101
  else if r = 24 then 0x0202020202020202020202020202020202020202020202020202020202020202 else 0

/-- Non-vacuity: the byte addition test accepts the sum and rejects an unchanged register file. -/
example : ∃ rf', (VOp.bin .add .i8).run (instruction none false) sample = .ok rf' ∧
    (Test.common .i8 .i8 .i8 (fun _ => Spec.Oracle.add .i8) false false).Passes none false sample rf' :=
  C115_always (.bin .add .i8 (by decide)) trivial none (by decide) false (by decide) sample

example : ¬ (Test.common .i8 .i8 .i8 (fun _ => Spec.Oracle.add .i8) false false).Passes none false sample sample := by
  intro h
  have := h 0 (by decide) 0 (by decide) 0 (by decide)
  revert this
  decide +kernel

/-- Registers with 1 in the lowest word of `v8` and the most negative number in that of `v24`. -/
def extreme : VRF := fun r => if r = 8 then 1 else if r = 24 then 0x80000000 else 0

/-- The exception is real: a 32-bit shift of 1 by −2³¹ has no defined result, neither in the instruction nor in
the test's own expected value, so the test as written has undefined behaviour for such operands. -/
theorem C115_shift_undefined (round : Bool) :
    ¬ (Test.common .i32 .i32 .i32 (fun _ => Spec.Oracle.shift round .i32) false false).Defined none false extreme ∧
      ∀ rf', (VOp.bin (.shift round) .i32).run (instruction none false) extreme ≠ .ok rf' := by
  have hd : ¬ (Test.common .i32 .i32 .i32 (fun _ => Spec.Oracle.shift round .i32) false false).Defined none false extreme := by
    intro h
    obtain ⟨c, hc⟩ := h 0 (by decide) 0 (by cases round <;> decide) 0 (by cases round <;> decide)
    have hu : (Test.common .i32 .i32 .i32 (fun _ => Spec.Oracle.shift round .i32) false false).expected none false extreme 0 0 0
        = .ub := by cases round <;> decide +kernel
    rw [hu] at hc; cases hc
  refine ⟨hd, fun rf' hr => hd ?_⟩
  exact (C115_passes (.bin (.shift round) .i32 (by cases round <;> decide)) none (by decide) false (by decide) extreme).2.2 ⟨rf', hr⟩

end Verif.Props.VecTest
