import Verif.Base.CInt

/-!
# Element functions of the vector instructions

Model of the lambdas and helper templates of `/repo/sim/coralnpu_vector_instructions.cc`.
Every function receives typed C++ values and is written operator by operator with the semantics of
`Verif.Base.CInt`, so promotions, wrap-around and undefined behaviour are those of the C++ text.
An implicit conversion to the lambda's return type is written `CVal.cast T`.
-/

namespace Verif.Model
open Verif CVal

/-- `CoralNPUVAdd` lambda, coralnpu_vector_instructions.cc 167-182. -/
def vAdd (T : CTy) (vs1 vs2 : CVal) : Outcome CVal := do
  let s ← add (cast T.toU vs1) (cast T.toU vs2)
  .ok (cast T s)

/-- `CoralNPUVSub` lambda, coralnpu_vector_instructions.cc 184-199. -/
def vSub (T : CTy) (vs1 vs2 : CVal) : Outcome CVal := do
  let s ← sub (cast T.toU vs1) (cast T.toU vs2)
  .ok (cast T s)

/-- `CoralNPUVRSub` lambda, coralnpu_vector_instructions.cc 201-216. -/
def vRSub (T : CTy) (vs1 vs2 : CVal) : Outcome CVal := do
  let s ← sub (cast T.toU vs2) (cast T.toU vs1)
  .ok (cast T s)

/-- `CoralNPUVEq` lambda, coralnpu_vector_instructions.cc 218-226. -/
def vEq (T : CTy) (vs1 vs2 : CVal) : Outcome CVal := .ok (ofBool T (eq vs1 vs2))
/-- `CoralNPUVNe` lambda, coralnpu_vector_instructions.cc 229-237. -/
def vNe (T : CTy) (vs1 vs2 : CVal) : Outcome CVal := .ok (ofBool T (ne vs1 vs2))
/-- `CoralNPUVLt` lambda, coralnpu_vector_instructions.cc 239-250. -/
def vLt (T : CTy) (vs1 vs2 : CVal) : Outcome CVal := .ok (ofBool T (lt vs1 vs2))
/-- `CoralNPUVLe` lambda, coralnpu_vector_instructions.cc 253-264. -/
def vLe (T : CTy) (vs1 vs2 : CVal) : Outcome CVal := .ok (ofBool T (le vs1 vs2))
/-- `CoralNPUVGt` lambda, coralnpu_vector_instructions.cc 267-278. -/
def vGt (T : CTy) (vs1 vs2 : CVal) : Outcome CVal := .ok (ofBool T (gt vs1 vs2))
/-- `CoralNPUVGe` lambda, coralnpu_vector_instructions.cc 281-292. -/
def vGe (T : CTy) (vs1 vs2 : CVal) : Outcome CVal := .ok (ofBool T (ge vs1 vs2))

/-- `CoralNPUVAbsd` lambda, coralnpu_vector_instructions.cc 296-312; the result type is unsigned. -/
def vAbsd (T : CTy) (vs1 vs2 : CVal) : Outcome CVal := do
  let u1 := cast T.toU vs1
  let u2 := cast T.toU vs2
  let d ← if gt vs1 vs2 then sub u1 u2 else sub u2 u1
  .ok (cast T.toU d)

/-- `std::max(vs1, vs2)`: returns `vs1` unless `vs1 < vs2`; coralnpu_vector_instructions.cc 320-333. -/
def vMax (_T : CTy) (vs1 vs2 : CVal) : Outcome CVal := .ok (if lt vs1 vs2 then vs2 else vs1)
/-- `std::min(vs1, vs2)`: returns `vs1` unless `vs2 < vs1`; coralnpu_vector_instructions.cc 335-348. -/
def vMin (_T : CTy) (vs1 vs2 : CVal) : Outcome CVal := .ok (if lt vs2 vs1 then vs2 else vs1)

/-- `CoralNPUVAdd3` lambda, coralnpu_vector_instructions.cc 350-366. -/
def vAdd3 (T : CTy) (vd vs1 vs2 : CVal) : Outcome CVal := do
  let s ← add (cast T.toU vd) (cast T.toU vs1)
  let s ← add s (cast T.toU vs2)
  .ok (cast T s)

/-- `VAddsHelper`, coralnpu_vector_instructions.cc 371-383. -/
def vAdds (T : CTy) (vs1 vs2 : CVal) : Outcome CVal := do
  let s ← add (cast T.toU vs1) (cast T.toU vs2)
  let usum := cast T.toU s
  let sum := cast T usum
  if ge (lxor vs1 vs2) (lit 0) && lt (lxor sum vs1) (lit 0) then
    .ok (if gt vs1 (lit 0) then tmax T else tmin T)
  else .ok sum

/-- `VAddsuHelper`, coralnpu_vector_instructions.cc 396-403. -/
def vAddsu (T : CTy) (vs1 vs2 : CVal) : Outcome CVal := do
  let s ← add vs1 vs2
  let sum := cast T s
  if lt sum vs1 then .ok (tmax T) else .ok sum

/-- `VSubsHelper`, coralnpu_vector_instructions.cc 415-428. -/
def vSubs (T : CTy) (vs1 vs2 : CVal) : Outcome CVal := do
  let s ← sub (cast T.toU vs1) (cast T.toU vs2)
  let usub := cast T.toU s
  let sub := cast T usub
  if lt (lxor vs1 vs2) (lit 0) && ge (lxor sub vs2) (lit 0) then
    .ok (if lt vs2 (lit 0) then tmax T else tmin T)
  else .ok sub

/-- `CoralNPUVSubsu` lambda, coralnpu_vector_instructions.cc 440-450. -/
def vSubsu (T : CTy) (vs1 vs2 : CVal) : Outcome CVal := do
  if lt vs1 vs2 then .ok (cast T (lit 0)) else
    let d ← sub vs1 vs2
    .ok (cast T d)

/-- `CoralNPUVAddw` lambda (also `CoralNPUVPadd`), coralnpu_vector_instructions.cc 452-460, 518-531. -/
def vAddw (Td : CTy) (vs1 vs2 : CVal) : Outcome CVal := do
  let s ← add (cast Td vs1) (cast Td vs2)
  .ok (cast Td s)

/-- `CoralNPUVSubw` lambda (also `CoralNPUVPsub`), coralnpu_vector_instructions.cc 465-473, 533-549. -/
def vSubw (Td : CTy) (vs1 vs2 : CVal) : Outcome CVal := do
  let s ← sub (cast Td vs1) (cast Td vs2)
  .ok (cast Td s)

/-- `CoralNPUVAcc` lambda, coralnpu_vector_instructions.cc 478-487. -/
def vAcc (Td : CTy) (vs1 vs2 : CVal) : Outcome CVal := do
  let s ← add (cast Td.toU vs1) (cast Td.toU vs2)
  .ok (cast Td s)

/-- `CoralNPUVHaddHelper`, coralnpu_vector_instructions.cc 551-557. -/
def vHadd (round : Bool) (T : CTy) (vs1 vs2 : CVal) : Outcome CVal := do
  let s ← add (cast T.wide vs1) (cast T.wide vs2)
  let s ← add s (lit (if round then 1 else 0))
  let h ← shr s (lit 1)
  .ok (cast T h)

/-- `CoralNPUVHsubHelper`, coralnpu_vector_instructions.cc 573-579. -/
def vHsub (round : Bool) (T : CTy) (vs1 vs2 : CVal) : Outcome CVal := do
  let s ← sub (cast T.wide vs1) (cast T.wide vs2)
  let s ← add s (lit (if round then 1 else 0))
  let h ← shr s (lit 1)
  .ok (cast T h)

/-- `CoralNPUVAnd` lambda, coralnpu_vector_instructions.cc 595-604. -/
def vAnd (T : CTy) (vs1 vs2 : CVal) : Outcome CVal := .ok (cast T (land vs1 vs2))
/-- `CoralNPUVOr` lambda, coralnpu_vector_instructions.cc 606-615. -/
def vOr (T : CTy) (vs1 vs2 : CVal) : Outcome CVal := .ok (cast T (lor vs1 vs2))
/-- `CoralNPUVXor` lambda, coralnpu_vector_instructions.cc 617-626. -/
def vXor (T : CTy) (vs1 vs2 : CVal) : Outcome CVal := .ok (cast T (lxor vs1 vs2))

/-- One stage `r = ((r & m1) << s) | ((r & m2) >> s)` of `CoralNPUVRev`; the masks whose top bit is
set have type `unsigned int`, the others `int`. -/
def revStage (T : CTy) (m1 m2 : CVal) (s : Int) (r : CVal) : Outcome CVal := do
  let a ← shl (land r m1) (lit s)
  let b ← shr (land r m2) (lit s)
  .ok (cast T (lor a b))

/-- `if (count & n) r = …` of `CoralNPUVRev`, one of the five statements. -/
def revIf (T : CTy) (count : CVal) (n : Int) (m1 m2 : CVal) (r : CVal) : Outcome CVal :=
  if ne (land count (lit n)) (lit 0) then revStage T m1 m2 n r else .ok r

/-- `CoralNPUVRev` lambda, coralnpu_vector_instructions.cc 628-647. -/
def vRev (T : CTy) (vs1 vs2 : CVal) : Outcome CVal := do
  let count := cast T (land vs2 (lit 0b11111))
  let r ← revIf T count 1 (lit 0x55555555) ⟨.u32, 0xAAAAAAAA⟩ vs1
  let r ← revIf T count 2 (lit 0x33333333) ⟨.u32, 0xCCCCCCCC⟩ r
  let r ← revIf T count 4 (lit 0x0F0F0F0F) ⟨.u32, 0xF0F0F0F0⟩ r
  if T.size = 1 then .ok r else do
  let r ← revIf T count 8 (lit 0x00FF00FF) ⟨.u32, 0xFF00FF00⟩ r
  if T.size = 2 then .ok r else
  revIf T count 16 (lit 0x0000FFFF) ⟨.u32, 0xFFFF0000⟩ r

/-- One iteration `r = (r >> shift) | (r << (sizeof(T) * 8 - shift))` of `CoralNPUVRor`. -/
def rorStage (T : CTy) (s : Int) (r : CVal) : Outcome CVal := do
  let a ← shr r (lit s)
  let b ← shl r ⟨.u64, (T.size : Int) * 8 - s⟩
  .ok (cast T (lor a b))

/-- `CoralNPUVRor` lambda, coralnpu_vector_instructions.cc 649-664. -/
def vRor (T : CTy) (vs1 vs2 : CVal) : Outcome CVal :=
  let count := cast T (land vs2 (cast T ⟨.u64, (T.size : Int) * 8 - 1⟩))
  [1, 2, 4, 8, 16].foldlM
    (fun r (s : Int) => if ne (land count (lit s)) (lit 0) then rorStage T s r else .ok r) vs1

/-- The shift amount `vs2 & (sizeof(T) * 8 - 1)` of `CoralNPUVSll/VSra/VSrl` (type `size_t`). -/
def shiftAmount (T : CTy) (vs2 : CVal) : CVal := land vs2 ⟨.u64, (T.size : Int) * 8 - 1⟩

/-- `CoralNPUVSll` lambda, coralnpu_vector_instructions.cc 692-700. -/
def vSll (T : CTy) (vs1 vs2 : CVal) : Outcome CVal := do
  let r ← shl vs1 (shiftAmount T vs2)
  .ok (cast T r)
/-- `CoralNPUVSra` / `CoralNPUVSrl` lambdas, coralnpu_vector_instructions.cc 705-729. -/
def vSrx (T : CTy) (vs1 vs2 : CVal) : Outcome CVal := do
  let r ← shr vs1 (shiftAmount T vs2)
  .ok (cast T r)

/-- `round ? static_cast<W>(1ll << (shamt - 1)) : 0`, converted to `W`; `one` is `1ll` or `1ull`.
coralnpu_vector_instructions.cc 748-749, 781-782, 887. -/
def roundTerm (round : Bool) (W : CTy) (one shamt : CVal) : Outcome CVal :=
  if round then do
    let n ← sub shamt (lit 1)
    let o ← shl one n
    .ok (cast W o)
  else .ok (cast W (lit 0))

/-- `(static_cast<W>(vs1) + roundTerm) >> shamt`, stored in a `W`;
coralnpu_vector_instructions.cc 748-750, 780-783, 886-888. -/
def shiftRightW (round : Bool) (W : CTy) (one vs1 shamt : CVal) : Outcome CVal := do
  let r ← roundTerm round W one shamt
  let s ← add (cast W vs1) r
  let s ← shr s shamt
  .ok (cast W s)

/-- `static_cast<UT>(-shamt <= kMaxShiftBit ? -shamt : kMaxShiftBit)`,
coralnpu_vector_instructions.cc 753-754, 786. -/
def leftAmount (T : CTy) (shamt : CVal) : Outcome CVal := do
  let n ← neg shamt
  .ok (cast T.toU (if le n (lit ((T.size : Int) * 8)) then n else lit ((T.size : Int) * 8)))

/-- The left shift of the signed branch, coralnpu_vector_instructions.cc 751-760; `CHECK_LE` and
`CHECK_GE` become `abort`. -/
def shiftLeftS (T : CTy) (vs1 shamt : CVal) : Outcome CVal := do
  let ushamt ← leftAmount T shamt
  if !(le ushamt (lit ((T.size : Int) * 8))) then .abort else
  if !(ge ushamt (lit 0)) then .abort else do
  let s ← shl (cast T.toU.wide vs1) ushamt
  .ok (cast T.wide s)

/-- The left shift of the unsigned branch, coralnpu_vector_instructions.cc 784-788. -/
def shiftLeftU (T : CTy) (vs1 shamt : CVal) : Outcome CVal := do
  let ushamt ← leftAmount T shamt
  let s ← shl (cast T.wide vs1) ushamt
  .ok (cast T.wide s)

/-- Value of `shift` in the signed branch for a non-zero `vs1`, coralnpu_vector_instructions.cc 742-760. -/
def shiftS (round : Bool) (T : CTy) (vs1 shamt : CVal) : Outcome CVal :=
  let kMax : Int := (T.size : Int) * 8
  if lt vs1 (lit 0) && ge shamt (lit kMax) then
    .ok (cast T.wide (lit (-1 + if round then 1 else 0)))
  else if gt vs1 (lit 0) && ge shamt (lit kMax) then .ok (cast T.wide (lit 0))
  else if gt shamt (lit 0) then shiftRightW round T.wide ⟨.i64, 1⟩ vs1 shamt
  else shiftLeftS T vs1 shamt

/-- Value of `shift` in the unsigned branch for a non-zero `vs1`, coralnpu_vector_instructions.cc 777-788. -/
def shiftU (round : Bool) (T : CTy) (vs1 shamt : CVal) : Outcome CVal :=
  let kMax : Int := (T.size : Int) * 8
  if gt shamt (lit kMax) then .ok (cast T.wide (lit 0))
  else if gt shamt (lit 0) then shiftRightW round T.wide ⟨.u64, 1⟩ vs1 shamt
  else shiftLeftU T vs1 shamt

/-- `CoralNPUVShiftHelper`, signed branch, coralnpu_vector_instructions.cc 733-768. -/
def vShiftS (round : Bool) (T : CTy) (vs1 vs2 : CVal) : Outcome CVal :=
  let kMax : Int := (T.size : Int) * 8
  let shamt := cast .i32 vs2
  if eq vs1 (lit 0) then .ok (cast T (lit 0)) else do
  let shift ← shiftS round T vs1 shamt
  let negSat := lt vs1 (lit 0) && (le shamt (lit (-kMax)) || lt shift (tmin T))
  let posSat := gt vs1 (lit 0) && (le shamt (lit (-kMax)) || gt shift (tmax T))
  if negSat then .ok (tmin T) else
  if posSat then .ok (tmax T) else
  .ok (cast T shift)

/-- `CoralNPUVShiftHelper`, unsigned branch, coralnpu_vector_instructions.cc 769-794. -/
def vShiftU (round : Bool) (T : CTy) (vs1 vs2 : CVal) : Outcome CVal :=
  let kMax : Int := (T.size : Int) * 8
  let shamt := cast .i32 (cast T.toS vs2)
  if eq vs1 (lit 0) then .ok (cast T (lit 0)) else do
  let shift ← shiftU round T vs1 shamt
  let posSat := ne vs1 (lit 0) && (lt shamt (lit (-kMax)) || gt shift (tmax T))
  if posSat then .ok (tmax T) else .ok (cast T shift)

/-- `CoralNPUVShiftHelper`, coralnpu_vector_instructions.cc 733-794: dispatch on signedness. -/
def vShift (round : Bool) (T : CTy) (vs1 vs2 : CVal) : Outcome CVal :=
  if T.signed then vShiftS round T vs1 vs2 else vShiftU round T vs1 vs2

/-- `CoralNPUVNot` lambda, coralnpu_vector_instructions.cc 806-811. -/
def vNot (T : CTy) (vs : CVal) : Outcome CVal := .ok (cast T (lnot vs))

/-- `absl::countl_zero` on an unsigned value of `n` bits: number of consecutive zero bits from the
most significant end. -/
def countlZero : (n : Nat) → Nat → Nat
  | 0, _ => 0
  | n + 1, x => if x.testBit n then 0 else countlZero n x + 1

/-- `absl::countl_one`. -/
def countlOne : (n : Nat) → Nat → Nat
  | 0, _ => 0
  | n + 1, x => if x.testBit n then countlOne n x + 1 else 0

/-- `absl::popcount` on an unsigned value of `n` bits. -/
def popcount : (n : Nat) → Nat → Nat
  | 0, _ => 0
  | n + 1, x => popcount n x + if x.testBit n then 1 else 0

/-- `CoralNPUVClb` lambda, coralnpu_vector_instructions.cc 814-822 (`1u << (sizeof(T)*8-1)` is a
power of two below `2^32`, written as a value). -/
def vClb (T : CTy) (vs : CVal) : Outcome CVal :=
  let msb := land vs ⟨.u32, 2 ^ (T.size * 8 - 1)⟩
  .ok (cast T (lit (if ne msb (lit 0) then countlOne T.bits vs.v.toNat else countlZero T.bits vs.v.toNat)))

/-- `CoralNPUVClz` lambda, coralnpu_vector_instructions.cc 828-834. -/
def vClz (T : CTy) (vs : CVal) : Outcome CVal := .ok (cast T (lit (countlZero T.bits vs.v.toNat)))

/-- `CoralNPUVCpop` lambda, coralnpu_vector_instructions.cc 839-845. -/
def vCpop (T : CTy) (vs : CVal) : Outcome CVal := .ok (cast T (lit (popcount T.bits vs.v.toNat)))

/-- `CoralNPUVMv` lambda, coralnpu_vector_instructions.cc 850-854. -/
def vMv (_T : CTy) (vs : CVal) : Outcome CVal := .ok vs

/-- Lambda `[](T vs1, T vs2) -> T { return vs1; }` of VMvp, VSlide*, VEvn, VOdd, VEvnodd, VZip. -/
def vFst (vs1 _vs2 : CVal) : Outcome CVal := .ok vs1

/-- `CoralNPUVSransHelper`, coralnpu_vector_instructions.cc 880-899. -/
def vSrans (round : Bool) (Td Ts : CTy) (vs1 vs2 : CVal) : Outcome CVal := do
  let srcBits : Int := (Ts.size : Int) * 8
  let vs2 := cast Td (land vs2 (lit (srcBits - 1)))
  let res ← shiftRightW (ne vs2 (lit 0) && round) Ts.wide ⟨.i64, 1⟩ vs1 vs2
  if lt res (tmin Td) then .ok (tmin Td) else
  if gt res (tmax Td) then .ok (tmax Td) else
  if eq vs1 (lit 0) then .ok (cast Td (lit 0)) else
  .ok (cast Td res)

/-- `CoralNPUVMul` lambda, coralnpu_vector_instructions.cc 918-927. -/
def vMul (T : CTy) (vs1 vs2 : CVal) : Outcome CVal := do
  let p ← mul (cast T.wide vs1) (cast T.wide vs2)
  .ok (cast T p)

/-- `CoralNPUVMuls` lambda, coralnpu_vector_instructions.cc 933-951; `std::min`/`std::max` on `WT`. -/
def vMuls (T : CTy) (vs1 vs2 : CVal) : Outcome CVal := do
  let p ← mul (cast T.wide vs1) (cast T.wide vs2)
  let result := cast T.wide p
  let mx := cast T.wide (tmax T)
  let mn := cast T.wide (tmin T)
  let capped := if lt result mx then result else mx
  if T.signed then
    .ok (cast T (if lt mn capped then capped else mn))
  else .ok (cast T capped)

/-- `CoralNPUVMulw` lambda, coralnpu_vector_instructions.cc 960-967. -/
def vMulw (Td : CTy) (vs1 vs2 : CVal) : Outcome CVal := do
  let p ← mul (cast Td vs1) (cast Td vs2)
  .ok (cast Td p)

/-- `round ? static_cast<WT>(1ll << (n - 1)) : 0`, coralnpu_vector_instructions.cc 981. -/
def mulhRound (round : Bool) (T : CTy) : Outcome CVal :=
  if round then do
    let o ← shl ⟨.i64, 1⟩ (lit ((T.size : Int) * 8 - 1))
    .ok (cast T.wide o)
  else .ok (cast T.wide (lit 0))

/-- `CoralNPUVMulhHelper`, coralnpu_vector_instructions.cc 975-984.  The compound assignment
`result += …` computes in the usual type and converts back to `WT`. -/
def vMulh (round : Bool) (T : CTy) (vs1 vs2 : CVal) : Outcome CVal := do
  let p ← mul (cast T.wide vs1) (cast T.wide vs2)
  let result := cast T.wide p
  let r ← mulhRound round T
  let s ← add result r
  let result := cast T.wide s
  let h ← shr result (lit ((T.size : Int) * 8))
  .ok (cast T h)

/-- The rounding step of `CoralNPUVDmulhHelper`, coralnpu_vector_instructions.cc 1005-1011. -/
def dmulhRound (round roundNeg : Bool) (T : CTy) (result : CVal) : Outcome CVal :=
  if round then do
    let rnd ← shr ⟨.i64, if lt result (lit 0) && roundNeg then -0x40000000 else 0x40000000⟩
      (lit (32 - (T.size : Int) * 8))
    let s ← add result (cast T.wide rnd)
    .ok (cast T.wide s)
  else .ok result

/-- `CoralNPUVDmulhHelper`, coralnpu_vector_instructions.cc 1000-1018. -/
def vDmulh (round roundNeg : Bool) (T : CTy) (vs1 vs2 : CVal) : Outcome CVal := do
  let p ← mul (cast T.wide vs1) (cast T.wide vs2)
  let result ← dmulhRound round roundNeg T (cast T.wide p)
  let h ← shr result (lit ((T.size : Int) * 8 - 1))
  .ok (cast T (if eq vs1 (tmin T) && eq vs2 (tmin T) then cast T.wide (tmax T) else cast T.wide h))

/-- `CoralNPUVMacc` lambda, coralnpu_vector_instructions.cc 1033-1044. -/
def vMacc (T : CTy) (vd vs1 vs2 : CVal) : Outcome CVal := do
  let p ← mul (cast T.wide vs1) (cast T.wide vs2)
  let s ← add (cast T.wide vd) p
  .ok (cast T s)

/-- `CoralNPUVMadd` lambda, coralnpu_vector_instructions.cc 1049-1060. -/
def vMadd (T : CTy) (vd vs1 vs2 : CVal) : Outcome CVal := do
  let p ← mul (cast T.wide vd) (cast T.wide vs2)
  let s ← add (cast T.wide vs1) p
  .ok (cast T s)

/-- `CoralNPUVSel` lambda, coralnpu_vector_instructions.cc 1212-1222. -/
def vSel (_T : CTy) (vd vs1 vs2 : CVal) : Outcome CVal :=
  .ok (if ne (land vs1 (lit 1)) (lit 0) then vd else vs2)

end Verif.Model
