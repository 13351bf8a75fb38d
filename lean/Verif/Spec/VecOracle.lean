import Verif.Base.CInt

/-!
# The element oracles of the repository's vector instruction test

`/repo/sim/test/coralnpu_vector_instructions_test.cc` computes the expected value of every destination
element with its own C++ functions (`struct V…Op { static Vd Op(…) }`).  They are transcribed here,
expression by expression, in the integer semantics of `Verif.Base.CInt`; nothing is taken from the
model of the implementation.  `Vd` is the destination type, `Vs1`/`Vs2` the types carried by the
operand values.  `return e;` converts `e` to `Vd`.
-/

namespace Verif.Spec.Oracle
open Verif CVal

/-- `static_cast<int64_t>(x)`. -/
def ext (x : CVal) : CVal := cast .i64 x
/-- `static_cast<uint64_t>(x)`. -/
def uext (x : CVal) : CVal := cast .u64 x

/-- `std::min<W>(a, b)` and `std::max<W>(a, b)` on values already of type `W`. -/
def cmin (a b : CVal) : CVal := if lt b a then b else a
def cmax (a b : CVal) : CVal := if lt a b then b else a

/-- `VAddOp`, `VSubOp`, `VRSubOp` (test.cc 282-291, 298-307, 314-323). -/
def add (Vd : CTy) (vs1 vs2 : CVal) : Outcome CVal := do
  let s ← CVal.add (ext vs1) (ext vs2)
  .ok (cast Vd s)
def sub (Vd : CTy) (vs1 vs2 : CVal) : Outcome CVal := do
  let s ← CVal.sub (ext vs1) (ext vs2)
  .ok (cast Vd s)
def rsub (Vd : CTy) (vs1 vs2 : CVal) : Outcome CVal := do
  let s ← CVal.sub (ext vs2) (ext vs1)
  .ok (cast Vd s)

/-- `VEqOp` … `VGeOp` (test.cc 330-410): a `bool` converted to `Vd`. -/
def eq (Vd : CTy) (vs1 vs2 : CVal) : Outcome CVal := .ok (ofBool Vd (CVal.eq vs1 vs2))
def ne (Vd : CTy) (vs1 vs2 : CVal) : Outcome CVal := .ok (ofBool Vd (CVal.ne vs1 vs2))
def lt (Vd : CTy) (vs1 vs2 : CVal) : Outcome CVal := .ok (ofBool Vd (CVal.lt vs1 vs2))
def le (Vd : CTy) (vs1 vs2 : CVal) : Outcome CVal := .ok (ofBool Vd (CVal.le vs1 vs2))
def gt (Vd : CTy) (vs1 vs2 : CVal) : Outcome CVal := .ok (ofBool Vd (CVal.gt vs1 vs2))
def ge (Vd : CTy) (vs1 vs2 : CVal) : Outcome CVal := .ok (ofBool Vd (CVal.ge vs1 vs2))

/-- `VAbsdOp` (test.cc 422-432). -/
def absd (Vd : CTy) (vs1 vs2 : CVal) : Outcome CVal := do
  let r ← if CVal.gt (ext vs1) (ext vs2) then CVal.sub (ext vs1) (ext vs2) else CVal.sub (ext vs2) (ext vs1)
  .ok (cast Vd r)

/-- `VMaxOp`, `VMinOp` (test.cc 446-468). -/
def max (Vd : CTy) (vs1 vs2 : CVal) : Outcome CVal := .ok (cast Vd (cmax vs1 vs2))
def min (Vd : CTy) (vs1 vs2 : CVal) : Outcome CVal := .ok (cast Vd (cmin vs1 vs2))

/-- `VAdd3Op` (test.cc 480-490). -/
def add3 (Vd : CTy) (vd vs1 vs2 : CVal) : Outcome CVal := do
  let s ← CVal.add (ext vd) (ext vs1)
  let s ← CVal.add s (ext vs2)
  .ok (cast Vd s)

/-- `VAddsOp`, `VSubsOp` (test.cc 497-509, 533-545): the 64-bit sum clamped with `std::max<int64_t>` and `std::min<int64_t>`. -/
def clampS (Vd : CTy) (x : CVal) : CVal := cast Vd (cmin (cmax (cast .i64 (tmin Vd)) x) (cast .i64 (tmax Vd)))
def adds (Vd : CTy) (vs1 vs2 : CVal) : Outcome CVal := do
  let s ← CVal.add (ext vs1) (ext vs2)
  .ok (clampS Vd s)
def subs (Vd : CTy) (vs1 vs2 : CVal) : Outcome CVal := do
  let s ← CVal.sub (ext vs1) (ext vs2)
  .ok (clampS Vd s)

/-- `VAddsuOp` (test.cc 517-525). -/
def addsu (Vd : CTy) (vs1 vs2 : CVal) : Outcome CVal := do
  let s ← CVal.add (uext vs1) (uext vs2)
  .ok (cast Vd (cmin (cast .u64 (tmax Vd)) s))

/-- `VSubsuOp` (test.cc 553-558): `vs1 < vs2 ? 0 : vs1 - vs2`. -/
def subsu (Vd : CTy) (vs1 vs2 : CVal) : Outcome CVal :=
  if CVal.lt vs1 vs2 then .ok (cast Vd (lit 0)) else do
    let d ← CVal.sub vs1 vs2
    .ok (cast Vd d)

/-- `VAddwOp`, `VPaddOp`; `VSubwOp`, `VPsubOp`; `VMulwOp` (test.cc 566-594, 647-675, 1247-1254). -/
def addw (Vd : CTy) (vs1 vs2 : CVal) : Outcome CVal := do
  let s ← CVal.add (cast Vd vs1) (cast Vd vs2)
  .ok (cast Vd s)
def subw (Vd : CTy) (vs1 vs2 : CVal) : Outcome CVal := do
  let s ← CVal.sub (cast Vd vs1) (cast Vd vs2)
  .ok (cast Vd s)
def mulw (Vd : CTy) (vs1 vs2 : CVal) : Outcome CVal := do
  let s ← CVal.mul (cast Vd vs1) (cast Vd vs2)
  .ok (cast Vd s)

/-- `VAccOp` (test.cc 608-617). -/
def acc (Vd : CTy) (vs1 vs2 : CVal) : Outcome CVal := do
  let s ← CVal.add (ext vs1) (ext vs2)
  .ok (cast Vd s)

/-- `VHaddOp` (`round = false`) and `VHaddrOp` (`round = true`, with `+ 1`), test.cc 689-727. -/
def plusOne (round : Bool) (s : CVal) : Outcome CVal := if round then CVal.add s (lit 1) else .ok s
def hadd (round : Bool) (Vd : CTy) (vs1 vs2 : CVal) : Outcome CVal :=
  if Vd.signed then do
    let s ← CVal.add (ext vs1) (ext vs2)
    let s ← plusOne round s
    let h ← shr s (lit 1)
    .ok (cast Vd h)
  else do
    let s ← CVal.add (uext vs1) (uext vs2)
    let s ← plusOne round s
    let h ← shr s (lit 1)
    .ok (cast Vd h)
/-- `VHsubOp` and `VHsubrOp` (test.cc 739-777). -/
def hsub (round : Bool) (Vd : CTy) (vs1 vs2 : CVal) : Outcome CVal :=
  if Vd.signed then do
    let s ← CVal.sub (ext vs1) (ext vs2)
    let s ← plusOne round s
    let h ← shr s (lit 1)
    .ok (cast Vd h)
  else do
    let s ← CVal.sub (uext vs1) (uext vs2)
    let s ← plusOne round s
    let h ← shr s (lit 1)
    .ok (cast Vd h)

/-- `VAndOp`, `VOrOp`, `VXorOp` (test.cc 789-820). -/
def and (Vd : CTy) (vs1 vs2 : CVal) : Outcome CVal := .ok (cast Vd (land vs1 vs2))
def or (Vd : CTy) (vs1 vs2 : CVal) : Outcome CVal := .ok (cast Vd (lor vs1 vs2))
def xor (Vd : CTy) (vs1 vs2 : CVal) : Outcome CVal := .ok (cast Vd (lxor vs1 vs2))

/-- `vs2 & (sizeof(Vd) * 8 - 1)`; the mask is a `size_t`. -/
def amount (Vd : CTy) (vs2 : CVal) : CVal := land vs2 ⟨.u64, (Vd.size : Int) * 8 - 1⟩
/-- `VSllOp`; `VSrlOp` and `VSraOp` (test.cc 828-859). -/
def sll (Vd : CTy) (vs1 vs2 : CVal) : Outcome CVal := do
  let r ← shl vs1 (amount Vd vs2)
  .ok (cast Vd r)
def srx (Vd : CTy) (vs1 vs2 : CVal) : Outcome CVal := do
  let r ← shr vs1 (amount Vd vs2)
  .ok (cast Vd r)

/-- One statement `if (count & n) r = ((r & m1) << n) | ((r & m2) >> n);` of `VRevOp`; the masks with
the top bit set are `unsigned int` literals. -/
def revIf (Vs1 : CTy) (count : CVal) (n : Int) (m1 m2 : CVal) (r : CVal) : Outcome CVal :=
  if CVal.ne (land count (lit n)) (lit 0) then do
    let a ← shl (land r m1) (lit n)
    let b ← shr (land r m2) (lit n)
    .ok (cast Vs1 (lor a b))
  else .ok r
/-- `VRevOp` (test.cc 867-883). -/
def rev (Vd : CTy) (vs1 vs2 : CVal) : Outcome CVal := do
  let count := cast vs2.ty (land vs2 (lit 0b11111))
  let r ← revIf vs1.ty count 1 (lit 0x55555555) ⟨.u32, 0xAAAAAAAA⟩ vs1
  let r ← revIf vs1.ty count 2 (lit 0x33333333) ⟨.u32, 0xCCCCCCCC⟩ r
  let r ← revIf vs1.ty count 4 (lit 0x0F0F0F0F) ⟨.u32, 0xF0F0F0F0⟩ r
  if vs1.ty.size = 1 then .ok (cast Vd r) else do
  let r ← revIf vs1.ty count 8 (lit 0x00FF00FF) ⟨.u32, 0xFF00FF00⟩ r
  if vs1.ty.size = 2 then .ok (cast Vd r) else do
  let r ← revIf vs1.ty count 16 (lit 0x0000FFFF) ⟨.u32, 0xFFFF0000⟩ r
  .ok (cast Vd r)

/-- `VRorOp` (test.cc 893-905). -/
def ror (Vd : CTy) (vs1 vs2 : CVal) : Outcome CVal := do
  let count := cast Vd (land vs2 (cast Vd ⟨.u64, (Vd.size : Int) * 8 - 1⟩))
  let r ← [1, 2, 4, 8, 16].foldlM (fun r (s : Int) =>
    if CVal.ne (land count (lit s)) (lit 0) then do
      let a ← shr r (lit s)
      let b ← shl r ⟨.u64, (Vd.size : Int) * 8 - s⟩
      .ok (cast vs1.ty (lor a b))
    else .ok r) vs1
  .ok (cast Vd r)

/-- `cond ? (1 << (shamt - 1)) : 0` with the `1` of type `W` (`1ll` or `1ull`). -/
def roundInc (cond : Bool) (W : CTy) (shamt : CVal) : Outcome CVal :=
  if cond then (do
    let n ← CVal.sub shamt (lit 1)
    shl ⟨W, 1⟩ n) else .ok (cast W (lit 0))
/-- The signed branch of `VShiftOp`: the value of `shift`, test.cc 968-990. -/
def shiftValS (round : Bool) (Vd : CTy) (vs1 shamt : CVal) : Outcome CVal :=
  let kMax : Int := (Vd.size : Int) * 8
  if CVal.lt vs1 (lit 0) && CVal.ge shamt (lit kMax) then
    .ok (cast .i64 (lit (-1 + if round then 1 else 0)))
  else if CVal.gt vs1 (lit 0) && CVal.ge shamt (lit kMax) then .ok (cast .i64 (lit 0))
  else if CVal.gt shamt (lit 0) then do
    let inc ← roundInc round .i64 shamt
    let s ← CVal.add (ext vs1) inc
    shr s shamt
  else do
    let n ← neg shamt
    let u := cast .u32 (if CVal.le n (lit kMax) then n else lit kMax)
    let s ← shl (uext vs1) u
    .ok (cast .i64 s)
/-- The signed branch of `VShiftOp` (test.cc 967-995). -/
def shiftS (round : Bool) (Vd : CTy) (vs1 shamt : CVal) : Outcome CVal :=
  let kMax : Int := (Vd.size : Int) * 8
  if CVal.eq vs1 (lit 0) then .ok (cast Vd (lit 0)) else do
  let shift ← shiftValS round Vd vs1 shamt
  -- `int64_t neg_max = (-1ull) << (kMaxShiftBit - 1);`
  let nm ← shl ⟨.u64, 2 ^ 64 - 1⟩ (lit (kMax - 1))
  let negMax := cast .i64 nm
  let p ← shl ⟨.i64, 1⟩ (lit (kMax - 1))
  let posMax ← CVal.sub p (lit 1)
  if CVal.lt vs1 (lit 0) && (CVal.le shamt (lit (-kMax)) || CVal.lt shift negMax) then .ok (cast Vd negMax) else
  if CVal.gt vs1 (lit 0) && (CVal.le shamt (lit (-kMax)) || CVal.gt shift posMax) then .ok (cast Vd posMax) else
  .ok (cast Vd shift)
/-- The unsigned branch of `VShiftOp`: the value of `shift`. -/
def shiftValU (round : Bool) (Vd : CTy) (vs1 shamt : CVal) : Outcome CVal :=
  let kMax : Int := (Vd.size : Int) * 8
  if CVal.gt shamt (lit kMax) then .ok (cast .u64 (lit 0))
  else if CVal.gt shamt (lit 0) then do
    let inc ← roundInc round .u64 shamt
    let s ← CVal.add (uext vs1) inc
    shr s shamt
  else do
    let n ← neg shamt
    let u := cast Vd.toU (if CVal.le n (lit kMax) then n else lit kMax)
    shl (uext vs1) u
/-- The unsigned branch of `VShiftOp` (test.cc 997-1022). -/
def shiftU (round : Bool) (Vd : CTy) (vs1 shamt : CVal) : Outcome CVal :=
  let kMax : Int := (Vd.size : Int) * 8
  if CVal.eq vs1 (lit 0) then .ok (cast Vd (lit 0)) else do
  let shift ← shiftValU round Vd vs1 shamt
  let lim ← shl ⟨.u64, 1⟩ (lit kMax)
  let posMax ← CVal.sub lim (lit 1)
  if CVal.ne vs1 (lit 0) && (CVal.lt shamt (lit (-kMax)) || CVal.ge shift lim) then .ok (cast Vd posMax) else
  .ok (cast Vd shift)
/-- `VShiftOp` (test.cc 965-1029): `shamt` is `vs2` read as a signed number of the width of `Vd`. -/
def shift (round : Bool) (Vd : CTy) (vs1 vs2 : CVal) : Outcome CVal :=
  let shamt := cast .i32 (cast Vd.toS vs2)
  if Vd.signed then shiftS round Vd vs1 shamt else shiftU round Vd vs1 shamt

/-- `VNotOp` (test.cc 1038-1043). -/
def not (Vd : CTy) (vs : CVal) : Outcome CVal := .ok (cast Vd (lnot vs))

/-- `for (count = 0; count < n; count++) if ((vs << count) >> (n - 1)) return count;  return n;` from
`count` on, `k` iterations left. -/
def leadLoop (Vd : CTy) (n : Int) (vs : CVal) : Nat → Int → Outcome CVal
  | 0, _ => .ok (cast Vd (lit n))
  | k + 1, count => do
    let a ← shl vs (lit count)
    let b ← shr a (lit (n - 1))
    if CVal.ne b (lit 0) then .ok (cast Vd (lit count)) else leadLoop Vd n vs k (count + 1)
/-- `VClzOp` (test.cc 1076-1089). -/
def clz (Vd : CTy) (vs : CVal) : Outcome CVal := leadLoop Vd ((vs.ty.size : Int) * 8) vs (vs.ty.size * 8) 0
/-- `VClbOp` (test.cc 1051-1067). -/
def clb (Vd : CTy) (vs : CVal) : Outcome CVal := do
  let m ← shl ⟨.u32, 1⟩ (lit ((vs.ty.size : Int) * 8 - 1))
  clz Vd (if CVal.ne (land vs m) (lit 0) then cast vs.ty (lnot vs) else vs)

/-- `VCpopOp` (test.cc 1098-1103): `absl::popcount`, the number of one bits. -/
def cpop (Vd : CTy) (vs : CVal) : Outcome CVal :=
  .ok (cast Vd (lit ((List.range vs.ty.bits).countP fun i => vs.v.toNat.testBit i : Nat)))
/-- `VMvOp` (test.cc 1112-1117). -/
def mv (Vd : CTy) (vs : CVal) : Outcome CVal := .ok (cast Vd vs)

/-- `VSransOp` (`round = false`), `VSransrOp` (`round = true`), test.cc 1126-1178. -/
def sransVal (round : Bool) (vs1 vs2 : CVal) : Outcome CVal :=
  if round then do
    let inc ← roundInc (CVal.ne vs2 (lit 0)) .i64 vs2
    let s ← CVal.add (ext vs1) inc
    shr s vs2
  else shr (ext vs1) vs2
def srans (round : Bool) (Vd : CTy) (vs1 vs2 : CVal) : Outcome CVal := do
  let vs2 := cast vs2.ty (land vs2 (lit ((vs1.ty.size : Int) * 8 - 1)))
  let res ← sransVal round vs1 vs2
  if CVal.lt res (tmin Vd) then .ok (tmin Vd) else
  if CVal.gt res (tmax Vd) then .ok (tmax Vd) else
  if CVal.eq vs1 (lit 0) then .ok (cast Vd (lit 0)) else
  .ok (cast Vd res)

/-- `VMulOp` (test.cc 1198-1211). -/
def mul (Vd : CTy) (vs1 vs2 : CVal) : Outcome CVal :=
  if Vd.signed then do
    let p ← CVal.mul (ext vs1) (ext vs2)
    .ok (cast Vd p)
  else do
    let p ← CVal.mul (uext vs1) (uext vs2)
    .ok (cast Vd p)

/-- `VMulsOp` (test.cc 1218-1235). -/
def muls (Vd : CTy) (vs1 vs2 : CVal) : Outcome CVal :=
  if Vd.signed then do
    let m ← CVal.mul (ext vs1) (ext vs2)
    .ok (cast Vd (cmax (cast .i64 (tmin Vd)) (cmin (cast .i64 (tmax Vd)) m)))
  else do
    let m ← CVal.mul (uext vs1) (uext vs2)
    .ok (cast Vd (cmin (cast .u64 (tmax Vd)) m))

/-- `VMulhOp` (`round = false`), `VMulhrOp` (`round = true`, with `+ (1 << (n - 1))`), test.cc 1268-1311. -/
def addHalf (round : Bool) (W : CTy) (n : Int) (p : CVal) : Outcome CVal :=
  if round then do
    let o ← shl ⟨W, 1⟩ (lit (n - 1))
    CVal.add p o
  else .ok p
def mulh (round : Bool) (Vd : CTy) (vs1 vs2 : CVal) : Outcome CVal :=
  let n : Int := (Vd.size : Int) * 8
  if vs1.ty.signed then do
    let p ← CVal.mul (ext vs1) (ext vs2)
    let p ← addHalf round .i64 n p
    let h ← shr (cast .u64 p) (lit n)
    .ok (cast Vd h)
  else do
    let p ← CVal.mul (uext vs1) (uext vs2)
    let p ← addHalf round .u64 n p
    let h ← shr p (lit n)
    .ok (cast Vd h)

/-- `CoralNPUVDmulhHelper` of the test and its users (test.cc 1323-1375). -/
def dmulhAdd (round roundNeg : Bool) (n : Int) (p : CVal) : Outcome CVal :=
  if round then do
    let rnd ← shr ⟨.i64, if CVal.lt p (lit 0) && roundNeg then -0x40000000 else 0x40000000⟩ (lit (32 - n))
    CVal.add p rnd
  else .ok p
def dmulh (round roundNeg : Bool) (Vd : CTy) (vs1 vs2 : CVal) : Outcome CVal := do
  let n : Int := (Vd.size : Int) * 8
  let p ← CVal.mul (ext vs1) (ext vs2)
  let p ← dmulhAdd round roundNeg n p
  let r ← shr p (lit (n - 1))
  .ok (cast Vd (if CVal.eq vs1 (tmin Vd) && CVal.eq vs2 (tmin Vd) then cast .i64 (tmax Vd) else r))

/-- `VMaccOp`, `VMaddOp`, `VSelOp` (test.cc 1391-1415, 1571-1576). -/
def macc (Vd : CTy) (vd vs1 vs2 : CVal) : Outcome CVal := do
  let p ← CVal.mul (ext vs1) (ext vs2)
  let s ← CVal.add (ext vd) p
  .ok (cast Vd s)
def madd (Vd : CTy) (vd vs1 vs2 : CVal) : Outcome CVal := do
  let p ← CVal.mul (ext vd) (ext vs2)
  let s ← CVal.add (ext vs1) p
  .ok (cast Vd s)
def sel (Vd : CTy) (vd vs1 vs2 : CVal) : Outcome CVal :=
  .ok (cast Vd (if CVal.ne (land vs1 (lit 1)) (lit 0) then vd else vs2))

/-- `VMvpOp`, the slides, `VEvnOp`, `VEvnoddOp`, `VZipOp` (`return vs1;`) and `VOddOp` (`return vs2;`), test.cc
915-920, 1463-1483, 1537-1557, 1607-1637, 1665-1671. -/
def first (Vd : CTy) (vs1 _vs2 : CVal) : Outcome CVal := .ok (cast Vd vs1)
def second (Vd : CTy) (_vs1 vs2 : CVal) : Outcome CVal := .ok (cast Vd vs2)

end Verif.Spec.Oracle
