import Verif.Base.Outcome

/-!
# A small semantics of C++ integer expressions

Modelling device (the C++ standard, not `/repo`): fixed-width integer types, integer promotion, the
usual arithmetic conversions, wrapping unsigned arithmetic, undefined signed overflow, undefined
out-of-range shifts.  Conversions to a signed type wrap (C++20; implementation-defined with the
same result on every supported compiler before).  A left shift of a signed value is `ub` unless the
value is non-negative and the result is representable in the corresponding unsigned type
(C++14/17 [expr.shift]/2; the repository builds with -std=c++17).
-/

namespace Verif

/-- The fixed-width integer types used by the simulator. -/
inductive CTy where
  | i8 | i16 | i32 | i64 | u8 | u16 | u32 | u64
deriving DecidableEq, Repr

namespace CTy

@[cint] def bits : CTy → Nat
  | i8 => 8 | i16 => 16 | i32 => 32 | i64 => 64
  | u8 => 8 | u16 => 16 | u32 => 32 | u64 => 64

@[cint] def signed : CTy → Bool
  | i8 => true | i16 => true | i32 => true | i64 => true
  | u8 => false | u16 => false | u32 => false | u64 => false

/-- `sizeof(T)`. -/
@[cint] def size : CTy → Nat
  | i8 => 1 | i16 => 2 | i32 => 4 | i64 => 8
  | u8 => 1 | u16 => 2 | u32 => 4 | u64 => 8

/-- `std::numeric_limits<T>::min()`. -/
@[cint] def lo (t : CTy) : Int := if t.signed then -(2 ^ (t.bits - 1) : Int) else 0
/-- `std::numeric_limits<T>::max()`. -/
@[cint] def hi (t : CTy) : Int :=
  if t.signed then (2 ^ (t.bits - 1) : Int) - 1 else (2 ^ t.bits : Int) - 1

@[cint] def InRange (t : CTy) (x : Int) : Prop := t.lo ≤ x ∧ x ≤ t.hi

instance (t : CTy) (x : Int) : Decidable (t.InRange x) := inferInstanceAs (Decidable (_ ∧ _))

/-- Conversion of an integer value to type `t`. -/
@[cint] def wrap (t : CTy) (x : Int) : Int :=
  if t.signed then (x + 2 ^ (t.bits - 1)) % 2 ^ t.bits - 2 ^ (t.bits - 1) else x % 2 ^ t.bits

/-- `std::make_unsigned<T>::type`. -/
@[cint] def toU : CTy → CTy
  | i8 => u8 | i16 => u16 | i32 => u32 | i64 => u64
  | u8 => u8 | u16 => u16 | u32 => u32 | u64 => u64

/-- `std::make_signed<T>::type`. -/
@[cint] def toS : CTy → CTy
  | i8 => i8 | i16 => i16 | i32 => i32 | i64 => i64
  | u8 => i8 | u16 => i16 | u32 => i32 | u64 => i64

/-- `mpact::sim::generic::WideType<T>::type` (64-bit types are not widened by any modelled code). -/
@[cint] def wide : CTy → CTy
  | i8 => i16 | i16 => i32 | i32 => i64 | i64 => i64
  | u8 => u16 | u16 => u32 | u32 => u64 | u64 => u64

/-- Integer promotion. -/
@[cint] def promote : CTy → CTy
  | i8 => i32 | i16 => i32 | i32 => i32 | i64 => i64
  | u8 => i32 | u16 => i32 | u32 => u32 | u64 => u64

/-- Usual arithmetic conversions. -/
@[cint] def usual (a b : CTy) : CTy :=
  match a.promote, b.promote with
  | u64, _ => u64
  | _, u64 => u64
  | i64, _ => i64
  | _, i64 => i64
  | u32, _ => u32
  | _, u32 => u32
  | _, _ => i32

end CTy

/-- A typed C++ value. -/
structure CVal where
  ty : CTy
  v : Int
deriving DecidableEq, Repr

namespace CVal

/-- An `int` literal. -/
@[cint] def lit (x : Int) : CVal := ⟨.i32, x⟩

/-- `static_cast<T>(a)`. -/
@[cint] def cast (t : CTy) (a : CVal) : CVal := ⟨t, t.wrap a.v⟩

/-- Result of an arithmetic operator computed in type `t`. -/
@[cint] def arith (t : CTy) (x : Int) : Outcome CVal :=
  if t.signed then (if t.lo ≤ x ∧ x ≤ t.hi then .ok ⟨t, x⟩ else .ub) else .ok ⟨t, t.wrap x⟩

@[cint] def add (a b : CVal) : Outcome CVal :=
  arith (CTy.usual a.ty b.ty) ((CTy.usual a.ty b.ty).wrap a.v + (CTy.usual a.ty b.ty).wrap b.v)
@[cint] def sub (a b : CVal) : Outcome CVal :=
  arith (CTy.usual a.ty b.ty) ((CTy.usual a.ty b.ty).wrap a.v - (CTy.usual a.ty b.ty).wrap b.v)
@[cint] def mul (a b : CVal) : Outcome CVal :=
  arith (CTy.usual a.ty b.ty) ((CTy.usual a.ty b.ty).wrap a.v * (CTy.usual a.ty b.ty).wrap b.v)
@[cint] def neg (a : CVal) : Outcome CVal := arith a.ty.promote (-a.v)

/-- `a << n`. -/
@[cint] def shl (a n : CVal) : Outcome CVal :=
  if 0 ≤ n.v ∧ n.v < (a.ty.promote.bits : Int) then
    if a.ty.promote.signed then
      (if 0 ≤ a.v ∧ a.v * 2 ^ n.v.toNat < 2 ^ a.ty.promote.bits then
        .ok ⟨a.ty.promote, a.ty.promote.wrap (a.v * 2 ^ n.v.toNat)⟩ else .ub)
    else .ok ⟨a.ty.promote, a.ty.promote.wrap (a.v * 2 ^ n.v.toNat)⟩
  else .ub

/-- `a >> n` (arithmetic for signed types). -/
@[cint] def shr (a n : CVal) : Outcome CVal :=
  if 0 ≤ n.v ∧ n.v < (a.ty.promote.bits : Int) then .ok ⟨a.ty.promote, a.v / 2 ^ n.v.toNat⟩ else .ub

/-- Value of a bit pattern read at type `t`. -/
def ofBits (t : CTy) (x : BitVec n) : CVal := ⟨t, t.wrap x.toNat⟩

/-- Bitwise operators computed in type `t`. -/
def land' (t : CTy) (x y : Int) : CVal := ofBits t (BitVec.ofInt t.bits x &&& BitVec.ofInt t.bits y)
def lor' (t : CTy) (x y : Int) : CVal := ofBits t (BitVec.ofInt t.bits x ||| BitVec.ofInt t.bits y)
def lxor' (t : CTy) (x y : Int) : CVal := ofBits t (BitVec.ofInt t.bits x ^^^ BitVec.ofInt t.bits y)
def lnot' (t : CTy) (x : Int) : CVal := ofBits t (~~~ BitVec.ofInt t.bits x)

def land (a b : CVal) : CVal := land' (CTy.usual a.ty b.ty) a.v b.v
def lor (a b : CVal) : CVal := lor' (CTy.usual a.ty b.ty) a.v b.v
def lxor (a b : CVal) : CVal := lxor' (CTy.usual a.ty b.ty) a.v b.v
def lnot (a : CVal) : CVal := lnot' a.ty.promote a.v

@[cint] def lt (a b : CVal) : Bool :=
  decide ((CTy.usual a.ty b.ty).wrap a.v < (CTy.usual a.ty b.ty).wrap b.v)
@[cint] def le (a b : CVal) : Bool :=
  decide ((CTy.usual a.ty b.ty).wrap a.v ≤ (CTy.usual a.ty b.ty).wrap b.v)
@[cint] def eq (a b : CVal) : Bool :=
  decide ((CTy.usual a.ty b.ty).wrap a.v = (CTy.usual a.ty b.ty).wrap b.v)
@[cint] def gt (a b : CVal) : Bool := lt b a
@[cint] def ge (a b : CVal) : Bool := le b a
@[cint] def ne (a b : CVal) : Bool := !(eq a b)

/-- `bool` converted to an integer type. -/
@[cint] def ofBool (t : CTy) (b : Bool) : CVal := ⟨t, if b then 1 else 0⟩

/-- `std::numeric_limits<T>::min()/max()`. -/
@[cint] def tmin (t : CTy) : CVal := ⟨t, t.lo⟩
@[cint] def tmax (t : CTy) : CVal := ⟨t, t.hi⟩

end CVal
end Verif
