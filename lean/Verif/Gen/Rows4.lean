import Verif.Model.Isa

/-! Generated by tools/gen_rows.py from the instruction group `CoralNPUVectorMulInst` of
/repo/sim/coralnpu_mul.bin_fmt and the opcodes of the `.isa` files. -/

namespace Verif.Model.Gen

def g4_0 : List Row := [
  ⟨[.vmul, .b, .vv], [.vmul, .b, .vv], 4, [⟨26, 6, 0⟩, ⟨12, 2, 0⟩, ⟨5, 1, 0⟩, ⟨2, 3, 3⟩, ⟨0, 2, 0⟩], [], [.vs1, .vs2], [.vd], .vec (.bin .mul .i8) false false⟩,
  ⟨[.vmul, .b, .vx], [.vmul, .b, .vx], 4, [⟨26, 6, 0⟩, ⟨12, 2, 0⟩, ⟨5, 1, 0⟩, ⟨2, 3, 3⟩, ⟨0, 2, 2⟩], [], [.vs1, .vs2], [.vd], .vec (.bin .mul .i8) true false⟩,
  ⟨[.vmul, .b, .vv, .m], [.vmul, .b, .vv, .m], 4, [⟨26, 6, 0⟩, ⟨12, 2, 0⟩, ⟨5, 1, 1⟩, ⟨2, 3, 3⟩, ⟨0, 2, 0⟩], [], [.vs1, .vs2], [.vd], .vec (.bin .mul .i8) false true⟩,
  ⟨[.vmul, .b, .vx, .m], [.vmul, .b, .vx, .m], 4, [⟨26, 6, 0⟩, ⟨12, 2, 0⟩, ⟨5, 1, 1⟩, ⟨2, 3, 3⟩, ⟨0, 2, 2⟩], [], [.vs1, .vs2], [.vd], .vec (.bin .mul .i8) true true⟩,
  ⟨[.vmul, .h, .vv], [.vmul, .h, .vv], 4, [⟨26, 6, 0⟩, ⟨12, 2, 1⟩, ⟨5, 1, 0⟩, ⟨2, 3, 3⟩, ⟨0, 2, 0⟩], [], [.vs1, .vs2], [.vd], .vec (.bin .mul .i16) false false⟩,
  ⟨[.vmul, .h, .vx], [.vmul, .h, .vx], 4, [⟨26, 6, 0⟩, ⟨12, 2, 1⟩, ⟨5, 1, 0⟩, ⟨2, 3, 3⟩, ⟨0, 2, 2⟩], [], [.vs1, .vs2], [.vd], .vec (.bin .mul .i16) true false⟩,
  ⟨[.vmul, .h, .vv, .m], [.vmul, .h, .vv, .m], 4, [⟨26, 6, 0⟩, ⟨12, 2, 1⟩, ⟨5, 1, 1⟩, ⟨2, 3, 3⟩, ⟨0, 2, 0⟩], [], [.vs1, .vs2], [.vd], .vec (.bin .mul .i16) false true⟩,
  ⟨[.vmul, .h, .vx, .m], [.vmul, .h, .vx, .m], 4, [⟨26, 6, 0⟩, ⟨12, 2, 1⟩, ⟨5, 1, 1⟩, ⟨2, 3, 3⟩, ⟨0, 2, 2⟩], [], [.vs1, .vs2], [.vd], .vec (.bin .mul .i16) true true⟩,
  ⟨[.vmul, .w, .vv], [.vmul, .w, .vv], 4, [⟨26, 6, 0⟩, ⟨12, 2, 2⟩, ⟨5, 1, 0⟩, ⟨2, 3, 3⟩, ⟨0, 2, 0⟩], [], [.vs1, .vs2], [.vd], .vec (.bin .mul .i32) false false⟩,
  ⟨[.vmul, .w, .vx], [.vmul, .w, .vx], 4, [⟨26, 6, 0⟩, ⟨12, 2, 2⟩, ⟨5, 1, 0⟩, ⟨2, 3, 3⟩, ⟨0, 2, 2⟩], [], [.vs1, .vs2], [.vd], .vec (.bin .mul .i32) true false⟩,
  ⟨[.vmul, .w, .vv, .m], [.vmul, .w, .vv, .m], 4, [⟨26, 6, 0⟩, ⟨12, 2, 2⟩, ⟨5, 1, 1⟩, ⟨2, 3, 3⟩, ⟨0, 2, 0⟩], [], [.vs1, .vs2], [.vd], .vec (.bin .mul .i32) false true⟩,
  ⟨[.vmul, .w, .vx, .m], [.vmul, .w, .vx, .m], 4, [⟨26, 6, 0⟩, ⟨12, 2, 2⟩, ⟨5, 1, 1⟩, ⟨2, 3, 3⟩, ⟨0, 2, 2⟩], [], [.vs1, .vs2], [.vd], .vec (.bin .mul .i32) true true⟩,
  ⟨[.vmuls, .b, .vv], [.vmuls, .b, .vv], 4, [⟨26, 6, 2⟩, ⟨12, 2, 0⟩, ⟨5, 1, 0⟩, ⟨2, 3, 3⟩, ⟨0, 2, 0⟩], [], [.vs1, .vs2], [.vd], .vec (.bin .muls .i8) false false⟩,
  ⟨[.vmuls, .b, .vx], [.vmuls, .b, .vx], 4, [⟨26, 6, 2⟩, ⟨12, 2, 0⟩, ⟨5, 1, 0⟩, ⟨2, 3, 3⟩, ⟨0, 2, 2⟩], [], [.vs1, .vs2], [.vd], .vec (.bin .muls .i8) true false⟩,
  ⟨[.vmuls, .b, .vv, .m], [.vmuls, .b, .vv, .m], 4, [⟨26, 6, 2⟩, ⟨12, 2, 0⟩, ⟨5, 1, 1⟩, ⟨2, 3, 3⟩, ⟨0, 2, 0⟩], [], [.vs1, .vs2], [.vd], .vec (.bin .muls .i8) false true⟩,
  ⟨[.vmuls, .b, .vx, .m], [.vmuls, .b, .vx, .m], 4, [⟨26, 6, 2⟩, ⟨12, 2, 0⟩, ⟨5, 1, 1⟩, ⟨2, 3, 3⟩, ⟨0, 2, 2⟩], [], [.vs1, .vs2], [.vd], .vec (.bin .muls .i8) true true⟩,
  ⟨[.vmuls, .h, .vv], [.vmuls, .h, .vv], 4, [⟨26, 6, 2⟩, ⟨12, 2, 1⟩, ⟨5, 1, 0⟩, ⟨2, 3, 3⟩, ⟨0, 2, 0⟩], [], [.vs1, .vs2], [.vd], .vec (.bin .muls .i16) false false⟩,
  ⟨[.vmuls, .h, .vx], [.vmuls, .h, .vx], 4, [⟨26, 6, 2⟩, ⟨12, 2, 1⟩, ⟨5, 1, 0⟩, ⟨2, 3, 3⟩, ⟨0, 2, 2⟩], [], [.vs1, .vs2], [.vd], .vec (.bin .muls .i16) true false⟩,
  ⟨[.vmuls, .h, .vv, .m], [.vmuls, .h, .vv, .m], 4, [⟨26, 6, 2⟩, ⟨12, 2, 1⟩, ⟨5, 1, 1⟩, ⟨2, 3, 3⟩, ⟨0, 2, 0⟩], [], [.vs1, .vs2], [.vd], .vec (.bin .muls .i16) false true⟩,
  ⟨[.vmuls, .h, .vx, .m], [.vmuls, .h, .vx, .m], 4, [⟨26, 6, 2⟩, ⟨12, 2, 1⟩, ⟨5, 1, 1⟩, ⟨2, 3, 3⟩, ⟨0, 2, 2⟩], [], [.vs1, .vs2], [.vd], .vec (.bin .muls .i16) true true⟩,
  ⟨[.vmuls, .w, .vv], [.vmuls, .w, .vv], 4, [⟨26, 6, 2⟩, ⟨12, 2, 2⟩, ⟨5, 1, 0⟩, ⟨2, 3, 3⟩, ⟨0, 2, 0⟩], [], [.vs1, .vs2], [.vd], .vec (.bin .muls .i32) false false⟩,
  ⟨[.vmuls, .w, .vx], [.vmuls, .w, .vx], 4, [⟨26, 6, 2⟩, ⟨12, 2, 2⟩, ⟨5, 1, 0⟩, ⟨2, 3, 3⟩, ⟨0, 2, 2⟩], [], [.vs1, .vs2], [.vd], .vec (.bin .muls .i32) true false⟩,
  ⟨[.vmuls, .w, .vv, .m], [.vmuls, .w, .vv, .m], 4, [⟨26, 6, 2⟩, ⟨12, 2, 2⟩, ⟨5, 1, 1⟩, ⟨2, 3, 3⟩, ⟨0, 2, 0⟩], [], [.vs1, .vs2], [.vd], .vec (.bin .muls .i32) false true⟩,
  ⟨[.vmuls, .w, .vx, .m], [.vmuls, .w, .vx, .m], 4, [⟨26, 6, 2⟩, ⟨12, 2, 2⟩, ⟨5, 1, 1⟩, ⟨2, 3, 3⟩, ⟨0, 2, 2⟩], [], [.vs1, .vs2], [.vd], .vec (.bin .muls .i32) true true⟩,
  ⟨[.vmulsu, .b, .vv], [.vmulsu, .b, .vv], 4, [⟨26, 6, 3⟩, ⟨12, 2, 0⟩, ⟨5, 1, 0⟩, ⟨2, 3, 3⟩, ⟨0, 2, 0⟩], [], [.vs1, .vs2], [.vd], .vec (.bin .muls .u8) false false⟩,
  ⟨[.vmulsu, .b, .vx], [.vmulsu, .b, .vx], 4, [⟨26, 6, 3⟩, ⟨12, 2, 0⟩, ⟨5, 1, 0⟩, ⟨2, 3, 3⟩, ⟨0, 2, 2⟩], [], [.vs1, .vs2], [.vd], .vec (.bin .muls .u8) true false⟩,
  ⟨[.vmulsu, .b, .vv, .m], [.vmulsu, .b, .vv, .m], 4, [⟨26, 6, 3⟩, ⟨12, 2, 0⟩, ⟨5, 1, 1⟩, ⟨2, 3, 3⟩, ⟨0, 2, 0⟩], [], [.vs1, .vs2], [.vd], .vec (.bin .muls .u8) false true⟩,
  ⟨[.vmulsu, .b, .vx, .m], [.vmulsu, .b, .vx, .m], 4, [⟨26, 6, 3⟩, ⟨12, 2, 0⟩, ⟨5, 1, 1⟩, ⟨2, 3, 3⟩, ⟨0, 2, 2⟩], [], [.vs1, .vs2], [.vd], .vec (.bin .muls .u8) true true⟩,
  ⟨[.vmulsu, .h, .vv], [.vmulsu, .h, .vv], 4, [⟨26, 6, 3⟩, ⟨12, 2, 1⟩, ⟨5, 1, 0⟩, ⟨2, 3, 3⟩, ⟨0, 2, 0⟩], [], [.vs1, .vs2], [.vd], .vec (.bin .muls .u16) false false⟩,
  ⟨[.vmulsu, .h, .vx], [.vmulsu, .h, .vx], 4, [⟨26, 6, 3⟩, ⟨12, 2, 1⟩, ⟨5, 1, 0⟩, ⟨2, 3, 3⟩, ⟨0, 2, 2⟩], [], [.vs1, .vs2], [.vd], .vec (.bin .muls .u16) true false⟩,
  ⟨[.vmulsu, .h, .vv, .m], [.vmulsu, .h, .vv, .m], 4, [⟨26, 6, 3⟩, ⟨12, 2, 1⟩, ⟨5, 1, 1⟩, ⟨2, 3, 3⟩, ⟨0, 2, 0⟩], [], [.vs1, .vs2], [.vd], .vec (.bin .muls .u16) false true⟩,
  ⟨[.vmulsu, .h, .vx, .m], [.vmulsu, .h, .vx, .m], 4, [⟨26, 6, 3⟩, ⟨12, 2, 1⟩, ⟨5, 1, 1⟩, ⟨2, 3, 3⟩, ⟨0, 2, 2⟩], [], [.vs1, .vs2], [.vd], .vec (.bin .muls .u16) true true⟩,
  ⟨[.vmulsu, .w, .vv], [.vmulsu, .w, .vv], 4, [⟨26, 6, 3⟩, ⟨12, 2, 2⟩, ⟨5, 1, 0⟩, ⟨2, 3, 3⟩, ⟨0, 2, 0⟩], [], [.vs1, .vs2], [.vd], .vec (.bin .muls .u32) false false⟩,
  ⟨[.vmulsu, .w, .vx], [.vmulsu, .w, .vx], 4, [⟨26, 6, 3⟩, ⟨12, 2, 2⟩, ⟨5, 1, 0⟩, ⟨2, 3, 3⟩, ⟨0, 2, 2⟩], [], [.vs1, .vs2], [.vd], .vec (.bin .muls .u32) true false⟩,
  ⟨[.vmulsu, .w, .vv, .m], [.vmulsu, .w, .vv, .m], 4, [⟨26, 6, 3⟩, ⟨12, 2, 2⟩, ⟨5, 1, 1⟩, ⟨2, 3, 3⟩, ⟨0, 2, 0⟩], [], [.vs1, .vs2], [.vd], .vec (.bin .muls .u32) false true⟩,
  ⟨[.vmulsu, .w, .vx, .m], [.vmulsu, .w, .vx, .m], 4, [⟨26, 6, 3⟩, ⟨12, 2, 2⟩, ⟨5, 1, 1⟩, ⟨2, 3, 3⟩, ⟨0, 2, 2⟩], [], [.vs1, .vs2], [.vd], .vec (.bin .muls .u32) true true⟩,
  ⟨[.vmulw, .h, .vv], [.vmulw, .h, .vv], 4, [⟨26, 6, 4⟩, ⟨12, 2, 1⟩, ⟨5, 1, 0⟩, ⟨2, 3, 3⟩, ⟨0, 2, 0⟩], [], [.vs1, .vs2], [.vd], .vec (.wid .mulw .i16 .i8) false false⟩,
  ⟨[.vmulw, .h, .vx], [.vmulw, .h, .vx], 4, [⟨26, 6, 4⟩, ⟨12, 2, 1⟩, ⟨5, 1, 0⟩, ⟨2, 3, 3⟩, ⟨0, 2, 2⟩], [], [.vs1, .vs2], [.vd], .vec (.wid .mulw .i16 .i8) true false⟩,
  ⟨[.vmulw, .h, .vv, .m], [.vmulw, .h, .vv, .m], 4, [⟨26, 6, 4⟩, ⟨12, 2, 1⟩, ⟨5, 1, 1⟩, ⟨2, 3, 3⟩, ⟨0, 2, 0⟩], [], [.vs1, .vs2], [.vd], .vec (.wid .mulw .i16 .i8) false true⟩,
  ⟨[.vmulw, .h, .vx, .m], [.vmulw, .h, .vx, .m], 4, [⟨26, 6, 4⟩, ⟨12, 2, 1⟩, ⟨5, 1, 1⟩, ⟨2, 3, 3⟩, ⟨0, 2, 2⟩], [], [.vs1, .vs2], [.vd], .vec (.wid .mulw .i16 .i8) true true⟩,
  ⟨[.vmulw, .w, .vv], [.vmulw, .w, .vv], 4, [⟨26, 6, 4⟩, ⟨12, 2, 2⟩, ⟨5, 1, 0⟩, ⟨2, 3, 3⟩, ⟨0, 2, 0⟩], [], [.vs1, .vs2], [.vd], .vec (.wid .mulw .i32 .i16) false false⟩,
  ⟨[.vmulw, .w, .vx], [.vmulw, .w, .vx], 4, [⟨26, 6, 4⟩, ⟨12, 2, 2⟩, ⟨5, 1, 0⟩, ⟨2, 3, 3⟩, ⟨0, 2, 2⟩], [], [.vs1, .vs2], [.vd], .vec (.wid .mulw .i32 .i16) true false⟩,
  ⟨[.vmulw, .w, .vv, .m], [.vmulw, .w, .vv, .m], 4, [⟨26, 6, 4⟩, ⟨12, 2, 2⟩, ⟨5, 1, 1⟩, ⟨2, 3, 3⟩, ⟨0, 2, 0⟩], [], [.vs1, .vs2], [.vd], .vec (.wid .mulw .i32 .i16) false true⟩,
  ⟨[.vmulw, .w, .vx, .m], [.vmulw, .w, .vx, .m], 4, [⟨26, 6, 4⟩, ⟨12, 2, 2⟩, ⟨5, 1, 1⟩, ⟨2, 3, 3⟩, ⟨0, 2, 2⟩], [], [.vs1, .vs2], [.vd], .vec (.wid .mulw .i32 .i16) true true⟩,
  ⟨[.vmulw, .h, .u, .vv], [.vmulw, .h, .u, .vv], 4, [⟨26, 6, 5⟩, ⟨12, 2, 1⟩, ⟨5, 1, 0⟩, ⟨2, 3, 3⟩, ⟨0, 2, 0⟩], [], [.vs1, .vs2], [.vd], .vec (.wid .mulw .u16 .u8) false false⟩,
  ⟨[.vmulw, .h, .u, .vx], [.vmulw, .h, .u, .vx], 4, [⟨26, 6, 5⟩, ⟨12, 2, 1⟩, ⟨5, 1, 0⟩, ⟨2, 3, 3⟩, ⟨0, 2, 2⟩], [], [.vs1, .vs2], [.vd], .vec (.wid .mulw .u16 .u8) true false⟩,
  ⟨[.vmulw, .h, .u, .vv, .m], [.vmulw, .h, .u, .vv, .m], 4, [⟨26, 6, 5⟩, ⟨12, 2, 1⟩, ⟨5, 1, 1⟩, ⟨2, 3, 3⟩, ⟨0, 2, 0⟩], [], [.vs1, .vs2], [.vd], .vec (.wid .mulw .u16 .u8) false true⟩,
  ⟨[.vmulw, .h, .u, .vx, .m], [.vmulw, .h, .u, .vx, .m], 4, [⟨26, 6, 5⟩, ⟨12, 2, 1⟩, ⟨5, 1, 1⟩, ⟨2, 3, 3⟩, ⟨0, 2, 2⟩], [], [.vs1, .vs2], [.vd], .vec (.wid .mulw .u16 .u8) true true⟩,
  ⟨[.vmulw, .w, .u, .vv], [.vmulw, .w, .u, .vv], 4, [⟨26, 6, 5⟩, ⟨12, 2, 2⟩, ⟨5, 1, 0⟩, ⟨2, 3, 3⟩, ⟨0, 2, 0⟩], [], [.vs1, .vs2], [.vd], .vec (.wid .mulw .u32 .u16) false false⟩,
  ⟨[.vmulw, .w, .u, .vx], [.vmulw, .w, .u, .vx], 4, [⟨26, 6, 5⟩, ⟨12, 2, 2⟩, ⟨5, 1, 0⟩, ⟨2, 3, 3⟩, ⟨0, 2, 2⟩], [], [.vs1, .vs2], [.vd], .vec (.wid .mulw .u32 .u16) true false⟩,
  ⟨[.vmulw, .w, .u, .vv, .m], [.vmulw, .w, .u, .vv, .m], 4, [⟨26, 6, 5⟩, ⟨12, 2, 2⟩, ⟨5, 1, 1⟩, ⟨2, 3, 3⟩, ⟨0, 2, 0⟩], [], [.vs1, .vs2], [.vd], .vec (.wid .mulw .u32 .u16) false true⟩,
  ⟨[.vmulw, .w, .u, .vx, .m], [.vmulw, .w, .u, .vx, .m], 4, [⟨26, 6, 5⟩, ⟨12, 2, 2⟩, ⟨5, 1, 1⟩, ⟨2, 3, 3⟩, ⟨0, 2, 2⟩], [], [.vs1, .vs2], [.vd], .vec (.wid .mulw .u32 .u16) true true⟩,
  ⟨[.vmulh, .b, .vv], [.vmulh, .b, .vv], 4, [⟨26, 6, 8⟩, ⟨12, 2, 0⟩, ⟨5, 1, 0⟩, ⟨2, 3, 3⟩, ⟨0, 2, 0⟩], [], [.vs1, .vs2], [.vd], .vec (.bin (.mulh false) .i8) false false⟩,
  ⟨[.vmulh, .b, .vx], [.vmulh, .b, .vx], 4, [⟨26, 6, 8⟩, ⟨12, 2, 0⟩, ⟨5, 1, 0⟩, ⟨2, 3, 3⟩, ⟨0, 2, 2⟩], [], [.vs1, .vs2], [.vd], .vec (.bin (.mulh false) .i8) true false⟩,
  ⟨[.vmulh, .b, .vv, .m], [.vmulh, .b, .vv, .m], 4, [⟨26, 6, 8⟩, ⟨12, 2, 0⟩, ⟨5, 1, 1⟩, ⟨2, 3, 3⟩, ⟨0, 2, 0⟩], [], [.vs1, .vs2], [.vd], .vec (.bin (.mulh false) .i8) false true⟩,
  ⟨[.vmulh, .b, .vx, .m], [.vmulh, .b, .vx, .m], 4, [⟨26, 6, 8⟩, ⟨12, 2, 0⟩, ⟨5, 1, 1⟩, ⟨2, 3, 3⟩, ⟨0, 2, 2⟩], [], [.vs1, .vs2], [.vd], .vec (.bin (.mulh false) .i8) true true⟩,
  ⟨[.vmulh, .h, .vv], [.vmulh, .h, .vv], 4, [⟨26, 6, 8⟩, ⟨12, 2, 1⟩, ⟨5, 1, 0⟩, ⟨2, 3, 3⟩, ⟨0, 2, 0⟩], [], [.vs1, .vs2], [.vd], .vec (.bin (.mulh false) .i16) false false⟩,
  ⟨[.vmulh, .h, .vx], [.vmulh, .h, .vx], 4, [⟨26, 6, 8⟩, ⟨12, 2, 1⟩, ⟨5, 1, 0⟩, ⟨2, 3, 3⟩, ⟨0, 2, 2⟩], [], [.vs1, .vs2], [.vd], .vec (.bin (.mulh false) .i16) true false⟩,
  ⟨[.vmulh, .h, .vv, .m], [.vmulh, .h, .vv, .m], 4, [⟨26, 6, 8⟩, ⟨12, 2, 1⟩, ⟨5, 1, 1⟩, ⟨2, 3, 3⟩, ⟨0, 2, 0⟩], [], [.vs1, .vs2], [.vd], .vec (.bin (.mulh false) .i16) false true⟩,
  ⟨[.vmulh, .h, .vx, .m], [.vmulh, .h, .vx, .m], 4, [⟨26, 6, 8⟩, ⟨12, 2, 1⟩, ⟨5, 1, 1⟩, ⟨2, 3, 3⟩, ⟨0, 2, 2⟩], [], [.vs1, .vs2], [.vd], .vec (.bin (.mulh false) .i16) true true⟩]

def g4_1 : List Row := [
  ⟨[.vmulh, .w, .vv], [.vmulh, .w, .vv], 4, [⟨26, 6, 8⟩, ⟨12, 2, 2⟩, ⟨5, 1, 0⟩, ⟨2, 3, 3⟩, ⟨0, 2, 0⟩], [], [.vs1, .vs2], [.vd], .vec (.bin (.mulh false) .i32) false false⟩,
  ⟨[.vmulh, .w, .vx], [.vmulh, .w, .vx], 4, [⟨26, 6, 8⟩, ⟨12, 2, 2⟩, ⟨5, 1, 0⟩, ⟨2, 3, 3⟩, ⟨0, 2, 2⟩], [], [.vs1, .vs2], [.vd], .vec (.bin (.mulh false) .i32) true false⟩,
  ⟨[.vmulh, .w, .vv, .m], [.vmulh, .w, .vv, .m], 4, [⟨26, 6, 8⟩, ⟨12, 2, 2⟩, ⟨5, 1, 1⟩, ⟨2, 3, 3⟩, ⟨0, 2, 0⟩], [], [.vs1, .vs2], [.vd], .vec (.bin (.mulh false) .i32) false true⟩,
  ⟨[.vmulh, .w, .vx, .m], [.vmulh, .w, .vx, .m], 4, [⟨26, 6, 8⟩, ⟨12, 2, 2⟩, ⟨5, 1, 1⟩, ⟨2, 3, 3⟩, ⟨0, 2, 2⟩], [], [.vs1, .vs2], [.vd], .vec (.bin (.mulh false) .i32) true true⟩,
  ⟨[.vmulh, .b, .r, .vv], [.vmulh, .b, .r, .vv], 4, [⟨26, 6, 10⟩, ⟨12, 2, 0⟩, ⟨5, 1, 0⟩, ⟨2, 3, 3⟩, ⟨0, 2, 0⟩], [], [.vs1, .vs2], [.vd], .vec (.bin (.mulh true) .i8) false false⟩,
  ⟨[.vmulh, .b, .r, .vx], [.vmulh, .b, .r, .vx], 4, [⟨26, 6, 10⟩, ⟨12, 2, 0⟩, ⟨5, 1, 0⟩, ⟨2, 3, 3⟩, ⟨0, 2, 2⟩], [], [.vs1, .vs2], [.vd], .vec (.bin (.mulh true) .i8) true false⟩,
  ⟨[.vmulh, .b, .r, .vv, .m], [.vmulh, .b, .r, .vv, .m], 4, [⟨26, 6, 10⟩, ⟨12, 2, 0⟩, ⟨5, 1, 1⟩, ⟨2, 3, 3⟩, ⟨0, 2, 0⟩], [], [.vs1, .vs2], [.vd], .vec (.bin (.mulh true) .i8) false true⟩,
  ⟨[.vmulh, .b, .r, .vx, .m], [.vmulh, .b, .r, .vx, .m], 4, [⟨26, 6, 10⟩, ⟨12, 2, 0⟩, ⟨5, 1, 1⟩, ⟨2, 3, 3⟩, ⟨0, 2, 2⟩], [], [.vs1, .vs2], [.vd], .vec (.bin (.mulh true) .i8) true true⟩,
  ⟨[.vmulh, .h, .r, .vv], [.vmulh, .h, .r, .vv], 4, [⟨26, 6, 10⟩, ⟨12, 2, 1⟩, ⟨5, 1, 0⟩, ⟨2, 3, 3⟩, ⟨0, 2, 0⟩], [], [.vs1, .vs2], [.vd], .vec (.bin (.mulh true) .i16) false false⟩,
  ⟨[.vmulh, .h, .r, .vx], [.vmulh, .h, .r, .vx], 4, [⟨26, 6, 10⟩, ⟨12, 2, 1⟩, ⟨5, 1, 0⟩, ⟨2, 3, 3⟩, ⟨0, 2, 2⟩], [], [.vs1, .vs2], [.vd], .vec (.bin (.mulh true) .i16) true false⟩,
  ⟨[.vmulh, .h, .r, .vv, .m], [.vmulh, .h, .r, .vv, .m], 4, [⟨26, 6, 10⟩, ⟨12, 2, 1⟩, ⟨5, 1, 1⟩, ⟨2, 3, 3⟩, ⟨0, 2, 0⟩], [], [.vs1, .vs2], [.vd], .vec (.bin (.mulh true) .i16) false true⟩,
  ⟨[.vmulh, .h, .r, .vx, .m], [.vmulh, .h, .r, .vx, .m], 4, [⟨26, 6, 10⟩, ⟨12, 2, 1⟩, ⟨5, 1, 1⟩, ⟨2, 3, 3⟩, ⟨0, 2, 2⟩], [], [.vs1, .vs2], [.vd], .vec (.bin (.mulh true) .i16) true true⟩,
  ⟨[.vmulh, .w, .r, .vv], [.vmulh, .w, .r, .vv], 4, [⟨26, 6, 10⟩, ⟨12, 2, 2⟩, ⟨5, 1, 0⟩, ⟨2, 3, 3⟩, ⟨0, 2, 0⟩], [], [.vs1, .vs2], [.vd], .vec (.bin (.mulh true) .i32) false false⟩,
  ⟨[.vmulh, .w, .r, .vx], [.vmulh, .w, .r, .vx], 4, [⟨26, 6, 10⟩, ⟨12, 2, 2⟩, ⟨5, 1, 0⟩, ⟨2, 3, 3⟩, ⟨0, 2, 2⟩], [], [.vs1, .vs2], [.vd], .vec (.bin (.mulh true) .i32) true false⟩,
  ⟨[.vmulh, .w, .r, .vv, .m], [.vmulh, .w, .r, .vv, .m], 4, [⟨26, 6, 10⟩, ⟨12, 2, 2⟩, ⟨5, 1, 1⟩, ⟨2, 3, 3⟩, ⟨0, 2, 0⟩], [], [.vs1, .vs2], [.vd], .vec (.bin (.mulh true) .i32) false true⟩,
  ⟨[.vmulh, .w, .r, .vx, .m], [.vmulh, .w, .r, .vx, .m], 4, [⟨26, 6, 10⟩, ⟨12, 2, 2⟩, ⟨5, 1, 1⟩, ⟨2, 3, 3⟩, ⟨0, 2, 2⟩], [], [.vs1, .vs2], [.vd], .vec (.bin (.mulh true) .i32) true true⟩,
  ⟨[.vmulh, .b, .u, .vv], [.vmulh, .b, .u, .vv], 4, [⟨26, 6, 9⟩, ⟨12, 2, 0⟩, ⟨5, 1, 0⟩, ⟨2, 3, 3⟩, ⟨0, 2, 0⟩], [], [.vs1, .vs2], [.vd], .vec (.bin (.mulh false) .u8) false false⟩,
  ⟨[.vmulh, .b, .u, .vx], [.vmulh, .b, .u, .vx], 4, [⟨26, 6, 9⟩, ⟨12, 2, 0⟩, ⟨5, 1, 0⟩, ⟨2, 3, 3⟩, ⟨0, 2, 2⟩], [], [.vs1, .vs2], [.vd], .vec (.bin (.mulh false) .u8) true false⟩,
  ⟨[.vmulh, .b, .u, .vv, .m], [.vmulh, .b, .u, .vv, .m], 4, [⟨26, 6, 9⟩, ⟨12, 2, 0⟩, ⟨5, 1, 1⟩, ⟨2, 3, 3⟩, ⟨0, 2, 0⟩], [], [.vs1, .vs2], [.vd], .vec (.bin (.mulh false) .u8) false true⟩,
  ⟨[.vmulh, .b, .u, .vx, .m], [.vmulh, .b, .u, .vx, .m], 4, [⟨26, 6, 9⟩, ⟨12, 2, 0⟩, ⟨5, 1, 1⟩, ⟨2, 3, 3⟩, ⟨0, 2, 2⟩], [], [.vs1, .vs2], [.vd], .vec (.bin (.mulh false) .u8) true true⟩,
  ⟨[.vmulh, .h, .u, .vv], [.vmulh, .h, .u, .vv], 4, [⟨26, 6, 9⟩, ⟨12, 2, 1⟩, ⟨5, 1, 0⟩, ⟨2, 3, 3⟩, ⟨0, 2, 0⟩], [], [.vs1, .vs2], [.vd], .vec (.bin (.mulh false) .u16) false false⟩,
  ⟨[.vmulh, .h, .u, .vx], [.vmulh, .h, .u, .vx], 4, [⟨26, 6, 9⟩, ⟨12, 2, 1⟩, ⟨5, 1, 0⟩, ⟨2, 3, 3⟩, ⟨0, 2, 2⟩], [], [.vs1, .vs2], [.vd], .vec (.bin (.mulh false) .u16) true false⟩,
  ⟨[.vmulh, .h, .u, .vv, .m], [.vmulh, .h, .u, .vv, .m], 4, [⟨26, 6, 9⟩, ⟨12, 2, 1⟩, ⟨5, 1, 1⟩, ⟨2, 3, 3⟩, ⟨0, 2, 0⟩], [], [.vs1, .vs2], [.vd], .vec (.bin (.mulh false) .u16) false true⟩,
  ⟨[.vmulh, .h, .u, .vx, .m], [.vmulh, .h, .u, .vx, .m], 4, [⟨26, 6, 9⟩, ⟨12, 2, 1⟩, ⟨5, 1, 1⟩, ⟨2, 3, 3⟩, ⟨0, 2, 2⟩], [], [.vs1, .vs2], [.vd], .vec (.bin (.mulh false) .u16) true true⟩,
  ⟨[.vmulh, .w, .u, .vv], [.vmulh, .w, .u, .vv], 4, [⟨26, 6, 9⟩, ⟨12, 2, 2⟩, ⟨5, 1, 0⟩, ⟨2, 3, 3⟩, ⟨0, 2, 0⟩], [], [.vs1, .vs2], [.vd], .vec (.bin (.mulh false) .u32) false false⟩,
  ⟨[.vmulh, .w, .u, .vx], [.vmulh, .w, .u, .vx], 4, [⟨26, 6, 9⟩, ⟨12, 2, 2⟩, ⟨5, 1, 0⟩, ⟨2, 3, 3⟩, ⟨0, 2, 2⟩], [], [.vs1, .vs2], [.vd], .vec (.bin (.mulh false) .u32) true false⟩,
  ⟨[.vmulh, .w, .u, .vv, .m], [.vmulh, .w, .u, .vv, .m], 4, [⟨26, 6, 9⟩, ⟨12, 2, 2⟩, ⟨5, 1, 1⟩, ⟨2, 3, 3⟩, ⟨0, 2, 0⟩], [], [.vs1, .vs2], [.vd], .vec (.bin (.mulh false) .u32) false true⟩,
  ⟨[.vmulh, .w, .u, .vx, .m], [.vmulh, .w, .u, .vx, .m], 4, [⟨26, 6, 9⟩, ⟨12, 2, 2⟩, ⟨5, 1, 1⟩, ⟨2, 3, 3⟩, ⟨0, 2, 2⟩], [], [.vs1, .vs2], [.vd], .vec (.bin (.mulh false) .u32) true true⟩,
  ⟨[.vmulh, .b, .ur, .vv], [.vmulh, .b, .ur, .vv], 4, [⟨26, 6, 11⟩, ⟨12, 2, 0⟩, ⟨5, 1, 0⟩, ⟨2, 3, 3⟩, ⟨0, 2, 0⟩], [], [.vs1, .vs2], [.vd], .vec (.bin (.mulh true) .u8) false false⟩,
  ⟨[.vmulh, .b, .ur, .vx], [.vmulh, .b, .ur, .vx], 4, [⟨26, 6, 11⟩, ⟨12, 2, 0⟩, ⟨5, 1, 0⟩, ⟨2, 3, 3⟩, ⟨0, 2, 2⟩], [], [.vs1, .vs2], [.vd], .vec (.bin (.mulh true) .u8) true false⟩,
  ⟨[.vmulh, .b, .ur, .vv, .m], [.vmulh, .b, .ur, .vv, .m], 4, [⟨26, 6, 11⟩, ⟨12, 2, 0⟩, ⟨5, 1, 1⟩, ⟨2, 3, 3⟩, ⟨0, 2, 0⟩], [], [.vs1, .vs2], [.vd], .vec (.bin (.mulh true) .u8) false true⟩,
  ⟨[.vmulh, .b, .ur, .vx, .m], [.vmulh, .b, .ur, .vx, .m], 4, [⟨26, 6, 11⟩, ⟨12, 2, 0⟩, ⟨5, 1, 1⟩, ⟨2, 3, 3⟩, ⟨0, 2, 2⟩], [], [.vs1, .vs2], [.vd], .vec (.bin (.mulh true) .u8) true true⟩,
  ⟨[.vmulh, .h, .ur, .vv], [.vmulh, .h, .ur, .vv], 4, [⟨26, 6, 11⟩, ⟨12, 2, 1⟩, ⟨5, 1, 0⟩, ⟨2, 3, 3⟩, ⟨0, 2, 0⟩], [], [.vs1, .vs2], [.vd], .vec (.bin (.mulh true) .u16) false false⟩,
  ⟨[.vmulh, .h, .ur, .vx], [.vmulh, .h, .ur, .vx], 4, [⟨26, 6, 11⟩, ⟨12, 2, 1⟩, ⟨5, 1, 0⟩, ⟨2, 3, 3⟩, ⟨0, 2, 2⟩], [], [.vs1, .vs2], [.vd], .vec (.bin (.mulh true) .u16) true false⟩,
  ⟨[.vmulh, .h, .ur, .vv, .m], [.vmulh, .h, .ur, .vv, .m], 4, [⟨26, 6, 11⟩, ⟨12, 2, 1⟩, ⟨5, 1, 1⟩, ⟨2, 3, 3⟩, ⟨0, 2, 0⟩], [], [.vs1, .vs2], [.vd], .vec (.bin (.mulh true) .u16) false true⟩,
  ⟨[.vmulh, .h, .ur, .vx, .m], [.vmulh, .h, .ur, .vx, .m], 4, [⟨26, 6, 11⟩, ⟨12, 2, 1⟩, ⟨5, 1, 1⟩, ⟨2, 3, 3⟩, ⟨0, 2, 2⟩], [], [.vs1, .vs2], [.vd], .vec (.bin (.mulh true) .u16) true true⟩,
  ⟨[.vmulh, .w, .ur, .vv], [.vmulh, .w, .ur, .vv], 4, [⟨26, 6, 11⟩, ⟨12, 2, 2⟩, ⟨5, 1, 0⟩, ⟨2, 3, 3⟩, ⟨0, 2, 0⟩], [], [.vs1, .vs2], [.vd], .vec (.bin (.mulh true) .u32) false false⟩,
  ⟨[.vmulh, .w, .ur, .vx], [.vmulh, .w, .ur, .vx], 4, [⟨26, 6, 11⟩, ⟨12, 2, 2⟩, ⟨5, 1, 0⟩, ⟨2, 3, 3⟩, ⟨0, 2, 2⟩], [], [.vs1, .vs2], [.vd], .vec (.bin (.mulh true) .u32) true false⟩,
  ⟨[.vmulh, .w, .ur, .vv, .m], [.vmulh, .w, .ur, .vv, .m], 4, [⟨26, 6, 11⟩, ⟨12, 2, 2⟩, ⟨5, 1, 1⟩, ⟨2, 3, 3⟩, ⟨0, 2, 0⟩], [], [.vs1, .vs2], [.vd], .vec (.bin (.mulh true) .u32) false true⟩,
  ⟨[.vmulh, .w, .ur, .vx, .m], [.vmulh, .w, .ur, .vx, .m], 4, [⟨26, 6, 11⟩, ⟨12, 2, 2⟩, ⟨5, 1, 1⟩, ⟨2, 3, 3⟩, ⟨0, 2, 2⟩], [], [.vs1, .vs2], [.vd], .vec (.bin (.mulh true) .u32) true true⟩,
  ⟨[.vdmulh, .b, .vv], [.vdmulh, .b, .vv], 4, [⟨26, 6, 16⟩, ⟨12, 2, 0⟩, ⟨5, 1, 0⟩, ⟨2, 3, 3⟩, ⟨0, 2, 0⟩], [], [.vs1, .vs2], [.vd], .vec (.bin (.dmulh false false) .i8) false false⟩,
  ⟨[.vdmulh, .b, .vx], [.vdmulh, .b, .vx], 4, [⟨26, 6, 16⟩, ⟨12, 2, 0⟩, ⟨5, 1, 0⟩, ⟨2, 3, 3⟩, ⟨0, 2, 2⟩], [], [.vs1, .vs2], [.vd], .vec (.bin (.dmulh false false) .i8) true false⟩,
  ⟨[.vdmulh, .b, .vv, .m], [.vdmulh, .b, .vv, .m], 4, [⟨26, 6, 16⟩, ⟨12, 2, 0⟩, ⟨5, 1, 1⟩, ⟨2, 3, 3⟩, ⟨0, 2, 0⟩], [], [.vs1, .vs2], [.vd], .vec (.bin (.dmulh false false) .i8) false true⟩,
  ⟨[.vdmulh, .b, .vx, .m], [.vdmulh, .b, .vx, .m], 4, [⟨26, 6, 16⟩, ⟨12, 2, 0⟩, ⟨5, 1, 1⟩, ⟨2, 3, 3⟩, ⟨0, 2, 2⟩], [], [.vs1, .vs2], [.vd], .vec (.bin (.dmulh false false) .i8) true true⟩,
  ⟨[.vdmulh, .h, .vv], [.vdmulh, .h, .vv], 4, [⟨26, 6, 16⟩, ⟨12, 2, 1⟩, ⟨5, 1, 0⟩, ⟨2, 3, 3⟩, ⟨0, 2, 0⟩], [], [.vs1, .vs2], [.vd], .vec (.bin (.dmulh false false) .i16) false false⟩,
  ⟨[.vdmulh, .h, .vx], [.vdmulh, .h, .vx], 4, [⟨26, 6, 16⟩, ⟨12, 2, 1⟩, ⟨5, 1, 0⟩, ⟨2, 3, 3⟩, ⟨0, 2, 2⟩], [], [.vs1, .vs2], [.vd], .vec (.bin (.dmulh false false) .i16) true false⟩,
  ⟨[.vdmulh, .h, .vv, .m], [.vdmulh, .h, .vv, .m], 4, [⟨26, 6, 16⟩, ⟨12, 2, 1⟩, ⟨5, 1, 1⟩, ⟨2, 3, 3⟩, ⟨0, 2, 0⟩], [], [.vs1, .vs2], [.vd], .vec (.bin (.dmulh false false) .i16) false true⟩,
  ⟨[.vdmulh, .h, .vx, .m], [.vdmulh, .h, .vx, .m], 4, [⟨26, 6, 16⟩, ⟨12, 2, 1⟩, ⟨5, 1, 1⟩, ⟨2, 3, 3⟩, ⟨0, 2, 2⟩], [], [.vs1, .vs2], [.vd], .vec (.bin (.dmulh false false) .i16) true true⟩,
  ⟨[.vdmulh, .w, .vv], [.vdmulh, .w, .vv], 4, [⟨26, 6, 16⟩, ⟨12, 2, 2⟩, ⟨5, 1, 0⟩, ⟨2, 3, 3⟩, ⟨0, 2, 0⟩], [], [.vs1, .vs2], [.vd], .vec (.bin (.dmulh false false) .i32) false false⟩,
  ⟨[.vdmulh, .w, .vx], [.vdmulh, .w, .vx], 4, [⟨26, 6, 16⟩, ⟨12, 2, 2⟩, ⟨5, 1, 0⟩, ⟨2, 3, 3⟩, ⟨0, 2, 2⟩], [], [.vs1, .vs2], [.vd], .vec (.bin (.dmulh false false) .i32) true false⟩,
  ⟨[.vdmulh, .w, .vv, .m], [.vdmulh, .w, .vv, .m], 4, [⟨26, 6, 16⟩, ⟨12, 2, 2⟩, ⟨5, 1, 1⟩, ⟨2, 3, 3⟩, ⟨0, 2, 0⟩], [], [.vs1, .vs2], [.vd], .vec (.bin (.dmulh false false) .i32) false true⟩,
  ⟨[.vdmulh, .w, .vx, .m], [.vdmulh, .w, .vx, .m], 4, [⟨26, 6, 16⟩, ⟨12, 2, 2⟩, ⟨5, 1, 1⟩, ⟨2, 3, 3⟩, ⟨0, 2, 2⟩], [], [.vs1, .vs2], [.vd], .vec (.bin (.dmulh false false) .i32) true true⟩,
  ⟨[.vdmulh, .b, .r, .vv], [.vdmulh, .b, .r, .vv], 4, [⟨26, 6, 18⟩, ⟨12, 2, 0⟩, ⟨5, 1, 0⟩, ⟨2, 3, 3⟩, ⟨0, 2, 0⟩], [], [.vs1, .vs2], [.vd], .vec (.bin (.dmulh true false) .i8) false false⟩,
  ⟨[.vdmulh, .b, .r, .vx], [.vdmulh, .b, .r, .vx], 4, [⟨26, 6, 18⟩, ⟨12, 2, 0⟩, ⟨5, 1, 0⟩, ⟨2, 3, 3⟩, ⟨0, 2, 2⟩], [], [.vs1, .vs2], [.vd], .vec (.bin (.dmulh true false) .i8) true false⟩,
  ⟨[.vdmulh, .b, .r, .vv, .m], [.vdmulh, .b, .r, .vv, .m], 4, [⟨26, 6, 18⟩, ⟨12, 2, 0⟩, ⟨5, 1, 1⟩, ⟨2, 3, 3⟩, ⟨0, 2, 0⟩], [], [.vs1, .vs2], [.vd], .vec (.bin (.dmulh true false) .i8) false true⟩,
  ⟨[.vdmulh, .b, .r, .vx, .m], [.vdmulh, .b, .r, .vx, .m], 4, [⟨26, 6, 18⟩, ⟨12, 2, 0⟩, ⟨5, 1, 1⟩, ⟨2, 3, 3⟩, ⟨0, 2, 2⟩], [], [.vs1, .vs2], [.vd], .vec (.bin (.dmulh true false) .i8) true true⟩,
  ⟨[.vdmulh, .h, .r, .vv], [.vdmulh, .h, .r, .vv], 4, [⟨26, 6, 18⟩, ⟨12, 2, 1⟩, ⟨5, 1, 0⟩, ⟨2, 3, 3⟩, ⟨0, 2, 0⟩], [], [.vs1, .vs2], [.vd], .vec (.bin (.dmulh true false) .i16) false false⟩,
  ⟨[.vdmulh, .h, .r, .vx], [.vdmulh, .h, .r, .vx], 4, [⟨26, 6, 18⟩, ⟨12, 2, 1⟩, ⟨5, 1, 0⟩, ⟨2, 3, 3⟩, ⟨0, 2, 2⟩], [], [.vs1, .vs2], [.vd], .vec (.bin (.dmulh true false) .i16) true false⟩,
  ⟨[.vdmulh, .h, .r, .vv, .m], [.vdmulh, .h, .r, .vv, .m], 4, [⟨26, 6, 18⟩, ⟨12, 2, 1⟩, ⟨5, 1, 1⟩, ⟨2, 3, 3⟩, ⟨0, 2, 0⟩], [], [.vs1, .vs2], [.vd], .vec (.bin (.dmulh true false) .i16) false true⟩,
  ⟨[.vdmulh, .h, .r, .vx, .m], [.vdmulh, .h, .r, .vx, .m], 4, [⟨26, 6, 18⟩, ⟨12, 2, 1⟩, ⟨5, 1, 1⟩, ⟨2, 3, 3⟩, ⟨0, 2, 2⟩], [], [.vs1, .vs2], [.vd], .vec (.bin (.dmulh true false) .i16) true true⟩]

def g4_2 : List Row := [
  ⟨[.vdmulh, .w, .r, .vv], [.vdmulh, .w, .r, .vv], 4, [⟨26, 6, 18⟩, ⟨12, 2, 2⟩, ⟨5, 1, 0⟩, ⟨2, 3, 3⟩, ⟨0, 2, 0⟩], [], [.vs1, .vs2], [.vd], .vec (.bin (.dmulh true false) .i32) false false⟩,
  ⟨[.vdmulh, .w, .r, .vx], [.vdmulh, .w, .r, .vx], 4, [⟨26, 6, 18⟩, ⟨12, 2, 2⟩, ⟨5, 1, 0⟩, ⟨2, 3, 3⟩, ⟨0, 2, 2⟩], [], [.vs1, .vs2], [.vd], .vec (.bin (.dmulh true false) .i32) true false⟩,
  ⟨[.vdmulh, .w, .r, .vv, .m], [.vdmulh, .w, .r, .vv, .m], 4, [⟨26, 6, 18⟩, ⟨12, 2, 2⟩, ⟨5, 1, 1⟩, ⟨2, 3, 3⟩, ⟨0, 2, 0⟩], [], [.vs1, .vs2], [.vd], .vec (.bin (.dmulh true false) .i32) false true⟩,
  ⟨[.vdmulh, .w, .r, .vx, .m], [.vdmulh, .w, .r, .vx, .m], 4, [⟨26, 6, 18⟩, ⟨12, 2, 2⟩, ⟨5, 1, 1⟩, ⟨2, 3, 3⟩, ⟨0, 2, 2⟩], [], [.vs1, .vs2], [.vd], .vec (.bin (.dmulh true false) .i32) true true⟩,
  ⟨[.vdmulh, .b, .rn, .vv], [.vdmulh, .b, .rn, .vv], 4, [⟨26, 6, 19⟩, ⟨12, 2, 0⟩, ⟨5, 1, 0⟩, ⟨2, 3, 3⟩, ⟨0, 2, 0⟩], [], [.vs1, .vs2], [.vd], .vec (.bin (.dmulh true true) .i8) false false⟩,
  ⟨[.vdmulh, .b, .rn, .vx], [.vdmulh, .b, .rn, .vx], 4, [⟨26, 6, 19⟩, ⟨12, 2, 0⟩, ⟨5, 1, 0⟩, ⟨2, 3, 3⟩, ⟨0, 2, 2⟩], [], [.vs1, .vs2], [.vd], .vec (.bin (.dmulh true true) .i8) true false⟩,
  ⟨[.vdmulh, .b, .rn, .vv, .m], [.vdmulh, .b, .rn, .vv, .m], 4, [⟨26, 6, 19⟩, ⟨12, 2, 0⟩, ⟨5, 1, 1⟩, ⟨2, 3, 3⟩, ⟨0, 2, 0⟩], [], [.vs1, .vs2], [.vd], .vec (.bin (.dmulh true true) .i8) false true⟩,
  ⟨[.vdmulh, .b, .rn, .vx, .m], [.vdmulh, .b, .rn, .vx, .m], 4, [⟨26, 6, 19⟩, ⟨12, 2, 0⟩, ⟨5, 1, 1⟩, ⟨2, 3, 3⟩, ⟨0, 2, 2⟩], [], [.vs1, .vs2], [.vd], .vec (.bin (.dmulh true true) .i8) true true⟩,
  ⟨[.vdmulh, .h, .rn, .vv], [.vdmulh, .h, .rn, .vv], 4, [⟨26, 6, 19⟩, ⟨12, 2, 1⟩, ⟨5, 1, 0⟩, ⟨2, 3, 3⟩, ⟨0, 2, 0⟩], [], [.vs1, .vs2], [.vd], .vec (.bin (.dmulh true true) .i16) false false⟩,
  ⟨[.vdmulh, .h, .rn, .vx], [.vdmulh, .h, .rn, .vx], 4, [⟨26, 6, 19⟩, ⟨12, 2, 1⟩, ⟨5, 1, 0⟩, ⟨2, 3, 3⟩, ⟨0, 2, 2⟩], [], [.vs1, .vs2], [.vd], .vec (.bin (.dmulh true true) .i16) true false⟩,
  ⟨[.vdmulh, .h, .rn, .vv, .m], [.vdmulh, .h, .rn, .vv, .m], 4, [⟨26, 6, 19⟩, ⟨12, 2, 1⟩, ⟨5, 1, 1⟩, ⟨2, 3, 3⟩, ⟨0, 2, 0⟩], [], [.vs1, .vs2], [.vd], .vec (.bin (.dmulh true true) .i16) false true⟩,
  ⟨[.vdmulh, .h, .rn, .vx, .m], [.vdmulh, .h, .rn, .vx, .m], 4, [⟨26, 6, 19⟩, ⟨12, 2, 1⟩, ⟨5, 1, 1⟩, ⟨2, 3, 3⟩, ⟨0, 2, 2⟩], [], [.vs1, .vs2], [.vd], .vec (.bin (.dmulh true true) .i16) true true⟩,
  ⟨[.vdmulh, .w, .rn, .vv], [.vdmulh, .w, .rn, .vv], 4, [⟨26, 6, 19⟩, ⟨12, 2, 2⟩, ⟨5, 1, 0⟩, ⟨2, 3, 3⟩, ⟨0, 2, 0⟩], [], [.vs1, .vs2], [.vd], .vec (.bin (.dmulh true true) .i32) false false⟩,
  ⟨[.vdmulh, .w, .rn, .vx], [.vdmulh, .w, .rn, .vx], 4, [⟨26, 6, 19⟩, ⟨12, 2, 2⟩, ⟨5, 1, 0⟩, ⟨2, 3, 3⟩, ⟨0, 2, 2⟩], [], [.vs1, .vs2], [.vd], .vec (.bin (.dmulh true true) .i32) true false⟩,
  ⟨[.vdmulh, .w, .rn, .vv, .m], [.vdmulh, .w, .rn, .vv, .m], 4, [⟨26, 6, 19⟩, ⟨12, 2, 2⟩, ⟨5, 1, 1⟩, ⟨2, 3, 3⟩, ⟨0, 2, 0⟩], [], [.vs1, .vs2], [.vd], .vec (.bin (.dmulh true true) .i32) false true⟩,
  ⟨[.vdmulh, .w, .rn, .vx, .m], [.vdmulh, .w, .rn, .vx, .m], 4, [⟨26, 6, 19⟩, ⟨12, 2, 2⟩, ⟨5, 1, 1⟩, ⟨2, 3, 3⟩, ⟨0, 2, 2⟩], [], [.vs1, .vs2], [.vd], .vec (.bin (.dmulh true true) .i32) true true⟩,
  ⟨[.vmacc, .b, .vv], [.vmacc, .b, .vv], 4, [⟨26, 6, 20⟩, ⟨12, 2, 0⟩, ⟨5, 1, 0⟩, ⟨2, 3, 3⟩, ⟨0, 2, 0⟩], [], [.vs1, .vs2], [.vd], .vec (.ter .macc .i8) false false⟩,
  ⟨[.vmacc, .b, .vx], [.vmacc, .b, .vx], 4, [⟨26, 6, 20⟩, ⟨12, 2, 0⟩, ⟨5, 1, 0⟩, ⟨2, 3, 3⟩, ⟨0, 2, 2⟩], [], [.vs1, .vs2], [.vd], .vec (.ter .macc .i8) true false⟩,
  ⟨[.vmacc, .b, .vv, .m], [.vmacc, .b, .vv, .m], 4, [⟨26, 6, 20⟩, ⟨12, 2, 0⟩, ⟨5, 1, 1⟩, ⟨2, 3, 3⟩, ⟨0, 2, 0⟩], [], [.vs1, .vs2], [.vd], .vec (.ter .macc .i8) false true⟩,
  ⟨[.vmacc, .b, .vx, .m], [.vmacc, .b, .vx, .m], 4, [⟨26, 6, 20⟩, ⟨12, 2, 0⟩, ⟨5, 1, 1⟩, ⟨2, 3, 3⟩, ⟨0, 2, 2⟩], [], [.vs1, .vs2], [.vd], .vec (.ter .macc .i8) true true⟩,
  ⟨[.vmacc, .h, .vv], [.vmacc, .h, .vv], 4, [⟨26, 6, 20⟩, ⟨12, 2, 1⟩, ⟨5, 1, 0⟩, ⟨2, 3, 3⟩, ⟨0, 2, 0⟩], [], [.vs1, .vs2], [.vd], .vec (.ter .macc .i16) false false⟩,
  ⟨[.vmacc, .h, .vx], [.vmacc, .h, .vx], 4, [⟨26, 6, 20⟩, ⟨12, 2, 1⟩, ⟨5, 1, 0⟩, ⟨2, 3, 3⟩, ⟨0, 2, 2⟩], [], [.vs1, .vs2], [.vd], .vec (.ter .macc .i16) true false⟩,
  ⟨[.vmacc, .h, .vv, .m], [.vmacc, .h, .vv, .m], 4, [⟨26, 6, 20⟩, ⟨12, 2, 1⟩, ⟨5, 1, 1⟩, ⟨2, 3, 3⟩, ⟨0, 2, 0⟩], [], [.vs1, .vs2], [.vd], .vec (.ter .macc .i16) false true⟩,
  ⟨[.vmacc, .h, .vx, .m], [.vmacc, .h, .vx, .m], 4, [⟨26, 6, 20⟩, ⟨12, 2, 1⟩, ⟨5, 1, 1⟩, ⟨2, 3, 3⟩, ⟨0, 2, 2⟩], [], [.vs1, .vs2], [.vd], .vec (.ter .macc .i16) true true⟩,
  ⟨[.vmacc, .w, .vv], [.vmacc, .w, .vv], 4, [⟨26, 6, 20⟩, ⟨12, 2, 2⟩, ⟨5, 1, 0⟩, ⟨2, 3, 3⟩, ⟨0, 2, 0⟩], [], [.vs1, .vs2], [.vd], .vec (.ter .macc .i32) false false⟩,
  ⟨[.vmacc, .w, .vx], [.vmacc, .w, .vx], 4, [⟨26, 6, 20⟩, ⟨12, 2, 2⟩, ⟨5, 1, 0⟩, ⟨2, 3, 3⟩, ⟨0, 2, 2⟩], [], [.vs1, .vs2], [.vd], .vec (.ter .macc .i32) true false⟩,
  ⟨[.vmacc, .w, .vv, .m], [.vmacc, .w, .vv, .m], 4, [⟨26, 6, 20⟩, ⟨12, 2, 2⟩, ⟨5, 1, 1⟩, ⟨2, 3, 3⟩, ⟨0, 2, 0⟩], [], [.vs1, .vs2], [.vd], .vec (.ter .macc .i32) false true⟩,
  ⟨[.vmacc, .w, .vx, .m], [.vmacc, .w, .vx, .m], 4, [⟨26, 6, 20⟩, ⟨12, 2, 2⟩, ⟨5, 1, 1⟩, ⟨2, 3, 3⟩, ⟨0, 2, 2⟩], [], [.vs1, .vs2], [.vd], .vec (.ter .macc .i32) true true⟩,
  ⟨[.vmadd, .b, .vv], [.vmadd, .b, .vv], 4, [⟨26, 6, 21⟩, ⟨12, 2, 0⟩, ⟨5, 1, 0⟩, ⟨2, 3, 3⟩, ⟨0, 2, 0⟩], [], [.vs1, .vs2], [.vd], .vec (.ter .madd .i8) false false⟩,
  ⟨[.vmadd, .b, .vx], [.vmadd, .b, .vx], 4, [⟨26, 6, 21⟩, ⟨12, 2, 0⟩, ⟨5, 1, 0⟩, ⟨2, 3, 3⟩, ⟨0, 2, 2⟩], [], [.vs1, .vs2], [.vd], .vec (.ter .madd .i8) true false⟩,
  ⟨[.vmadd, .b, .vv, .m], [.vmadd, .b, .vv, .m], 4, [⟨26, 6, 21⟩, ⟨12, 2, 0⟩, ⟨5, 1, 1⟩, ⟨2, 3, 3⟩, ⟨0, 2, 0⟩], [], [.vs1, .vs2], [.vd], .vec (.ter .madd .i8) false true⟩,
  ⟨[.vmadd, .b, .vx, .m], [.vmadd, .b, .vx, .m], 4, [⟨26, 6, 21⟩, ⟨12, 2, 0⟩, ⟨5, 1, 1⟩, ⟨2, 3, 3⟩, ⟨0, 2, 2⟩], [], [.vs1, .vs2], [.vd], .vec (.ter .madd .i8) true true⟩,
  ⟨[.vmadd, .h, .vv], [.vmadd, .h, .vv], 4, [⟨26, 6, 21⟩, ⟨12, 2, 1⟩, ⟨5, 1, 0⟩, ⟨2, 3, 3⟩, ⟨0, 2, 0⟩], [], [.vs1, .vs2], [.vd], .vec (.ter .madd .i16) false false⟩,
  ⟨[.vmadd, .h, .vx], [.vmadd, .h, .vx], 4, [⟨26, 6, 21⟩, ⟨12, 2, 1⟩, ⟨5, 1, 0⟩, ⟨2, 3, 3⟩, ⟨0, 2, 2⟩], [], [.vs1, .vs2], [.vd], .vec (.ter .madd .i16) true false⟩,
  ⟨[.vmadd, .h, .vv, .m], [.vmadd, .h, .vv, .m], 4, [⟨26, 6, 21⟩, ⟨12, 2, 1⟩, ⟨5, 1, 1⟩, ⟨2, 3, 3⟩, ⟨0, 2, 0⟩], [], [.vs1, .vs2], [.vd], .vec (.ter .madd .i16) false true⟩,
  ⟨[.vmadd, .h, .vx, .m], [.vmadd, .h, .vx, .m], 4, [⟨26, 6, 21⟩, ⟨12, 2, 1⟩, ⟨5, 1, 1⟩, ⟨2, 3, 3⟩, ⟨0, 2, 2⟩], [], [.vs1, .vs2], [.vd], .vec (.ter .madd .i16) true true⟩,
  ⟨[.vmadd, .w, .vv], [.vmadd, .w, .vv], 4, [⟨26, 6, 21⟩, ⟨12, 2, 2⟩, ⟨5, 1, 0⟩, ⟨2, 3, 3⟩, ⟨0, 2, 0⟩], [], [.vs1, .vs2], [.vd], .vec (.ter .madd .i32) false false⟩,
  ⟨[.vmadd, .w, .vx], [.vmadd, .w, .vx], 4, [⟨26, 6, 21⟩, ⟨12, 2, 2⟩, ⟨5, 1, 0⟩, ⟨2, 3, 3⟩, ⟨0, 2, 2⟩], [], [.vs1, .vs2], [.vd], .vec (.ter .madd .i32) true false⟩,
  ⟨[.vmadd, .w, .vv, .m], [.vmadd, .w, .vv, .m], 4, [⟨26, 6, 21⟩, ⟨12, 2, 2⟩, ⟨5, 1, 1⟩, ⟨2, 3, 3⟩, ⟨0, 2, 0⟩], [], [.vs1, .vs2], [.vd], .vec (.ter .madd .i32) false true⟩,
  ⟨[.vmadd, .w, .vx, .m], [.vmadd, .w, .vx, .m], 4, [⟨26, 6, 21⟩, ⟨12, 2, 2⟩, ⟨5, 1, 1⟩, ⟨2, 3, 3⟩, ⟨0, 2, 2⟩], [], [.vs1, .vs2], [.vd], .vec (.ter .madd .i32) true true⟩]

def group4 : List Row := g4_0 ++ g4_1 ++ g4_2

end Verif.Model.Gen
