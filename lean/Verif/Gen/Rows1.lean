import Verif.Model.Isa

/-! Generated by tools/gen_rows.py from the instruction group `CoralNPUVectorArithInst` of
/repo/sim/coralnpu_arith.bin_fmt and the opcodes of the `.isa` files. -/

namespace Verif.Model.Gen

def g1_0 : List Row := [
  ⟨[.vadd, .b, .vv], [.vadd, .b, .vv], 1, [⟨26, 6, 0⟩, ⟨12, 2, 0⟩, ⟨5, 1, 0⟩, ⟨2, 3, 0⟩, ⟨0, 2, 0⟩], [], [.vs1, .vs2], [.vd], .vec (.bin .add .i8) false false⟩,
  ⟨[.vadd, .b, .vx], [.vadd, .b, .vx], 1, [⟨26, 6, 0⟩, ⟨12, 2, 0⟩, ⟨5, 1, 0⟩, ⟨2, 3, 0⟩, ⟨0, 2, 2⟩], [], [.vs1, .vs2], [.vd], .vec (.bin .add .i8) true false⟩,
  ⟨[.vadd, .b, .vv, .m], [.vadd, .b, .vv, .m], 1, [⟨26, 6, 0⟩, ⟨12, 2, 0⟩, ⟨5, 1, 1⟩, ⟨2, 3, 0⟩, ⟨0, 2, 0⟩], [], [.vs1, .vs2], [.vd], .vec (.bin .add .i8) false true⟩,
  ⟨[.vadd, .b, .vx, .m], [.vadd, .b, .vx, .m], 1, [⟨26, 6, 0⟩, ⟨12, 2, 0⟩, ⟨5, 1, 1⟩, ⟨2, 3, 0⟩, ⟨0, 2, 2⟩], [], [.vs1, .vs2], [.vd], .vec (.bin .add .i8) true true⟩,
  ⟨[.vadd, .h, .vv], [.vadd, .h, .vv], 1, [⟨26, 6, 0⟩, ⟨12, 2, 1⟩, ⟨5, 1, 0⟩, ⟨2, 3, 0⟩, ⟨0, 2, 0⟩], [], [.vs1, .vs2], [.vd], .vec (.bin .add .i16) false false⟩,
  ⟨[.vadd, .h, .vx], [.vadd, .h, .vx], 1, [⟨26, 6, 0⟩, ⟨12, 2, 1⟩, ⟨5, 1, 0⟩, ⟨2, 3, 0⟩, ⟨0, 2, 2⟩], [], [.vs1, .vs2], [.vd], .vec (.bin .add .i16) true false⟩,
  ⟨[.vadd, .h, .vv, .m], [.vadd, .h, .vv, .m], 1, [⟨26, 6, 0⟩, ⟨12, 2, 1⟩, ⟨5, 1, 1⟩, ⟨2, 3, 0⟩, ⟨0, 2, 0⟩], [], [.vs1, .vs2], [.vd], .vec (.bin .add .i16) false true⟩,
  ⟨[.vadd, .h, .vx, .m], [.vadd, .h, .vx, .m], 1, [⟨26, 6, 0⟩, ⟨12, 2, 1⟩, ⟨5, 1, 1⟩, ⟨2, 3, 0⟩, ⟨0, 2, 2⟩], [], [.vs1, .vs2], [.vd], .vec (.bin .add .i16) true true⟩,
  ⟨[.vadd, .w, .vv], [.vadd, .w, .vv], 1, [⟨26, 6, 0⟩, ⟨12, 2, 2⟩, ⟨5, 1, 0⟩, ⟨2, 3, 0⟩, ⟨0, 2, 0⟩], [], [.vs1, .vs2], [.vd], .vec (.bin .add .i32) false false⟩,
  ⟨[.vadd, .w, .vx], [.vadd, .w, .vx], 1, [⟨26, 6, 0⟩, ⟨12, 2, 2⟩, ⟨5, 1, 0⟩, ⟨2, 3, 0⟩, ⟨0, 2, 2⟩], [], [.vs1, .vs2], [.vd], .vec (.bin .add .i32) true false⟩,
  ⟨[.vadd, .w, .vv, .m], [.vadd, .w, .vv, .m], 1, [⟨26, 6, 0⟩, ⟨12, 2, 2⟩, ⟨5, 1, 1⟩, ⟨2, 3, 0⟩, ⟨0, 2, 0⟩], [], [.vs1, .vs2], [.vd], .vec (.bin .add .i32) false true⟩,
  ⟨[.vadd, .w, .vx, .m], [.vadd, .w, .vx, .m], 1, [⟨26, 6, 0⟩, ⟨12, 2, 2⟩, ⟨5, 1, 1⟩, ⟨2, 3, 0⟩, ⟨0, 2, 2⟩], [], [.vs1, .vs2], [.vd], .vec (.bin .add .i32) true true⟩,
  ⟨[.vsub, .b, .vv], [.vsub, .b, .vv], 1, [⟨26, 6, 1⟩, ⟨12, 2, 0⟩, ⟨5, 1, 0⟩, ⟨2, 3, 0⟩, ⟨0, 2, 0⟩], [], [.vs1, .vs2], [.vd], .vec (.bin .sub .i8) false false⟩,
  ⟨[.vsub, .b, .vx], [.vsub, .b, .vx], 1, [⟨26, 6, 1⟩, ⟨12, 2, 0⟩, ⟨5, 1, 0⟩, ⟨2, 3, 0⟩, ⟨0, 2, 2⟩], [], [.vs1, .vs2], [.vd], .vec (.bin .sub .i8) true false⟩,
  ⟨[.vsub, .b, .vv, .m], [.vsub, .b, .vv, .m], 1, [⟨26, 6, 1⟩, ⟨12, 2, 0⟩, ⟨5, 1, 1⟩, ⟨2, 3, 0⟩, ⟨0, 2, 0⟩], [], [.vs1, .vs2], [.vd], .vec (.bin .sub .i8) false true⟩,
  ⟨[.vsub, .b, .vx, .m], [.vsub, .b, .vx, .m], 1, [⟨26, 6, 1⟩, ⟨12, 2, 0⟩, ⟨5, 1, 1⟩, ⟨2, 3, 0⟩, ⟨0, 2, 2⟩], [], [.vs1, .vs2], [.vd], .vec (.bin .sub .i8) true true⟩,
  ⟨[.vsub, .h, .vv], [.vsub, .h, .vv], 1, [⟨26, 6, 1⟩, ⟨12, 2, 1⟩, ⟨5, 1, 0⟩, ⟨2, 3, 0⟩, ⟨0, 2, 0⟩], [], [.vs1, .vs2], [.vd], .vec (.bin .sub .i16) false false⟩,
  ⟨[.vsub, .h, .vx], [.vsub, .h, .vx], 1, [⟨26, 6, 1⟩, ⟨12, 2, 1⟩, ⟨5, 1, 0⟩, ⟨2, 3, 0⟩, ⟨0, 2, 2⟩], [], [.vs1, .vs2], [.vd], .vec (.bin .sub .i16) true false⟩,
  ⟨[.vsub, .h, .vv, .m], [.vsub, .h, .vv, .m], 1, [⟨26, 6, 1⟩, ⟨12, 2, 1⟩, ⟨5, 1, 1⟩, ⟨2, 3, 0⟩, ⟨0, 2, 0⟩], [], [.vs1, .vs2], [.vd], .vec (.bin .sub .i16) false true⟩,
  ⟨[.vsub, .h, .vx, .m], [.vsub, .h, .vx, .m], 1, [⟨26, 6, 1⟩, ⟨12, 2, 1⟩, ⟨5, 1, 1⟩, ⟨2, 3, 0⟩, ⟨0, 2, 2⟩], [], [.vs1, .vs2], [.vd], .vec (.bin .sub .i16) true true⟩,
  ⟨[.vsub, .w, .vv], [.vsub, .w, .vv], 1, [⟨26, 6, 1⟩, ⟨12, 2, 2⟩, ⟨5, 1, 0⟩, ⟨2, 3, 0⟩, ⟨0, 2, 0⟩], [], [.vs1, .vs2], [.vd], .vec (.bin .sub .i32) false false⟩,
  ⟨[.vsub, .w, .vx], [.vsub, .w, .vx], 1, [⟨26, 6, 1⟩, ⟨12, 2, 2⟩, ⟨5, 1, 0⟩, ⟨2, 3, 0⟩, ⟨0, 2, 2⟩], [], [.vs1, .vs2], [.vd], .vec (.bin .sub .i32) true false⟩,
  ⟨[.vsub, .w, .vv, .m], [.vsub, .w, .vv, .m], 1, [⟨26, 6, 1⟩, ⟨12, 2, 2⟩, ⟨5, 1, 1⟩, ⟨2, 3, 0⟩, ⟨0, 2, 0⟩], [], [.vs1, .vs2], [.vd], .vec (.bin .sub .i32) false true⟩,
  ⟨[.vsub, .w, .vx, .m], [.vsub, .w, .vx, .m], 1, [⟨26, 6, 1⟩, ⟨12, 2, 2⟩, ⟨5, 1, 1⟩, ⟨2, 3, 0⟩, ⟨0, 2, 2⟩], [], [.vs1, .vs2], [.vd], .vec (.bin .sub .i32) true true⟩,
  ⟨[.vrsub, .b, .vv], [.vrsub, .b, .vv], 1, [⟨26, 6, 2⟩, ⟨12, 2, 0⟩, ⟨5, 1, 0⟩, ⟨2, 3, 0⟩, ⟨0, 2, 0⟩], [], [.vs1, .vs2], [.vd], .vec (.bin .rsub .i8) false false⟩,
  ⟨[.vrsub, .b, .vx], [.vrsub, .b, .vx], 1, [⟨26, 6, 2⟩, ⟨12, 2, 0⟩, ⟨5, 1, 0⟩, ⟨2, 3, 0⟩, ⟨0, 2, 2⟩], [], [.vs1, .vs2], [.vd], .vec (.bin .rsub .i8) true false⟩,
  ⟨[.vrsub, .b, .vv, .m], [.vrsub, .b, .vv, .m], 1, [⟨26, 6, 2⟩, ⟨12, 2, 0⟩, ⟨5, 1, 1⟩, ⟨2, 3, 0⟩, ⟨0, 2, 0⟩], [], [.vs1, .vs2], [.vd], .vec (.bin .rsub .i8) false true⟩,
  ⟨[.vrsub, .b, .vx, .m], [.vrsub, .b, .vx, .m], 1, [⟨26, 6, 2⟩, ⟨12, 2, 0⟩, ⟨5, 1, 1⟩, ⟨2, 3, 0⟩, ⟨0, 2, 2⟩], [], [.vs1, .vs2], [.vd], .vec (.bin .rsub .i8) true true⟩,
  ⟨[.vrsub, .h, .vv], [.vrsub, .h, .vv], 1, [⟨26, 6, 2⟩, ⟨12, 2, 1⟩, ⟨5, 1, 0⟩, ⟨2, 3, 0⟩, ⟨0, 2, 0⟩], [], [.vs1, .vs2], [.vd], .vec (.bin .rsub .i16) false false⟩,
  ⟨[.vrsub, .h, .vx], [.vrsub, .h, .vx], 1, [⟨26, 6, 2⟩, ⟨12, 2, 1⟩, ⟨5, 1, 0⟩, ⟨2, 3, 0⟩, ⟨0, 2, 2⟩], [], [.vs1, .vs2], [.vd], .vec (.bin .rsub .i16) true false⟩,
  ⟨[.vrsub, .h, .vv, .m], [.vrsub, .h, .vv, .m], 1, [⟨26, 6, 2⟩, ⟨12, 2, 1⟩, ⟨5, 1, 1⟩, ⟨2, 3, 0⟩, ⟨0, 2, 0⟩], [], [.vs1, .vs2], [.vd], .vec (.bin .rsub .i16) false true⟩,
  ⟨[.vrsub, .h, .vx, .m], [.vrsub, .h, .vx, .m], 1, [⟨26, 6, 2⟩, ⟨12, 2, 1⟩, ⟨5, 1, 1⟩, ⟨2, 3, 0⟩, ⟨0, 2, 2⟩], [], [.vs1, .vs2], [.vd], .vec (.bin .rsub .i16) true true⟩,
  ⟨[.vrsub, .w, .vv], [.vrsub, .w, .vv], 1, [⟨26, 6, 2⟩, ⟨12, 2, 2⟩, ⟨5, 1, 0⟩, ⟨2, 3, 0⟩, ⟨0, 2, 0⟩], [], [.vs1, .vs2], [.vd], .vec (.bin .rsub .i32) false false⟩,
  ⟨[.vrsub, .w, .vx], [.vrsub, .w, .vx], 1, [⟨26, 6, 2⟩, ⟨12, 2, 2⟩, ⟨5, 1, 0⟩, ⟨2, 3, 0⟩, ⟨0, 2, 2⟩], [], [.vs1, .vs2], [.vd], .vec (.bin .rsub .i32) true false⟩,
  ⟨[.vrsub, .w, .vv, .m], [.vrsub, .w, .vv, .m], 1, [⟨26, 6, 2⟩, ⟨12, 2, 2⟩, ⟨5, 1, 1⟩, ⟨2, 3, 0⟩, ⟨0, 2, 0⟩], [], [.vs1, .vs2], [.vd], .vec (.bin .rsub .i32) false true⟩,
  ⟨[.vrsub, .w, .vx, .m], [.vrsub, .w, .vx, .m], 1, [⟨26, 6, 2⟩, ⟨12, 2, 2⟩, ⟨5, 1, 1⟩, ⟨2, 3, 0⟩, ⟨0, 2, 2⟩], [], [.vs1, .vs2], [.vd], .vec (.bin .rsub .i32) true true⟩,
  ⟨[.veq, .b, .vv], [.veq, .b, .vv], 1, [⟨26, 6, 6⟩, ⟨12, 2, 0⟩, ⟨5, 1, 0⟩, ⟨2, 3, 0⟩, ⟨0, 2, 0⟩], [], [.vs1, .vs2], [.vd], .vec (.bin .eq .i8) false false⟩,
  ⟨[.veq, .b, .vx], [.veq, .b, .vx], 1, [⟨26, 6, 6⟩, ⟨12, 2, 0⟩, ⟨5, 1, 0⟩, ⟨2, 3, 0⟩, ⟨0, 2, 2⟩], [], [.vs1, .vs2], [.vd], .vec (.bin .eq .i8) true false⟩,
  ⟨[.veq, .b, .vv, .m], [.veq, .b, .vv, .m], 1, [⟨26, 6, 6⟩, ⟨12, 2, 0⟩, ⟨5, 1, 1⟩, ⟨2, 3, 0⟩, ⟨0, 2, 0⟩], [], [.vs1, .vs2], [.vd], .vec (.bin .eq .i8) false true⟩,
  ⟨[.veq, .b, .vx, .m], [.veq, .b, .vx, .m], 1, [⟨26, 6, 6⟩, ⟨12, 2, 0⟩, ⟨5, 1, 1⟩, ⟨2, 3, 0⟩, ⟨0, 2, 2⟩], [], [.vs1, .vs2], [.vd], .vec (.bin .eq .i8) true true⟩,
  ⟨[.veq, .h, .vv], [.veq, .h, .vv], 1, [⟨26, 6, 6⟩, ⟨12, 2, 1⟩, ⟨5, 1, 0⟩, ⟨2, 3, 0⟩, ⟨0, 2, 0⟩], [], [.vs1, .vs2], [.vd], .vec (.bin .eq .i16) false false⟩,
  ⟨[.veq, .h, .vx], [.veq, .h, .vx], 1, [⟨26, 6, 6⟩, ⟨12, 2, 1⟩, ⟨5, 1, 0⟩, ⟨2, 3, 0⟩, ⟨0, 2, 2⟩], [], [.vs1, .vs2], [.vd], .vec (.bin .eq .i16) true false⟩,
  ⟨[.veq, .h, .vv, .m], [.veq, .h, .vv, .m], 1, [⟨26, 6, 6⟩, ⟨12, 2, 1⟩, ⟨5, 1, 1⟩, ⟨2, 3, 0⟩, ⟨0, 2, 0⟩], [], [.vs1, .vs2], [.vd], .vec (.bin .eq .i16) false true⟩,
  ⟨[.veq, .h, .vx, .m], [.veq, .h, .vx, .m], 1, [⟨26, 6, 6⟩, ⟨12, 2, 1⟩, ⟨5, 1, 1⟩, ⟨2, 3, 0⟩, ⟨0, 2, 2⟩], [], [.vs1, .vs2], [.vd], .vec (.bin .eq .i16) true true⟩,
  ⟨[.veq, .w, .vv], [.veq, .w, .vv], 1, [⟨26, 6, 6⟩, ⟨12, 2, 2⟩, ⟨5, 1, 0⟩, ⟨2, 3, 0⟩, ⟨0, 2, 0⟩], [], [.vs1, .vs2], [.vd], .vec (.bin .eq .i32) false false⟩,
  ⟨[.veq, .w, .vx], [.veq, .w, .vx], 1, [⟨26, 6, 6⟩, ⟨12, 2, 2⟩, ⟨5, 1, 0⟩, ⟨2, 3, 0⟩, ⟨0, 2, 2⟩], [], [.vs1, .vs2], [.vd], .vec (.bin .eq .i32) true false⟩,
  ⟨[.veq, .w, .vv, .m], [.veq, .w, .vv, .m], 1, [⟨26, 6, 6⟩, ⟨12, 2, 2⟩, ⟨5, 1, 1⟩, ⟨2, 3, 0⟩, ⟨0, 2, 0⟩], [], [.vs1, .vs2], [.vd], .vec (.bin .eq .i32) false true⟩,
  ⟨[.veq, .w, .vx, .m], [.veq, .w, .vx, .m], 1, [⟨26, 6, 6⟩, ⟨12, 2, 2⟩, ⟨5, 1, 1⟩, ⟨2, 3, 0⟩, ⟨0, 2, 2⟩], [], [.vs1, .vs2], [.vd], .vec (.bin .eq .i32) true true⟩,
  ⟨[.vne, .b, .vv], [.vne, .b, .vv], 1, [⟨26, 6, 7⟩, ⟨12, 2, 0⟩, ⟨5, 1, 0⟩, ⟨2, 3, 0⟩, ⟨0, 2, 0⟩], [], [.vs1, .vs2], [.vd], .vec (.bin .ne .i8) false false⟩,
  ⟨[.vne, .b, .vx], [.vne, .b, .vx], 1, [⟨26, 6, 7⟩, ⟨12, 2, 0⟩, ⟨5, 1, 0⟩, ⟨2, 3, 0⟩, ⟨0, 2, 2⟩], [], [.vs1, .vs2], [.vd], .vec (.bin .ne .i8) true false⟩,
  ⟨[.vne, .b, .vv, .m], [.vne, .b, .vv, .m], 1, [⟨26, 6, 7⟩, ⟨12, 2, 0⟩, ⟨5, 1, 1⟩, ⟨2, 3, 0⟩, ⟨0, 2, 0⟩], [], [.vs1, .vs2], [.vd], .vec (.bin .ne .i8) false true⟩,
  ⟨[.vne, .b, .vx, .m], [.vne, .b, .vx, .m], 1, [⟨26, 6, 7⟩, ⟨12, 2, 0⟩, ⟨5, 1, 1⟩, ⟨2, 3, 0⟩, ⟨0, 2, 2⟩], [], [.vs1, .vs2], [.vd], .vec (.bin .ne .i8) true true⟩,
  ⟨[.vne, .h, .vv], [.vne, .h, .vv], 1, [⟨26, 6, 7⟩, ⟨12, 2, 1⟩, ⟨5, 1, 0⟩, ⟨2, 3, 0⟩, ⟨0, 2, 0⟩], [], [.vs1, .vs2], [.vd], .vec (.bin .ne .i16) false false⟩,
  ⟨[.vne, .h, .vx], [.vne, .h, .vx], 1, [⟨26, 6, 7⟩, ⟨12, 2, 1⟩, ⟨5, 1, 0⟩, ⟨2, 3, 0⟩, ⟨0, 2, 2⟩], [], [.vs1, .vs2], [.vd], .vec (.bin .ne .i16) true false⟩,
  ⟨[.vne, .h, .vv, .m], [.vne, .h, .vv, .m], 1, [⟨26, 6, 7⟩, ⟨12, 2, 1⟩, ⟨5, 1, 1⟩, ⟨2, 3, 0⟩, ⟨0, 2, 0⟩], [], [.vs1, .vs2], [.vd], .vec (.bin .ne .i16) false true⟩,
  ⟨[.vne, .h, .vx, .m], [.vne, .h, .vx, .m], 1, [⟨26, 6, 7⟩, ⟨12, 2, 1⟩, ⟨5, 1, 1⟩, ⟨2, 3, 0⟩, ⟨0, 2, 2⟩], [], [.vs1, .vs2], [.vd], .vec (.bin .ne .i16) true true⟩,
  ⟨[.vne, .w, .vv], [.vne, .w, .vv], 1, [⟨26, 6, 7⟩, ⟨12, 2, 2⟩, ⟨5, 1, 0⟩, ⟨2, 3, 0⟩, ⟨0, 2, 0⟩], [], [.vs1, .vs2], [.vd], .vec (.bin .ne .i32) false false⟩,
  ⟨[.vne, .w, .vx], [.vne, .w, .vx], 1, [⟨26, 6, 7⟩, ⟨12, 2, 2⟩, ⟨5, 1, 0⟩, ⟨2, 3, 0⟩, ⟨0, 2, 2⟩], [], [.vs1, .vs2], [.vd], .vec (.bin .ne .i32) true false⟩,
  ⟨[.vne, .w, .vv, .m], [.vne, .w, .vv, .m], 1, [⟨26, 6, 7⟩, ⟨12, 2, 2⟩, ⟨5, 1, 1⟩, ⟨2, 3, 0⟩, ⟨0, 2, 0⟩], [], [.vs1, .vs2], [.vd], .vec (.bin .ne .i32) false true⟩,
  ⟨[.vne, .w, .vx, .m], [.vne, .w, .vx, .m], 1, [⟨26, 6, 7⟩, ⟨12, 2, 2⟩, ⟨5, 1, 1⟩, ⟨2, 3, 0⟩, ⟨0, 2, 2⟩], [], [.vs1, .vs2], [.vd], .vec (.bin .ne .i32) true true⟩]

def g1_1 : List Row := [
  ⟨[.vlt, .b, .vv], [.vlt, .b, .vv], 1, [⟨26, 6, 8⟩, ⟨12, 2, 0⟩, ⟨5, 1, 0⟩, ⟨2, 3, 0⟩, ⟨0, 2, 0⟩], [], [.vs1, .vs2], [.vd], .vec (.bin .lt .i8) false false⟩,
  ⟨[.vlt, .b, .vx], [.vlt, .b, .vx], 1, [⟨26, 6, 8⟩, ⟨12, 2, 0⟩, ⟨5, 1, 0⟩, ⟨2, 3, 0⟩, ⟨0, 2, 2⟩], [], [.vs1, .vs2], [.vd], .vec (.bin .lt .i8) true false⟩,
  ⟨[.vlt, .b, .vv, .m], [.vlt, .b, .vv, .m], 1, [⟨26, 6, 8⟩, ⟨12, 2, 0⟩, ⟨5, 1, 1⟩, ⟨2, 3, 0⟩, ⟨0, 2, 0⟩], [], [.vs1, .vs2], [.vd], .vec (.bin .lt .i8) false true⟩,
  ⟨[.vlt, .b, .vx, .m], [.vlt, .b, .vx, .m], 1, [⟨26, 6, 8⟩, ⟨12, 2, 0⟩, ⟨5, 1, 1⟩, ⟨2, 3, 0⟩, ⟨0, 2, 2⟩], [], [.vs1, .vs2], [.vd], .vec (.bin .lt .i8) true true⟩,
  ⟨[.vlt, .h, .vv], [.vlt, .h, .vv], 1, [⟨26, 6, 8⟩, ⟨12, 2, 1⟩, ⟨5, 1, 0⟩, ⟨2, 3, 0⟩, ⟨0, 2, 0⟩], [], [.vs1, .vs2], [.vd], .vec (.bin .lt .i16) false false⟩,
  ⟨[.vlt, .h, .vx], [.vlt, .h, .vx], 1, [⟨26, 6, 8⟩, ⟨12, 2, 1⟩, ⟨5, 1, 0⟩, ⟨2, 3, 0⟩, ⟨0, 2, 2⟩], [], [.vs1, .vs2], [.vd], .vec (.bin .lt .i16) true false⟩,
  ⟨[.vlt, .h, .vv, .m], [.vlt, .h, .vv, .m], 1, [⟨26, 6, 8⟩, ⟨12, 2, 1⟩, ⟨5, 1, 1⟩, ⟨2, 3, 0⟩, ⟨0, 2, 0⟩], [], [.vs1, .vs2], [.vd], .vec (.bin .lt .i16) false true⟩,
  ⟨[.vlt, .h, .vx, .m], [.vlt, .h, .vx, .m], 1, [⟨26, 6, 8⟩, ⟨12, 2, 1⟩, ⟨5, 1, 1⟩, ⟨2, 3, 0⟩, ⟨0, 2, 2⟩], [], [.vs1, .vs2], [.vd], .vec (.bin .lt .i16) true true⟩,
  ⟨[.vlt, .w, .vv], [.vlt, .w, .vv], 1, [⟨26, 6, 8⟩, ⟨12, 2, 2⟩, ⟨5, 1, 0⟩, ⟨2, 3, 0⟩, ⟨0, 2, 0⟩], [], [.vs1, .vs2], [.vd], .vec (.bin .lt .i32) false false⟩,
  ⟨[.vlt, .w, .vx], [.vlt, .w, .vx], 1, [⟨26, 6, 8⟩, ⟨12, 2, 2⟩, ⟨5, 1, 0⟩, ⟨2, 3, 0⟩, ⟨0, 2, 2⟩], [], [.vs1, .vs2], [.vd], .vec (.bin .lt .i32) true false⟩,
  ⟨[.vlt, .w, .vv, .m], [.vlt, .w, .vv, .m], 1, [⟨26, 6, 8⟩, ⟨12, 2, 2⟩, ⟨5, 1, 1⟩, ⟨2, 3, 0⟩, ⟨0, 2, 0⟩], [], [.vs1, .vs2], [.vd], .vec (.bin .lt .i32) false true⟩,
  ⟨[.vlt, .w, .vx, .m], [.vlt, .w, .vx, .m], 1, [⟨26, 6, 8⟩, ⟨12, 2, 2⟩, ⟨5, 1, 1⟩, ⟨2, 3, 0⟩, ⟨0, 2, 2⟩], [], [.vs1, .vs2], [.vd], .vec (.bin .lt .i32) true true⟩,
  ⟨[.vlt, .u, .b, .vv], [.vlt, .b, .u, .vv], 1, [⟨26, 6, 9⟩, ⟨12, 2, 0⟩, ⟨5, 1, 0⟩, ⟨2, 3, 0⟩, ⟨0, 2, 0⟩], [], [.vs1, .vs2], [.vd], .vec (.bin .lt .u8) false false⟩,
  ⟨[.vlt, .u, .b, .vx], [.vlt, .b, .u, .vx], 1, [⟨26, 6, 9⟩, ⟨12, 2, 0⟩, ⟨5, 1, 0⟩, ⟨2, 3, 0⟩, ⟨0, 2, 2⟩], [], [.vs1, .vs2], [.vd], .vec (.bin .lt .u8) true false⟩,
  ⟨[.vlt, .u, .b, .vv, .m], [.vlt, .b, .u, .vv, .m], 1, [⟨26, 6, 9⟩, ⟨12, 2, 0⟩, ⟨5, 1, 1⟩, ⟨2, 3, 0⟩, ⟨0, 2, 0⟩], [], [.vs1, .vs2], [.vd], .vec (.bin .lt .u8) false true⟩,
  ⟨[.vlt, .u, .b, .vx, .m], [.vlt, .b, .u, .vx, .m], 1, [⟨26, 6, 9⟩, ⟨12, 2, 0⟩, ⟨5, 1, 1⟩, ⟨2, 3, 0⟩, ⟨0, 2, 2⟩], [], [.vs1, .vs2], [.vd], .vec (.bin .lt .u8) true true⟩,
  ⟨[.vlt, .u, .h, .vv], [.vlt, .h, .u, .vv], 1, [⟨26, 6, 9⟩, ⟨12, 2, 1⟩, ⟨5, 1, 0⟩, ⟨2, 3, 0⟩, ⟨0, 2, 0⟩], [], [.vs1, .vs2], [.vd], .vec (.bin .lt .u16) false false⟩,
  ⟨[.vlt, .u, .h, .vx], [.vlt, .h, .u, .vx], 1, [⟨26, 6, 9⟩, ⟨12, 2, 1⟩, ⟨5, 1, 0⟩, ⟨2, 3, 0⟩, ⟨0, 2, 2⟩], [], [.vs1, .vs2], [.vd], .vec (.bin .lt .u16) true false⟩,
  ⟨[.vlt, .u, .h, .vv, .m], [.vlt, .h, .u, .vv, .m], 1, [⟨26, 6, 9⟩, ⟨12, 2, 1⟩, ⟨5, 1, 1⟩, ⟨2, 3, 0⟩, ⟨0, 2, 0⟩], [], [.vs1, .vs2], [.vd], .vec (.bin .lt .u16) false true⟩,
  ⟨[.vlt, .u, .h, .vx, .m], [.vlt, .h, .u, .vx, .m], 1, [⟨26, 6, 9⟩, ⟨12, 2, 1⟩, ⟨5, 1, 1⟩, ⟨2, 3, 0⟩, ⟨0, 2, 2⟩], [], [.vs1, .vs2], [.vd], .vec (.bin .lt .u16) true true⟩,
  ⟨[.vlt, .u, .w, .vv], [.vlt, .w, .u, .vv], 1, [⟨26, 6, 9⟩, ⟨12, 2, 2⟩, ⟨5, 1, 0⟩, ⟨2, 3, 0⟩, ⟨0, 2, 0⟩], [], [.vs1, .vs2], [.vd], .vec (.bin .lt .u32) false false⟩,
  ⟨[.vlt, .u, .w, .vx], [.vlt, .w, .u, .vx], 1, [⟨26, 6, 9⟩, ⟨12, 2, 2⟩, ⟨5, 1, 0⟩, ⟨2, 3, 0⟩, ⟨0, 2, 2⟩], [], [.vs1, .vs2], [.vd], .vec (.bin .lt .u32) true false⟩,
  ⟨[.vlt, .u, .w, .vv, .m], [.vlt, .w, .u, .vv, .m], 1, [⟨26, 6, 9⟩, ⟨12, 2, 2⟩, ⟨5, 1, 1⟩, ⟨2, 3, 0⟩, ⟨0, 2, 0⟩], [], [.vs1, .vs2], [.vd], .vec (.bin .lt .u32) false true⟩,
  ⟨[.vlt, .u, .w, .vx, .m], [.vlt, .w, .u, .vx, .m], 1, [⟨26, 6, 9⟩, ⟨12, 2, 2⟩, ⟨5, 1, 1⟩, ⟨2, 3, 0⟩, ⟨0, 2, 2⟩], [], [.vs1, .vs2], [.vd], .vec (.bin .lt .u32) true true⟩,
  ⟨[.vle, .b, .vv], [.vle, .b, .vv], 1, [⟨26, 6, 10⟩, ⟨12, 2, 0⟩, ⟨5, 1, 0⟩, ⟨2, 3, 0⟩, ⟨0, 2, 0⟩], [], [.vs1, .vs2], [.vd], .vec (.bin .le .i8) false false⟩,
  ⟨[.vle, .b, .vx], [.vle, .b, .vx], 1, [⟨26, 6, 10⟩, ⟨12, 2, 0⟩, ⟨5, 1, 0⟩, ⟨2, 3, 0⟩, ⟨0, 2, 2⟩], [], [.vs1, .vs2], [.vd], .vec (.bin .le .i8) true false⟩,
  ⟨[.vle, .b, .vv, .m], [.vle, .b, .vv, .m], 1, [⟨26, 6, 10⟩, ⟨12, 2, 0⟩, ⟨5, 1, 1⟩, ⟨2, 3, 0⟩, ⟨0, 2, 0⟩], [], [.vs1, .vs2], [.vd], .vec (.bin .le .i8) false true⟩,
  ⟨[.vle, .b, .vx, .m], [.vle, .b, .vx, .m], 1, [⟨26, 6, 10⟩, ⟨12, 2, 0⟩, ⟨5, 1, 1⟩, ⟨2, 3, 0⟩, ⟨0, 2, 2⟩], [], [.vs1, .vs2], [.vd], .vec (.bin .le .i8) true true⟩,
  ⟨[.vle, .h, .vv], [.vle, .h, .vv], 1, [⟨26, 6, 10⟩, ⟨12, 2, 1⟩, ⟨5, 1, 0⟩, ⟨2, 3, 0⟩, ⟨0, 2, 0⟩], [], [.vs1, .vs2], [.vd], .vec (.bin .le .i16) false false⟩,
  ⟨[.vle, .h, .vx], [.vle, .h, .vx], 1, [⟨26, 6, 10⟩, ⟨12, 2, 1⟩, ⟨5, 1, 0⟩, ⟨2, 3, 0⟩, ⟨0, 2, 2⟩], [], [.vs1, .vs2], [.vd], .vec (.bin .le .i16) true false⟩,
  ⟨[.vle, .h, .vv, .m], [.vle, .h, .vv, .m], 1, [⟨26, 6, 10⟩, ⟨12, 2, 1⟩, ⟨5, 1, 1⟩, ⟨2, 3, 0⟩, ⟨0, 2, 0⟩], [], [.vs1, .vs2], [.vd], .vec (.bin .le .i16) false true⟩,
  ⟨[.vle, .h, .vx, .m], [.vle, .h, .vx, .m], 1, [⟨26, 6, 10⟩, ⟨12, 2, 1⟩, ⟨5, 1, 1⟩, ⟨2, 3, 0⟩, ⟨0, 2, 2⟩], [], [.vs1, .vs2], [.vd], .vec (.bin .le .i16) true true⟩,
  ⟨[.vle, .w, .vv], [.vle, .w, .vv], 1, [⟨26, 6, 10⟩, ⟨12, 2, 2⟩, ⟨5, 1, 0⟩, ⟨2, 3, 0⟩, ⟨0, 2, 0⟩], [], [.vs1, .vs2], [.vd], .vec (.bin .le .i32) false false⟩,
  ⟨[.vle, .w, .vx], [.vle, .w, .vx], 1, [⟨26, 6, 10⟩, ⟨12, 2, 2⟩, ⟨5, 1, 0⟩, ⟨2, 3, 0⟩, ⟨0, 2, 2⟩], [], [.vs1, .vs2], [.vd], .vec (.bin .le .i32) true false⟩,
  ⟨[.vle, .w, .vv, .m], [.vle, .w, .vv, .m], 1, [⟨26, 6, 10⟩, ⟨12, 2, 2⟩, ⟨5, 1, 1⟩, ⟨2, 3, 0⟩, ⟨0, 2, 0⟩], [], [.vs1, .vs2], [.vd], .vec (.bin .le .i32) false true⟩,
  ⟨[.vle, .w, .vx, .m], [.vle, .w, .vx, .m], 1, [⟨26, 6, 10⟩, ⟨12, 2, 2⟩, ⟨5, 1, 1⟩, ⟨2, 3, 0⟩, ⟨0, 2, 2⟩], [], [.vs1, .vs2], [.vd], .vec (.bin .le .i32) true true⟩,
  ⟨[.vle, .u, .b, .vv], [.vle, .b, .u, .vv], 1, [⟨26, 6, 11⟩, ⟨12, 2, 0⟩, ⟨5, 1, 0⟩, ⟨2, 3, 0⟩, ⟨0, 2, 0⟩], [], [.vs1, .vs2], [.vd], .vec (.bin .le .u8) false false⟩,
  ⟨[.vle, .u, .b, .vx], [.vle, .b, .u, .vx], 1, [⟨26, 6, 11⟩, ⟨12, 2, 0⟩, ⟨5, 1, 0⟩, ⟨2, 3, 0⟩, ⟨0, 2, 2⟩], [], [.vs1, .vs2], [.vd], .vec (.bin .le .u8) true false⟩,
  ⟨[.vle, .u, .b, .vv, .m], [.vle, .b, .u, .vv, .m], 1, [⟨26, 6, 11⟩, ⟨12, 2, 0⟩, ⟨5, 1, 1⟩, ⟨2, 3, 0⟩, ⟨0, 2, 0⟩], [], [.vs1, .vs2], [.vd], .vec (.bin .le .u8) false true⟩,
  ⟨[.vle, .u, .b, .vx, .m], [.vle, .b, .u, .vx, .m], 1, [⟨26, 6, 11⟩, ⟨12, 2, 0⟩, ⟨5, 1, 1⟩, ⟨2, 3, 0⟩, ⟨0, 2, 2⟩], [], [.vs1, .vs2], [.vd], .vec (.bin .le .u8) true true⟩,
  ⟨[.vle, .u, .h, .vv], [.vle, .h, .u, .vv], 1, [⟨26, 6, 11⟩, ⟨12, 2, 1⟩, ⟨5, 1, 0⟩, ⟨2, 3, 0⟩, ⟨0, 2, 0⟩], [], [.vs1, .vs2], [.vd], .vec (.bin .le .u16) false false⟩,
  ⟨[.vle, .u, .h, .vx], [.vle, .h, .u, .vx], 1, [⟨26, 6, 11⟩, ⟨12, 2, 1⟩, ⟨5, 1, 0⟩, ⟨2, 3, 0⟩, ⟨0, 2, 2⟩], [], [.vs1, .vs2], [.vd], .vec (.bin .le .u16) true false⟩,
  ⟨[.vle, .u, .h, .vv, .m], [.vle, .h, .u, .vv, .m], 1, [⟨26, 6, 11⟩, ⟨12, 2, 1⟩, ⟨5, 1, 1⟩, ⟨2, 3, 0⟩, ⟨0, 2, 0⟩], [], [.vs1, .vs2], [.vd], .vec (.bin .le .u16) false true⟩,
  ⟨[.vle, .u, .h, .vx, .m], [.vle, .h, .u, .vx, .m], 1, [⟨26, 6, 11⟩, ⟨12, 2, 1⟩, ⟨5, 1, 1⟩, ⟨2, 3, 0⟩, ⟨0, 2, 2⟩], [], [.vs1, .vs2], [.vd], .vec (.bin .le .u16) true true⟩,
  ⟨[.vle, .u, .w, .vv], [.vle, .w, .u, .vv], 1, [⟨26, 6, 11⟩, ⟨12, 2, 2⟩, ⟨5, 1, 0⟩, ⟨2, 3, 0⟩, ⟨0, 2, 0⟩], [], [.vs1, .vs2], [.vd], .vec (.bin .le .u32) false false⟩,
  ⟨[.vle, .u, .w, .vx], [.vle, .w, .u, .vx], 1, [⟨26, 6, 11⟩, ⟨12, 2, 2⟩, ⟨5, 1, 0⟩, ⟨2, 3, 0⟩, ⟨0, 2, 2⟩], [], [.vs1, .vs2], [.vd], .vec (.bin .le .u32) true false⟩,
  ⟨[.vle, .u, .w, .vv, .m], [.vle, .w, .u, .vv, .m], 1, [⟨26, 6, 11⟩, ⟨12, 2, 2⟩, ⟨5, 1, 1⟩, ⟨2, 3, 0⟩, ⟨0, 2, 0⟩], [], [.vs1, .vs2], [.vd], .vec (.bin .le .u32) false true⟩,
  ⟨[.vle, .u, .w, .vx, .m], [.vle, .w, .u, .vx, .m], 1, [⟨26, 6, 11⟩, ⟨12, 2, 2⟩, ⟨5, 1, 1⟩, ⟨2, 3, 0⟩, ⟨0, 2, 2⟩], [], [.vs1, .vs2], [.vd], .vec (.bin .le .u32) true true⟩,
  ⟨[.vgt, .b, .vv], [.vgt, .b, .vv], 1, [⟨26, 6, 12⟩, ⟨12, 2, 0⟩, ⟨5, 1, 0⟩, ⟨2, 3, 0⟩, ⟨0, 2, 0⟩], [], [.vs1, .vs2], [.vd], .vec (.bin .gt .i8) false false⟩,
  ⟨[.vgt, .b, .vx], [.vgt, .b, .vx], 1, [⟨26, 6, 12⟩, ⟨12, 2, 0⟩, ⟨5, 1, 0⟩, ⟨2, 3, 0⟩, ⟨0, 2, 2⟩], [], [.vs1, .vs2], [.vd], .vec (.bin .gt .i8) true false⟩,
  ⟨[.vgt, .b, .vv, .m], [.vgt, .b, .vv, .m], 1, [⟨26, 6, 12⟩, ⟨12, 2, 0⟩, ⟨5, 1, 1⟩, ⟨2, 3, 0⟩, ⟨0, 2, 0⟩], [], [.vs1, .vs2], [.vd], .vec (.bin .gt .i8) false true⟩,
  ⟨[.vgt, .b, .vx, .m], [.vgt, .b, .vx, .m], 1, [⟨26, 6, 12⟩, ⟨12, 2, 0⟩, ⟨5, 1, 1⟩, ⟨2, 3, 0⟩, ⟨0, 2, 2⟩], [], [.vs1, .vs2], [.vd], .vec (.bin .gt .i8) true true⟩,
  ⟨[.vgt, .h, .vv], [.vgt, .h, .vv], 1, [⟨26, 6, 12⟩, ⟨12, 2, 1⟩, ⟨5, 1, 0⟩, ⟨2, 3, 0⟩, ⟨0, 2, 0⟩], [], [.vs1, .vs2], [.vd], .vec (.bin .gt .i16) false false⟩,
  ⟨[.vgt, .h, .vx], [.vgt, .h, .vx], 1, [⟨26, 6, 12⟩, ⟨12, 2, 1⟩, ⟨5, 1, 0⟩, ⟨2, 3, 0⟩, ⟨0, 2, 2⟩], [], [.vs1, .vs2], [.vd], .vec (.bin .gt .i16) true false⟩,
  ⟨[.vgt, .h, .vv, .m], [.vgt, .h, .vv, .m], 1, [⟨26, 6, 12⟩, ⟨12, 2, 1⟩, ⟨5, 1, 1⟩, ⟨2, 3, 0⟩, ⟨0, 2, 0⟩], [], [.vs1, .vs2], [.vd], .vec (.bin .gt .i16) false true⟩,
  ⟨[.vgt, .h, .vx, .m], [.vgt, .h, .vx, .m], 1, [⟨26, 6, 12⟩, ⟨12, 2, 1⟩, ⟨5, 1, 1⟩, ⟨2, 3, 0⟩, ⟨0, 2, 2⟩], [], [.vs1, .vs2], [.vd], .vec (.bin .gt .i16) true true⟩,
  ⟨[.vgt, .w, .vv], [.vgt, .w, .vv], 1, [⟨26, 6, 12⟩, ⟨12, 2, 2⟩, ⟨5, 1, 0⟩, ⟨2, 3, 0⟩, ⟨0, 2, 0⟩], [], [.vs1, .vs2], [.vd], .vec (.bin .gt .i32) false false⟩,
  ⟨[.vgt, .w, .vx], [.vgt, .w, .vx], 1, [⟨26, 6, 12⟩, ⟨12, 2, 2⟩, ⟨5, 1, 0⟩, ⟨2, 3, 0⟩, ⟨0, 2, 2⟩], [], [.vs1, .vs2], [.vd], .vec (.bin .gt .i32) true false⟩,
  ⟨[.vgt, .w, .vv, .m], [.vgt, .w, .vv, .m], 1, [⟨26, 6, 12⟩, ⟨12, 2, 2⟩, ⟨5, 1, 1⟩, ⟨2, 3, 0⟩, ⟨0, 2, 0⟩], [], [.vs1, .vs2], [.vd], .vec (.bin .gt .i32) false true⟩,
  ⟨[.vgt, .w, .vx, .m], [.vgt, .w, .vx, .m], 1, [⟨26, 6, 12⟩, ⟨12, 2, 2⟩, ⟨5, 1, 1⟩, ⟨2, 3, 0⟩, ⟨0, 2, 2⟩], [], [.vs1, .vs2], [.vd], .vec (.bin .gt .i32) true true⟩]

def g1_2 : List Row := [
  ⟨[.vgt, .u, .b, .vv], [.vgt, .b, .u, .vv], 1, [⟨26, 6, 13⟩, ⟨12, 2, 0⟩, ⟨5, 1, 0⟩, ⟨2, 3, 0⟩, ⟨0, 2, 0⟩], [], [.vs1, .vs2], [.vd], .vec (.bin .gt .u8) false false⟩,
  ⟨[.vgt, .u, .b, .vx], [.vgt, .b, .u, .vx], 1, [⟨26, 6, 13⟩, ⟨12, 2, 0⟩, ⟨5, 1, 0⟩, ⟨2, 3, 0⟩, ⟨0, 2, 2⟩], [], [.vs1, .vs2], [.vd], .vec (.bin .gt .u8) true false⟩,
  ⟨[.vgt, .u, .b, .vv, .m], [.vgt, .b, .u, .vv, .m], 1, [⟨26, 6, 13⟩, ⟨12, 2, 0⟩, ⟨5, 1, 1⟩, ⟨2, 3, 0⟩, ⟨0, 2, 0⟩], [], [.vs1, .vs2], [.vd], .vec (.bin .gt .u8) false true⟩,
  ⟨[.vgt, .u, .b, .vx, .m], [.vgt, .b, .u, .vx, .m], 1, [⟨26, 6, 13⟩, ⟨12, 2, 0⟩, ⟨5, 1, 1⟩, ⟨2, 3, 0⟩, ⟨0, 2, 2⟩], [], [.vs1, .vs2], [.vd], .vec (.bin .gt .u8) true true⟩,
  ⟨[.vgt, .u, .h, .vv], [.vgt, .h, .u, .vv], 1, [⟨26, 6, 13⟩, ⟨12, 2, 1⟩, ⟨5, 1, 0⟩, ⟨2, 3, 0⟩, ⟨0, 2, 0⟩], [], [.vs1, .vs2], [.vd], .vec (.bin .gt .u16) false false⟩,
  ⟨[.vgt, .u, .h, .vx], [.vgt, .h, .u, .vx], 1, [⟨26, 6, 13⟩, ⟨12, 2, 1⟩, ⟨5, 1, 0⟩, ⟨2, 3, 0⟩, ⟨0, 2, 2⟩], [], [.vs1, .vs2], [.vd], .vec (.bin .gt .u16) true false⟩,
  ⟨[.vgt, .u, .h, .vv, .m], [.vgt, .h, .u, .vv, .m], 1, [⟨26, 6, 13⟩, ⟨12, 2, 1⟩, ⟨5, 1, 1⟩, ⟨2, 3, 0⟩, ⟨0, 2, 0⟩], [], [.vs1, .vs2], [.vd], .vec (.bin .gt .u16) false true⟩,
  ⟨[.vgt, .u, .h, .vx, .m], [.vgt, .h, .u, .vx, .m], 1, [⟨26, 6, 13⟩, ⟨12, 2, 1⟩, ⟨5, 1, 1⟩, ⟨2, 3, 0⟩, ⟨0, 2, 2⟩], [], [.vs1, .vs2], [.vd], .vec (.bin .gt .u16) true true⟩,
  ⟨[.vgt, .u, .w, .vv], [.vgt, .w, .u, .vv], 1, [⟨26, 6, 13⟩, ⟨12, 2, 2⟩, ⟨5, 1, 0⟩, ⟨2, 3, 0⟩, ⟨0, 2, 0⟩], [], [.vs1, .vs2], [.vd], .vec (.bin .gt .u32) false false⟩,
  ⟨[.vgt, .u, .w, .vx], [.vgt, .w, .u, .vx], 1, [⟨26, 6, 13⟩, ⟨12, 2, 2⟩, ⟨5, 1, 0⟩, ⟨2, 3, 0⟩, ⟨0, 2, 2⟩], [], [.vs1, .vs2], [.vd], .vec (.bin .gt .u32) true false⟩,
  ⟨[.vgt, .u, .w, .vv, .m], [.vgt, .w, .u, .vv, .m], 1, [⟨26, 6, 13⟩, ⟨12, 2, 2⟩, ⟨5, 1, 1⟩, ⟨2, 3, 0⟩, ⟨0, 2, 0⟩], [], [.vs1, .vs2], [.vd], .vec (.bin .gt .u32) false true⟩,
  ⟨[.vgt, .u, .w, .vx, .m], [.vgt, .w, .u, .vx, .m], 1, [⟨26, 6, 13⟩, ⟨12, 2, 2⟩, ⟨5, 1, 1⟩, ⟨2, 3, 0⟩, ⟨0, 2, 2⟩], [], [.vs1, .vs2], [.vd], .vec (.bin .gt .u32) true true⟩,
  ⟨[.vge, .b, .vv], [.vge, .b, .vv], 1, [⟨26, 6, 14⟩, ⟨12, 2, 0⟩, ⟨5, 1, 0⟩, ⟨2, 3, 0⟩, ⟨0, 2, 0⟩], [], [.vs1, .vs2], [.vd], .vec (.bin .ge .i8) false false⟩,
  ⟨[.vge, .b, .vx], [.vge, .b, .vx], 1, [⟨26, 6, 14⟩, ⟨12, 2, 0⟩, ⟨5, 1, 0⟩, ⟨2, 3, 0⟩, ⟨0, 2, 2⟩], [], [.vs1, .vs2], [.vd], .vec (.bin .ge .i8) true false⟩,
  ⟨[.vge, .b, .vv, .m], [.vge, .b, .vv, .m], 1, [⟨26, 6, 14⟩, ⟨12, 2, 0⟩, ⟨5, 1, 1⟩, ⟨2, 3, 0⟩, ⟨0, 2, 0⟩], [], [.vs1, .vs2], [.vd], .vec (.bin .ge .i8) false true⟩,
  ⟨[.vge, .b, .vx, .m], [.vge, .b, .vx, .m], 1, [⟨26, 6, 14⟩, ⟨12, 2, 0⟩, ⟨5, 1, 1⟩, ⟨2, 3, 0⟩, ⟨0, 2, 2⟩], [], [.vs1, .vs2], [.vd], .vec (.bin .ge .i8) true true⟩,
  ⟨[.vge, .h, .vv], [.vge, .h, .vv], 1, [⟨26, 6, 14⟩, ⟨12, 2, 1⟩, ⟨5, 1, 0⟩, ⟨2, 3, 0⟩, ⟨0, 2, 0⟩], [], [.vs1, .vs2], [.vd], .vec (.bin .ge .i16) false false⟩,
  ⟨[.vge, .h, .vx], [.vge, .h, .vx], 1, [⟨26, 6, 14⟩, ⟨12, 2, 1⟩, ⟨5, 1, 0⟩, ⟨2, 3, 0⟩, ⟨0, 2, 2⟩], [], [.vs1, .vs2], [.vd], .vec (.bin .ge .i16) true false⟩,
  ⟨[.vge, .h, .vv, .m], [.vge, .h, .vv, .m], 1, [⟨26, 6, 14⟩, ⟨12, 2, 1⟩, ⟨5, 1, 1⟩, ⟨2, 3, 0⟩, ⟨0, 2, 0⟩], [], [.vs1, .vs2], [.vd], .vec (.bin .ge .i16) false true⟩,
  ⟨[.vge, .h, .vx, .m], [.vge, .h, .vx, .m], 1, [⟨26, 6, 14⟩, ⟨12, 2, 1⟩, ⟨5, 1, 1⟩, ⟨2, 3, 0⟩, ⟨0, 2, 2⟩], [], [.vs1, .vs2], [.vd], .vec (.bin .ge .i16) true true⟩,
  ⟨[.vge, .w, .vv], [.vge, .w, .vv], 1, [⟨26, 6, 14⟩, ⟨12, 2, 2⟩, ⟨5, 1, 0⟩, ⟨2, 3, 0⟩, ⟨0, 2, 0⟩], [], [.vs1, .vs2], [.vd], .vec (.bin .ge .i32) false false⟩,
  ⟨[.vge, .w, .vx], [.vge, .w, .vx], 1, [⟨26, 6, 14⟩, ⟨12, 2, 2⟩, ⟨5, 1, 0⟩, ⟨2, 3, 0⟩, ⟨0, 2, 2⟩], [], [.vs1, .vs2], [.vd], .vec (.bin .ge .i32) true false⟩,
  ⟨[.vge, .w, .vv, .m], [.vge, .w, .vv, .m], 1, [⟨26, 6, 14⟩, ⟨12, 2, 2⟩, ⟨5, 1, 1⟩, ⟨2, 3, 0⟩, ⟨0, 2, 0⟩], [], [.vs1, .vs2], [.vd], .vec (.bin .ge .i32) false true⟩,
  ⟨[.vge, .w, .vx, .m], [.vge, .w, .vx, .m], 1, [⟨26, 6, 14⟩, ⟨12, 2, 2⟩, ⟨5, 1, 1⟩, ⟨2, 3, 0⟩, ⟨0, 2, 2⟩], [], [.vs1, .vs2], [.vd], .vec (.bin .ge .i32) true true⟩,
  ⟨[.vge, .u, .b, .vv], [.vge, .b, .u, .vv], 1, [⟨26, 6, 15⟩, ⟨12, 2, 0⟩, ⟨5, 1, 0⟩, ⟨2, 3, 0⟩, ⟨0, 2, 0⟩], [], [.vs1, .vs2], [.vd], .vec (.bin .ge .u8) false false⟩,
  ⟨[.vge, .u, .b, .vx], [.vge, .b, .u, .vx], 1, [⟨26, 6, 15⟩, ⟨12, 2, 0⟩, ⟨5, 1, 0⟩, ⟨2, 3, 0⟩, ⟨0, 2, 2⟩], [], [.vs1, .vs2], [.vd], .vec (.bin .ge .u8) true false⟩,
  ⟨[.vge, .u, .b, .vv, .m], [.vge, .b, .u, .vv, .m], 1, [⟨26, 6, 15⟩, ⟨12, 2, 0⟩, ⟨5, 1, 1⟩, ⟨2, 3, 0⟩, ⟨0, 2, 0⟩], [], [.vs1, .vs2], [.vd], .vec (.bin .ge .u8) false true⟩,
  ⟨[.vge, .u, .b, .vx, .m], [.vge, .b, .u, .vx, .m], 1, [⟨26, 6, 15⟩, ⟨12, 2, 0⟩, ⟨5, 1, 1⟩, ⟨2, 3, 0⟩, ⟨0, 2, 2⟩], [], [.vs1, .vs2], [.vd], .vec (.bin .ge .u8) true true⟩,
  ⟨[.vge, .u, .h, .vv], [.vge, .h, .u, .vv], 1, [⟨26, 6, 15⟩, ⟨12, 2, 1⟩, ⟨5, 1, 0⟩, ⟨2, 3, 0⟩, ⟨0, 2, 0⟩], [], [.vs1, .vs2], [.vd], .vec (.bin .ge .u16) false false⟩,
  ⟨[.vge, .u, .h, .vx], [.vge, .h, .u, .vx], 1, [⟨26, 6, 15⟩, ⟨12, 2, 1⟩, ⟨5, 1, 0⟩, ⟨2, 3, 0⟩, ⟨0, 2, 2⟩], [], [.vs1, .vs2], [.vd], .vec (.bin .ge .u16) true false⟩,
  ⟨[.vge, .u, .h, .vv, .m], [.vge, .h, .u, .vv, .m], 1, [⟨26, 6, 15⟩, ⟨12, 2, 1⟩, ⟨5, 1, 1⟩, ⟨2, 3, 0⟩, ⟨0, 2, 0⟩], [], [.vs1, .vs2], [.vd], .vec (.bin .ge .u16) false true⟩,
  ⟨[.vge, .u, .h, .vx, .m], [.vge, .h, .u, .vx, .m], 1, [⟨26, 6, 15⟩, ⟨12, 2, 1⟩, ⟨5, 1, 1⟩, ⟨2, 3, 0⟩, ⟨0, 2, 2⟩], [], [.vs1, .vs2], [.vd], .vec (.bin .ge .u16) true true⟩,
  ⟨[.vge, .u, .w, .vv], [.vge, .w, .u, .vv], 1, [⟨26, 6, 15⟩, ⟨12, 2, 2⟩, ⟨5, 1, 0⟩, ⟨2, 3, 0⟩, ⟨0, 2, 0⟩], [], [.vs1, .vs2], [.vd], .vec (.bin .ge .u32) false false⟩,
  ⟨[.vge, .u, .w, .vx], [.vge, .w, .u, .vx], 1, [⟨26, 6, 15⟩, ⟨12, 2, 2⟩, ⟨5, 1, 0⟩, ⟨2, 3, 0⟩, ⟨0, 2, 2⟩], [], [.vs1, .vs2], [.vd], .vec (.bin .ge .u32) true false⟩,
  ⟨[.vge, .u, .w, .vv, .m], [.vge, .w, .u, .vv, .m], 1, [⟨26, 6, 15⟩, ⟨12, 2, 2⟩, ⟨5, 1, 1⟩, ⟨2, 3, 0⟩, ⟨0, 2, 0⟩], [], [.vs1, .vs2], [.vd], .vec (.bin .ge .u32) false true⟩,
  ⟨[.vge, .u, .w, .vx, .m], [.vge, .w, .u, .vx, .m], 1, [⟨26, 6, 15⟩, ⟨12, 2, 2⟩, ⟨5, 1, 1⟩, ⟨2, 3, 0⟩, ⟨0, 2, 2⟩], [], [.vs1, .vs2], [.vd], .vec (.bin .ge .u32) true true⟩,
  ⟨[.vabsd, .b, .vv], [.vabsd, .b, .vv], 1, [⟨26, 6, 16⟩, ⟨12, 2, 0⟩, ⟨5, 1, 0⟩, ⟨2, 3, 0⟩, ⟨0, 2, 0⟩], [], [.vs1, .vs2], [.vd], .vec (.bin .absd .i8) false false⟩,
  ⟨[.vabsd, .b, .vx], [.vabsd, .b, .vx], 1, [⟨26, 6, 16⟩, ⟨12, 2, 0⟩, ⟨5, 1, 0⟩, ⟨2, 3, 0⟩, ⟨0, 2, 2⟩], [], [.vs1, .vs2], [.vd], .vec (.bin .absd .i8) true false⟩,
  ⟨[.vabsd, .b, .vv, .m], [.vabsd, .b, .vv, .m], 1, [⟨26, 6, 16⟩, ⟨12, 2, 0⟩, ⟨5, 1, 1⟩, ⟨2, 3, 0⟩, ⟨0, 2, 0⟩], [], [.vs1, .vs2], [.vd], .vec (.bin .absd .i8) false true⟩,
  ⟨[.vabsd, .b, .vx, .m], [.vabsd, .b, .vx, .m], 1, [⟨26, 6, 16⟩, ⟨12, 2, 0⟩, ⟨5, 1, 1⟩, ⟨2, 3, 0⟩, ⟨0, 2, 2⟩], [], [.vs1, .vs2], [.vd], .vec (.bin .absd .i8) true true⟩,
  ⟨[.vabsd, .h, .vv], [.vabsd, .h, .vv], 1, [⟨26, 6, 16⟩, ⟨12, 2, 1⟩, ⟨5, 1, 0⟩, ⟨2, 3, 0⟩, ⟨0, 2, 0⟩], [], [.vs1, .vs2], [.vd], .vec (.bin .absd .i16) false false⟩,
  ⟨[.vabsd, .h, .vx], [.vabsd, .h, .vx], 1, [⟨26, 6, 16⟩, ⟨12, 2, 1⟩, ⟨5, 1, 0⟩, ⟨2, 3, 0⟩, ⟨0, 2, 2⟩], [], [.vs1, .vs2], [.vd], .vec (.bin .absd .i16) true false⟩,
  ⟨[.vabsd, .h, .vv, .m], [.vabsd, .h, .vv, .m], 1, [⟨26, 6, 16⟩, ⟨12, 2, 1⟩, ⟨5, 1, 1⟩, ⟨2, 3, 0⟩, ⟨0, 2, 0⟩], [], [.vs1, .vs2], [.vd], .vec (.bin .absd .i16) false true⟩,
  ⟨[.vabsd, .h, .vx, .m], [.vabsd, .h, .vx, .m], 1, [⟨26, 6, 16⟩, ⟨12, 2, 1⟩, ⟨5, 1, 1⟩, ⟨2, 3, 0⟩, ⟨0, 2, 2⟩], [], [.vs1, .vs2], [.vd], .vec (.bin .absd .i16) true true⟩,
  ⟨[.vabsd, .w, .vv], [.vabsd, .w, .vv], 1, [⟨26, 6, 16⟩, ⟨12, 2, 2⟩, ⟨5, 1, 0⟩, ⟨2, 3, 0⟩, ⟨0, 2, 0⟩], [], [.vs1, .vs2], [.vd], .vec (.bin .absd .i32) false false⟩,
  ⟨[.vabsd, .w, .vx], [.vabsd, .w, .vx], 1, [⟨26, 6, 16⟩, ⟨12, 2, 2⟩, ⟨5, 1, 0⟩, ⟨2, 3, 0⟩, ⟨0, 2, 2⟩], [], [.vs1, .vs2], [.vd], .vec (.bin .absd .i32) true false⟩,
  ⟨[.vabsd, .w, .vv, .m], [.vabsd, .w, .vv, .m], 1, [⟨26, 6, 16⟩, ⟨12, 2, 2⟩, ⟨5, 1, 1⟩, ⟨2, 3, 0⟩, ⟨0, 2, 0⟩], [], [.vs1, .vs2], [.vd], .vec (.bin .absd .i32) false true⟩,
  ⟨[.vabsd, .w, .vx, .m], [.vabsd, .w, .vx, .m], 1, [⟨26, 6, 16⟩, ⟨12, 2, 2⟩, ⟨5, 1, 1⟩, ⟨2, 3, 0⟩, ⟨0, 2, 2⟩], [], [.vs1, .vs2], [.vd], .vec (.bin .absd .i32) true true⟩,
  ⟨[.vabsd, .u, .b, .vv], [.vabsd, .b, .u, .vv], 1, [⟨26, 6, 17⟩, ⟨12, 2, 0⟩, ⟨5, 1, 0⟩, ⟨2, 3, 0⟩, ⟨0, 2, 0⟩], [], [.vs1, .vs2], [.vd], .vec (.bin .absd .u8) false false⟩,
  ⟨[.vabsd, .u, .b, .vx], [.vabsd, .b, .u, .vx], 1, [⟨26, 6, 17⟩, ⟨12, 2, 0⟩, ⟨5, 1, 0⟩, ⟨2, 3, 0⟩, ⟨0, 2, 2⟩], [], [.vs1, .vs2], [.vd], .vec (.bin .absd .u8) true false⟩,
  ⟨[.vabsd, .u, .b, .vv, .m], [.vabsd, .b, .u, .vv, .m], 1, [⟨26, 6, 17⟩, ⟨12, 2, 0⟩, ⟨5, 1, 1⟩, ⟨2, 3, 0⟩, ⟨0, 2, 0⟩], [], [.vs1, .vs2], [.vd], .vec (.bin .absd .u8) false true⟩,
  ⟨[.vabsd, .u, .b, .vx, .m], [.vabsd, .b, .u, .vx, .m], 1, [⟨26, 6, 17⟩, ⟨12, 2, 0⟩, ⟨5, 1, 1⟩, ⟨2, 3, 0⟩, ⟨0, 2, 2⟩], [], [.vs1, .vs2], [.vd], .vec (.bin .absd .u8) true true⟩,
  ⟨[.vabsd, .u, .h, .vv], [.vabsd, .h, .u, .vv], 1, [⟨26, 6, 17⟩, ⟨12, 2, 1⟩, ⟨5, 1, 0⟩, ⟨2, 3, 0⟩, ⟨0, 2, 0⟩], [], [.vs1, .vs2], [.vd], .vec (.bin .absd .u16) false false⟩,
  ⟨[.vabsd, .u, .h, .vx], [.vabsd, .h, .u, .vx], 1, [⟨26, 6, 17⟩, ⟨12, 2, 1⟩, ⟨5, 1, 0⟩, ⟨2, 3, 0⟩, ⟨0, 2, 2⟩], [], [.vs1, .vs2], [.vd], .vec (.bin .absd .u16) true false⟩,
  ⟨[.vabsd, .u, .h, .vv, .m], [.vabsd, .h, .u, .vv, .m], 1, [⟨26, 6, 17⟩, ⟨12, 2, 1⟩, ⟨5, 1, 1⟩, ⟨2, 3, 0⟩, ⟨0, 2, 0⟩], [], [.vs1, .vs2], [.vd], .vec (.bin .absd .u16) false true⟩,
  ⟨[.vabsd, .u, .h, .vx, .m], [.vabsd, .h, .u, .vx, .m], 1, [⟨26, 6, 17⟩, ⟨12, 2, 1⟩, ⟨5, 1, 1⟩, ⟨2, 3, 0⟩, ⟨0, 2, 2⟩], [], [.vs1, .vs2], [.vd], .vec (.bin .absd .u16) true true⟩,
  ⟨[.vabsd, .u, .w, .vv], [.vabsd, .w, .u, .vv], 1, [⟨26, 6, 17⟩, ⟨12, 2, 2⟩, ⟨5, 1, 0⟩, ⟨2, 3, 0⟩, ⟨0, 2, 0⟩], [], [.vs1, .vs2], [.vd], .vec (.bin .absd .u32) false false⟩,
  ⟨[.vabsd, .u, .w, .vx], [.vabsd, .w, .u, .vx], 1, [⟨26, 6, 17⟩, ⟨12, 2, 2⟩, ⟨5, 1, 0⟩, ⟨2, 3, 0⟩, ⟨0, 2, 2⟩], [], [.vs1, .vs2], [.vd], .vec (.bin .absd .u32) true false⟩,
  ⟨[.vabsd, .u, .w, .vv, .m], [.vabsd, .w, .u, .vv, .m], 1, [⟨26, 6, 17⟩, ⟨12, 2, 2⟩, ⟨5, 1, 1⟩, ⟨2, 3, 0⟩, ⟨0, 2, 0⟩], [], [.vs1, .vs2], [.vd], .vec (.bin .absd .u32) false true⟩,
  ⟨[.vabsd, .u, .w, .vx, .m], [.vabsd, .w, .u, .vx, .m], 1, [⟨26, 6, 17⟩, ⟨12, 2, 2⟩, ⟨5, 1, 1⟩, ⟨2, 3, 0⟩, ⟨0, 2, 2⟩], [], [.vs1, .vs2], [.vd], .vec (.bin .absd .u32) true true⟩]

def g1_3 : List Row := [
  ⟨[.vmax, .b, .vv], [.vmax, .b, .vv], 1, [⟨26, 6, 18⟩, ⟨12, 2, 0⟩, ⟨5, 1, 0⟩, ⟨2, 3, 0⟩, ⟨0, 2, 0⟩], [], [.vs1, .vs2], [.vd], .vec (.bin .max .i8) false false⟩,
  ⟨[.vmax, .b, .vx], [.vmax, .b, .vx], 1, [⟨26, 6, 18⟩, ⟨12, 2, 0⟩, ⟨5, 1, 0⟩, ⟨2, 3, 0⟩, ⟨0, 2, 2⟩], [], [.vs1, .vs2], [.vd], .vec (.bin .max .i8) true false⟩,
  ⟨[.vmax, .b, .vv, .m], [.vmax, .b, .vv, .m], 1, [⟨26, 6, 18⟩, ⟨12, 2, 0⟩, ⟨5, 1, 1⟩, ⟨2, 3, 0⟩, ⟨0, 2, 0⟩], [], [.vs1, .vs2], [.vd], .vec (.bin .max .i8) false true⟩,
  ⟨[.vmax, .b, .vx, .m], [.vmax, .b, .vx, .m], 1, [⟨26, 6, 18⟩, ⟨12, 2, 0⟩, ⟨5, 1, 1⟩, ⟨2, 3, 0⟩, ⟨0, 2, 2⟩], [], [.vs1, .vs2], [.vd], .vec (.bin .max .i8) true true⟩,
  ⟨[.vmax, .h, .vv], [.vmax, .h, .vv], 1, [⟨26, 6, 18⟩, ⟨12, 2, 1⟩, ⟨5, 1, 0⟩, ⟨2, 3, 0⟩, ⟨0, 2, 0⟩], [], [.vs1, .vs2], [.vd], .vec (.bin .max .i16) false false⟩,
  ⟨[.vmax, .h, .vx], [.vmax, .h, .vx], 1, [⟨26, 6, 18⟩, ⟨12, 2, 1⟩, ⟨5, 1, 0⟩, ⟨2, 3, 0⟩, ⟨0, 2, 2⟩], [], [.vs1, .vs2], [.vd], .vec (.bin .max .i16) true false⟩,
  ⟨[.vmax, .h, .vv, .m], [.vmax, .h, .vv, .m], 1, [⟨26, 6, 18⟩, ⟨12, 2, 1⟩, ⟨5, 1, 1⟩, ⟨2, 3, 0⟩, ⟨0, 2, 0⟩], [], [.vs1, .vs2], [.vd], .vec (.bin .max .i16) false true⟩,
  ⟨[.vmax, .h, .vx, .m], [.vmax, .h, .vx, .m], 1, [⟨26, 6, 18⟩, ⟨12, 2, 1⟩, ⟨5, 1, 1⟩, ⟨2, 3, 0⟩, ⟨0, 2, 2⟩], [], [.vs1, .vs2], [.vd], .vec (.bin .max .i16) true true⟩,
  ⟨[.vmax, .w, .vv], [.vmax, .w, .vv], 1, [⟨26, 6, 18⟩, ⟨12, 2, 2⟩, ⟨5, 1, 0⟩, ⟨2, 3, 0⟩, ⟨0, 2, 0⟩], [], [.vs1, .vs2], [.vd], .vec (.bin .max .i32) false false⟩,
  ⟨[.vmax, .w, .vx], [.vmax, .w, .vx], 1, [⟨26, 6, 18⟩, ⟨12, 2, 2⟩, ⟨5, 1, 0⟩, ⟨2, 3, 0⟩, ⟨0, 2, 2⟩], [], [.vs1, .vs2], [.vd], .vec (.bin .max .i32) true false⟩,
  ⟨[.vmax, .w, .vv, .m], [.vmax, .w, .vv, .m], 1, [⟨26, 6, 18⟩, ⟨12, 2, 2⟩, ⟨5, 1, 1⟩, ⟨2, 3, 0⟩, ⟨0, 2, 0⟩], [], [.vs1, .vs2], [.vd], .vec (.bin .max .i32) false true⟩,
  ⟨[.vmax, .w, .vx, .m], [.vmax, .w, .vx, .m], 1, [⟨26, 6, 18⟩, ⟨12, 2, 2⟩, ⟨5, 1, 1⟩, ⟨2, 3, 0⟩, ⟨0, 2, 2⟩], [], [.vs1, .vs2], [.vd], .vec (.bin .max .i32) true true⟩,
  ⟨[.vmax, .u, .b, .vv], [.vmax, .b, .u, .vv], 1, [⟨26, 6, 19⟩, ⟨12, 2, 0⟩, ⟨5, 1, 0⟩, ⟨2, 3, 0⟩, ⟨0, 2, 0⟩], [], [.vs1, .vs2], [.vd], .vec (.bin .max .u8) false false⟩,
  ⟨[.vmax, .u, .b, .vx], [.vmax, .b, .u, .vx], 1, [⟨26, 6, 19⟩, ⟨12, 2, 0⟩, ⟨5, 1, 0⟩, ⟨2, 3, 0⟩, ⟨0, 2, 2⟩], [], [.vs1, .vs2], [.vd], .vec (.bin .max .u8) true false⟩,
  ⟨[.vmax, .u, .b, .vv, .m], [.vmax, .b, .u, .vv, .m], 1, [⟨26, 6, 19⟩, ⟨12, 2, 0⟩, ⟨5, 1, 1⟩, ⟨2, 3, 0⟩, ⟨0, 2, 0⟩], [], [.vs1, .vs2], [.vd], .vec (.bin .max .u8) false true⟩,
  ⟨[.vmax, .u, .b, .vx, .m], [.vmax, .b, .u, .vx, .m], 1, [⟨26, 6, 19⟩, ⟨12, 2, 0⟩, ⟨5, 1, 1⟩, ⟨2, 3, 0⟩, ⟨0, 2, 2⟩], [], [.vs1, .vs2], [.vd], .vec (.bin .max .u8) true true⟩,
  ⟨[.vmax, .u, .h, .vv], [.vmax, .h, .u, .vv], 1, [⟨26, 6, 19⟩, ⟨12, 2, 1⟩, ⟨5, 1, 0⟩, ⟨2, 3, 0⟩, ⟨0, 2, 0⟩], [], [.vs1, .vs2], [.vd], .vec (.bin .max .u16) false false⟩,
  ⟨[.vmax, .u, .h, .vx], [.vmax, .h, .u, .vx], 1, [⟨26, 6, 19⟩, ⟨12, 2, 1⟩, ⟨5, 1, 0⟩, ⟨2, 3, 0⟩, ⟨0, 2, 2⟩], [], [.vs1, .vs2], [.vd], .vec (.bin .max .u16) true false⟩,
  ⟨[.vmax, .u, .h, .vv, .m], [.vmax, .h, .u, .vv, .m], 1, [⟨26, 6, 19⟩, ⟨12, 2, 1⟩, ⟨5, 1, 1⟩, ⟨2, 3, 0⟩, ⟨0, 2, 0⟩], [], [.vs1, .vs2], [.vd], .vec (.bin .max .u16) false true⟩,
  ⟨[.vmax, .u, .h, .vx, .m], [.vmax, .h, .u, .vx, .m], 1, [⟨26, 6, 19⟩, ⟨12, 2, 1⟩, ⟨5, 1, 1⟩, ⟨2, 3, 0⟩, ⟨0, 2, 2⟩], [], [.vs1, .vs2], [.vd], .vec (.bin .max .u16) true true⟩,
  ⟨[.vmax, .u, .w, .vv], [.vmax, .w, .u, .vv], 1, [⟨26, 6, 19⟩, ⟨12, 2, 2⟩, ⟨5, 1, 0⟩, ⟨2, 3, 0⟩, ⟨0, 2, 0⟩], [], [.vs1, .vs2], [.vd], .vec (.bin .max .u32) false false⟩,
  ⟨[.vmax, .u, .w, .vx], [.vmax, .w, .u, .vx], 1, [⟨26, 6, 19⟩, ⟨12, 2, 2⟩, ⟨5, 1, 0⟩, ⟨2, 3, 0⟩, ⟨0, 2, 2⟩], [], [.vs1, .vs2], [.vd], .vec (.bin .max .u32) true false⟩,
  ⟨[.vmax, .u, .w, .vv, .m], [.vmax, .w, .u, .vv, .m], 1, [⟨26, 6, 19⟩, ⟨12, 2, 2⟩, ⟨5, 1, 1⟩, ⟨2, 3, 0⟩, ⟨0, 2, 0⟩], [], [.vs1, .vs2], [.vd], .vec (.bin .max .u32) false true⟩,
  ⟨[.vmax, .u, .w, .vx, .m], [.vmax, .w, .u, .vx, .m], 1, [⟨26, 6, 19⟩, ⟨12, 2, 2⟩, ⟨5, 1, 1⟩, ⟨2, 3, 0⟩, ⟨0, 2, 2⟩], [], [.vs1, .vs2], [.vd], .vec (.bin .max .u32) true true⟩,
  ⟨[.vmin, .b, .vv], [.vmin, .b, .vv], 1, [⟨26, 6, 20⟩, ⟨12, 2, 0⟩, ⟨5, 1, 0⟩, ⟨2, 3, 0⟩, ⟨0, 2, 0⟩], [], [.vs1, .vs2], [.vd], .vec (.bin .min .i8) false false⟩,
  ⟨[.vmin, .b, .vx], [.vmin, .b, .vx], 1, [⟨26, 6, 20⟩, ⟨12, 2, 0⟩, ⟨5, 1, 0⟩, ⟨2, 3, 0⟩, ⟨0, 2, 2⟩], [], [.vs1, .vs2], [.vd], .vec (.bin .min .i8) true false⟩,
  ⟨[.vmin, .b, .vv, .m], [.vmin, .b, .vv, .m], 1, [⟨26, 6, 20⟩, ⟨12, 2, 0⟩, ⟨5, 1, 1⟩, ⟨2, 3, 0⟩, ⟨0, 2, 0⟩], [], [.vs1, .vs2], [.vd], .vec (.bin .min .i8) false true⟩,
  ⟨[.vmin, .b, .vx, .m], [.vmin, .b, .vx, .m], 1, [⟨26, 6, 20⟩, ⟨12, 2, 0⟩, ⟨5, 1, 1⟩, ⟨2, 3, 0⟩, ⟨0, 2, 2⟩], [], [.vs1, .vs2], [.vd], .vec (.bin .min .i8) true true⟩,
  ⟨[.vmin, .h, .vv], [.vmin, .h, .vv], 1, [⟨26, 6, 20⟩, ⟨12, 2, 1⟩, ⟨5, 1, 0⟩, ⟨2, 3, 0⟩, ⟨0, 2, 0⟩], [], [.vs1, .vs2], [.vd], .vec (.bin .min .i16) false false⟩,
  ⟨[.vmin, .h, .vx], [.vmin, .h, .vx], 1, [⟨26, 6, 20⟩, ⟨12, 2, 1⟩, ⟨5, 1, 0⟩, ⟨2, 3, 0⟩, ⟨0, 2, 2⟩], [], [.vs1, .vs2], [.vd], .vec (.bin .min .i16) true false⟩,
  ⟨[.vmin, .h, .vv, .m], [.vmin, .h, .vv, .m], 1, [⟨26, 6, 20⟩, ⟨12, 2, 1⟩, ⟨5, 1, 1⟩, ⟨2, 3, 0⟩, ⟨0, 2, 0⟩], [], [.vs1, .vs2], [.vd], .vec (.bin .min .i16) false true⟩,
  ⟨[.vmin, .h, .vx, .m], [.vmin, .h, .vx, .m], 1, [⟨26, 6, 20⟩, ⟨12, 2, 1⟩, ⟨5, 1, 1⟩, ⟨2, 3, 0⟩, ⟨0, 2, 2⟩], [], [.vs1, .vs2], [.vd], .vec (.bin .min .i16) true true⟩,
  ⟨[.vmin, .w, .vv], [.vmin, .w, .vv], 1, [⟨26, 6, 20⟩, ⟨12, 2, 2⟩, ⟨5, 1, 0⟩, ⟨2, 3, 0⟩, ⟨0, 2, 0⟩], [], [.vs1, .vs2], [.vd], .vec (.bin .min .i32) false false⟩,
  ⟨[.vmin, .w, .vx], [.vmin, .w, .vx], 1, [⟨26, 6, 20⟩, ⟨12, 2, 2⟩, ⟨5, 1, 0⟩, ⟨2, 3, 0⟩, ⟨0, 2, 2⟩], [], [.vs1, .vs2], [.vd], .vec (.bin .min .i32) true false⟩,
  ⟨[.vmin, .w, .vv, .m], [.vmin, .w, .vv, .m], 1, [⟨26, 6, 20⟩, ⟨12, 2, 2⟩, ⟨5, 1, 1⟩, ⟨2, 3, 0⟩, ⟨0, 2, 0⟩], [], [.vs1, .vs2], [.vd], .vec (.bin .min .i32) false true⟩,
  ⟨[.vmin, .w, .vx, .m], [.vmin, .w, .vx, .m], 1, [⟨26, 6, 20⟩, ⟨12, 2, 2⟩, ⟨5, 1, 1⟩, ⟨2, 3, 0⟩, ⟨0, 2, 2⟩], [], [.vs1, .vs2], [.vd], .vec (.bin .min .i32) true true⟩,
  ⟨[.vmin, .u, .b, .vv], [.vmin, .b, .u, .vv], 1, [⟨26, 6, 21⟩, ⟨12, 2, 0⟩, ⟨5, 1, 0⟩, ⟨2, 3, 0⟩, ⟨0, 2, 0⟩], [], [.vs1, .vs2], [.vd], .vec (.bin .min .u8) false false⟩,
  ⟨[.vmin, .u, .b, .vx], [.vmin, .b, .u, .vx], 1, [⟨26, 6, 21⟩, ⟨12, 2, 0⟩, ⟨5, 1, 0⟩, ⟨2, 3, 0⟩, ⟨0, 2, 2⟩], [], [.vs1, .vs2], [.vd], .vec (.bin .min .u8) true false⟩,
  ⟨[.vmin, .u, .b, .vv, .m], [.vmin, .b, .u, .vv, .m], 1, [⟨26, 6, 21⟩, ⟨12, 2, 0⟩, ⟨5, 1, 1⟩, ⟨2, 3, 0⟩, ⟨0, 2, 0⟩], [], [.vs1, .vs2], [.vd], .vec (.bin .min .u8) false true⟩,
  ⟨[.vmin, .u, .b, .vx, .m], [.vmin, .b, .u, .vx, .m], 1, [⟨26, 6, 21⟩, ⟨12, 2, 0⟩, ⟨5, 1, 1⟩, ⟨2, 3, 0⟩, ⟨0, 2, 2⟩], [], [.vs1, .vs2], [.vd], .vec (.bin .min .u8) true true⟩,
  ⟨[.vmin, .u, .h, .vv], [.vmin, .h, .u, .vv], 1, [⟨26, 6, 21⟩, ⟨12, 2, 1⟩, ⟨5, 1, 0⟩, ⟨2, 3, 0⟩, ⟨0, 2, 0⟩], [], [.vs1, .vs2], [.vd], .vec (.bin .min .u16) false false⟩,
  ⟨[.vmin, .u, .h, .vx], [.vmin, .h, .u, .vx], 1, [⟨26, 6, 21⟩, ⟨12, 2, 1⟩, ⟨5, 1, 0⟩, ⟨2, 3, 0⟩, ⟨0, 2, 2⟩], [], [.vs1, .vs2], [.vd], .vec (.bin .min .u16) true false⟩,
  ⟨[.vmin, .u, .h, .vv, .m], [.vmin, .h, .u, .vv, .m], 1, [⟨26, 6, 21⟩, ⟨12, 2, 1⟩, ⟨5, 1, 1⟩, ⟨2, 3, 0⟩, ⟨0, 2, 0⟩], [], [.vs1, .vs2], [.vd], .vec (.bin .min .u16) false true⟩,
  ⟨[.vmin, .u, .h, .vx, .m], [.vmin, .h, .u, .vx, .m], 1, [⟨26, 6, 21⟩, ⟨12, 2, 1⟩, ⟨5, 1, 1⟩, ⟨2, 3, 0⟩, ⟨0, 2, 2⟩], [], [.vs1, .vs2], [.vd], .vec (.bin .min .u16) true true⟩,
  ⟨[.vmin, .u, .w, .vv], [.vmin, .w, .u, .vv], 1, [⟨26, 6, 21⟩, ⟨12, 2, 2⟩, ⟨5, 1, 0⟩, ⟨2, 3, 0⟩, ⟨0, 2, 0⟩], [], [.vs1, .vs2], [.vd], .vec (.bin .min .u32) false false⟩,
  ⟨[.vmin, .u, .w, .vx], [.vmin, .w, .u, .vx], 1, [⟨26, 6, 21⟩, ⟨12, 2, 2⟩, ⟨5, 1, 0⟩, ⟨2, 3, 0⟩, ⟨0, 2, 2⟩], [], [.vs1, .vs2], [.vd], .vec (.bin .min .u32) true false⟩,
  ⟨[.vmin, .u, .w, .vv, .m], [.vmin, .w, .u, .vv, .m], 1, [⟨26, 6, 21⟩, ⟨12, 2, 2⟩, ⟨5, 1, 1⟩, ⟨2, 3, 0⟩, ⟨0, 2, 0⟩], [], [.vs1, .vs2], [.vd], .vec (.bin .min .u32) false true⟩,
  ⟨[.vmin, .u, .w, .vx, .m], [.vmin, .w, .u, .vx, .m], 1, [⟨26, 6, 21⟩, ⟨12, 2, 2⟩, ⟨5, 1, 1⟩, ⟨2, 3, 0⟩, ⟨0, 2, 2⟩], [], [.vs1, .vs2], [.vd], .vec (.bin .min .u32) true true⟩,
  ⟨[.vadd3, .b, .vv], [.vadd3, .b, .vv], 1, [⟨26, 6, 24⟩, ⟨12, 2, 0⟩, ⟨5, 1, 0⟩, ⟨2, 3, 0⟩, ⟨0, 2, 0⟩], [], [.vs1, .vs2, .vd], [.vd], .vec (.ter .add3 .i8) false false⟩,
  ⟨[.vadd3, .b, .vx], [.vadd3, .b, .vx], 1, [⟨26, 6, 24⟩, ⟨12, 2, 0⟩, ⟨5, 1, 0⟩, ⟨2, 3, 0⟩, ⟨0, 2, 2⟩], [], [.vs1, .vs2, .vd], [.vd], .vec (.ter .add3 .i8) true false⟩,
  ⟨[.vadd3, .b, .vv, .m], [.vadd3, .b, .vv, .m], 1, [⟨26, 6, 24⟩, ⟨12, 2, 0⟩, ⟨5, 1, 1⟩, ⟨2, 3, 0⟩, ⟨0, 2, 0⟩], [], [.vs1, .vs2, .vd], [.vd], .vec (.ter .add3 .i8) false true⟩,
  ⟨[.vadd3, .b, .vx, .m], [.vadd3, .b, .vx, .m], 1, [⟨26, 6, 24⟩, ⟨12, 2, 0⟩, ⟨5, 1, 1⟩, ⟨2, 3, 0⟩, ⟨0, 2, 2⟩], [], [.vs1, .vs2, .vd], [.vd], .vec (.ter .add3 .i8) true true⟩,
  ⟨[.vadd3, .h, .vv], [.vadd3, .h, .vv], 1, [⟨26, 6, 24⟩, ⟨12, 2, 1⟩, ⟨5, 1, 0⟩, ⟨2, 3, 0⟩, ⟨0, 2, 0⟩], [], [.vs1, .vs2, .vd], [.vd], .vec (.ter .add3 .i16) false false⟩,
  ⟨[.vadd3, .h, .vx], [.vadd3, .h, .vx], 1, [⟨26, 6, 24⟩, ⟨12, 2, 1⟩, ⟨5, 1, 0⟩, ⟨2, 3, 0⟩, ⟨0, 2, 2⟩], [], [.vs1, .vs2, .vd], [.vd], .vec (.ter .add3 .i16) true false⟩,
  ⟨[.vadd3, .h, .vv, .m], [.vadd3, .h, .vv, .m], 1, [⟨26, 6, 24⟩, ⟨12, 2, 1⟩, ⟨5, 1, 1⟩, ⟨2, 3, 0⟩, ⟨0, 2, 0⟩], [], [.vs1, .vs2, .vd], [.vd], .vec (.ter .add3 .i16) false true⟩,
  ⟨[.vadd3, .h, .vx, .m], [.vadd3, .h, .vx, .m], 1, [⟨26, 6, 24⟩, ⟨12, 2, 1⟩, ⟨5, 1, 1⟩, ⟨2, 3, 0⟩, ⟨0, 2, 2⟩], [], [.vs1, .vs2, .vd], [.vd], .vec (.ter .add3 .i16) true true⟩,
  ⟨[.vadd3, .w, .vv], [.vadd3, .w, .vv], 1, [⟨26, 6, 24⟩, ⟨12, 2, 2⟩, ⟨5, 1, 0⟩, ⟨2, 3, 0⟩, ⟨0, 2, 0⟩], [], [.vs1, .vs2, .vd], [.vd], .vec (.ter .add3 .i32) false false⟩,
  ⟨[.vadd3, .w, .vx], [.vadd3, .w, .vx], 1, [⟨26, 6, 24⟩, ⟨12, 2, 2⟩, ⟨5, 1, 0⟩, ⟨2, 3, 0⟩, ⟨0, 2, 2⟩], [], [.vs1, .vs2, .vd], [.vd], .vec (.ter .add3 .i32) true false⟩,
  ⟨[.vadd3, .w, .vv, .m], [.vadd3, .w, .vv, .m], 1, [⟨26, 6, 24⟩, ⟨12, 2, 2⟩, ⟨5, 1, 1⟩, ⟨2, 3, 0⟩, ⟨0, 2, 0⟩], [], [.vs1, .vs2, .vd], [.vd], .vec (.ter .add3 .i32) false true⟩,
  ⟨[.vadd3, .w, .vx, .m], [.vadd3, .w, .vx, .m], 1, [⟨26, 6, 24⟩, ⟨12, 2, 2⟩, ⟨5, 1, 1⟩, ⟨2, 3, 0⟩, ⟨0, 2, 2⟩], [], [.vs1, .vs2, .vd], [.vd], .vec (.ter .add3 .i32) true true⟩]

def g1_4 : List Row := [
  ⟨[.vadds, .b, .vv], [.vadds, .b, .vv], 1, [⟨26, 6, 0⟩, ⟨12, 2, 0⟩, ⟨5, 1, 0⟩, ⟨2, 3, 4⟩, ⟨0, 2, 0⟩], [], [.vs1, .vs2], [.vd], .vec (.bin .adds .i8) false false⟩,
  ⟨[.vadds, .b, .vx], [.vadds, .b, .vx], 1, [⟨26, 6, 0⟩, ⟨12, 2, 0⟩, ⟨5, 1, 0⟩, ⟨2, 3, 4⟩, ⟨0, 2, 2⟩], [], [.vs1, .vs2], [.vd], .vec (.bin .adds .i8) true false⟩,
  ⟨[.vadds, .b, .vv, .m], [.vadds, .b, .vv, .m], 1, [⟨26, 6, 0⟩, ⟨12, 2, 0⟩, ⟨5, 1, 1⟩, ⟨2, 3, 4⟩, ⟨0, 2, 0⟩], [], [.vs1, .vs2], [.vd], .vec (.bin .adds .i8) false true⟩,
  ⟨[.vadds, .b, .vx, .m], [.vadds, .b, .vx, .m], 1, [⟨26, 6, 0⟩, ⟨12, 2, 0⟩, ⟨5, 1, 1⟩, ⟨2, 3, 4⟩, ⟨0, 2, 2⟩], [], [.vs1, .vs2], [.vd], .vec (.bin .adds .i8) true true⟩,
  ⟨[.vadds, .h, .vv], [.vadds, .h, .vv], 1, [⟨26, 6, 0⟩, ⟨12, 2, 1⟩, ⟨5, 1, 0⟩, ⟨2, 3, 4⟩, ⟨0, 2, 0⟩], [], [.vs1, .vs2], [.vd], .vec (.bin .adds .i16) false false⟩,
  ⟨[.vadds, .h, .vx], [.vadds, .h, .vx], 1, [⟨26, 6, 0⟩, ⟨12, 2, 1⟩, ⟨5, 1, 0⟩, ⟨2, 3, 4⟩, ⟨0, 2, 2⟩], [], [.vs1, .vs2], [.vd], .vec (.bin .adds .i16) true false⟩,
  ⟨[.vadds, .h, .vv, .m], [.vadds, .h, .vv, .m], 1, [⟨26, 6, 0⟩, ⟨12, 2, 1⟩, ⟨5, 1, 1⟩, ⟨2, 3, 4⟩, ⟨0, 2, 0⟩], [], [.vs1, .vs2], [.vd], .vec (.bin .adds .i16) false true⟩,
  ⟨[.vadds, .h, .vx, .m], [.vadds, .h, .vx, .m], 1, [⟨26, 6, 0⟩, ⟨12, 2, 1⟩, ⟨5, 1, 1⟩, ⟨2, 3, 4⟩, ⟨0, 2, 2⟩], [], [.vs1, .vs2], [.vd], .vec (.bin .adds .i16) true true⟩,
  ⟨[.vadds, .w, .vv], [.vadds, .w, .vv], 1, [⟨26, 6, 0⟩, ⟨12, 2, 2⟩, ⟨5, 1, 0⟩, ⟨2, 3, 4⟩, ⟨0, 2, 0⟩], [], [.vs1, .vs2], [.vd], .vec (.bin .adds .i32) false false⟩,
  ⟨[.vadds, .w, .vx], [.vadds, .w, .vx], 1, [⟨26, 6, 0⟩, ⟨12, 2, 2⟩, ⟨5, 1, 0⟩, ⟨2, 3, 4⟩, ⟨0, 2, 2⟩], [], [.vs1, .vs2], [.vd], .vec (.bin .adds .i32) true false⟩,
  ⟨[.vadds, .w, .vv, .m], [.vadds, .w, .vv, .m], 1, [⟨26, 6, 0⟩, ⟨12, 2, 2⟩, ⟨5, 1, 1⟩, ⟨2, 3, 4⟩, ⟨0, 2, 0⟩], [], [.vs1, .vs2], [.vd], .vec (.bin .adds .i32) false true⟩,
  ⟨[.vadds, .w, .vx, .m], [.vadds, .w, .vx, .m], 1, [⟨26, 6, 0⟩, ⟨12, 2, 2⟩, ⟨5, 1, 1⟩, ⟨2, 3, 4⟩, ⟨0, 2, 2⟩], [], [.vs1, .vs2], [.vd], .vec (.bin .adds .i32) true true⟩,
  ⟨[.vadds, .u, .b, .vv], [.vadds, .b, .u, .vv], 1, [⟨26, 6, 1⟩, ⟨12, 2, 0⟩, ⟨5, 1, 0⟩, ⟨2, 3, 4⟩, ⟨0, 2, 0⟩], [], [.vs1, .vs2], [.vd], .vec (.bin .addsu .u8) false false⟩,
  ⟨[.vadds, .u, .b, .vx], [.vadds, .b, .u, .vx], 1, [⟨26, 6, 1⟩, ⟨12, 2, 0⟩, ⟨5, 1, 0⟩, ⟨2, 3, 4⟩, ⟨0, 2, 2⟩], [], [.vs1, .vs2], [.vd], .vec (.bin .addsu .u8) true false⟩,
  ⟨[.vadds, .u, .b, .vv, .m], [.vadds, .b, .u, .vv, .m], 1, [⟨26, 6, 1⟩, ⟨12, 2, 0⟩, ⟨5, 1, 1⟩, ⟨2, 3, 4⟩, ⟨0, 2, 0⟩], [], [.vs1, .vs2], [.vd], .vec (.bin .addsu .u8) false true⟩,
  ⟨[.vadds, .u, .b, .vx, .m], [.vadds, .b, .u, .vx, .m], 1, [⟨26, 6, 1⟩, ⟨12, 2, 0⟩, ⟨5, 1, 1⟩, ⟨2, 3, 4⟩, ⟨0, 2, 2⟩], [], [.vs1, .vs2], [.vd], .vec (.bin .addsu .u8) true true⟩,
  ⟨[.vadds, .u, .h, .vv], [.vadds, .h, .u, .vv], 1, [⟨26, 6, 1⟩, ⟨12, 2, 1⟩, ⟨5, 1, 0⟩, ⟨2, 3, 4⟩, ⟨0, 2, 0⟩], [], [.vs1, .vs2], [.vd], .vec (.bin .addsu .u16) false false⟩,
  ⟨[.vadds, .u, .h, .vx], [.vadds, .h, .u, .vx], 1, [⟨26, 6, 1⟩, ⟨12, 2, 1⟩, ⟨5, 1, 0⟩, ⟨2, 3, 4⟩, ⟨0, 2, 2⟩], [], [.vs1, .vs2], [.vd], .vec (.bin .addsu .u16) true false⟩,
  ⟨[.vadds, .u, .h, .vv, .m], [.vadds, .h, .u, .vv, .m], 1, [⟨26, 6, 1⟩, ⟨12, 2, 1⟩, ⟨5, 1, 1⟩, ⟨2, 3, 4⟩, ⟨0, 2, 0⟩], [], [.vs1, .vs2], [.vd], .vec (.bin .addsu .u16) false true⟩,
  ⟨[.vadds, .u, .h, .vx, .m], [.vadds, .h, .u, .vx, .m], 1, [⟨26, 6, 1⟩, ⟨12, 2, 1⟩, ⟨5, 1, 1⟩, ⟨2, 3, 4⟩, ⟨0, 2, 2⟩], [], [.vs1, .vs2], [.vd], .vec (.bin .addsu .u16) true true⟩,
  ⟨[.vadds, .u, .w, .vv], [.vadds, .w, .u, .vv], 1, [⟨26, 6, 1⟩, ⟨12, 2, 2⟩, ⟨5, 1, 0⟩, ⟨2, 3, 4⟩, ⟨0, 2, 0⟩], [], [.vs1, .vs2], [.vd], .vec (.bin .addsu .u32) false false⟩,
  ⟨[.vadds, .u, .w, .vx], [.vadds, .w, .u, .vx], 1, [⟨26, 6, 1⟩, ⟨12, 2, 2⟩, ⟨5, 1, 0⟩, ⟨2, 3, 4⟩, ⟨0, 2, 2⟩], [], [.vs1, .vs2], [.vd], .vec (.bin .addsu .u32) true false⟩,
  ⟨[.vadds, .u, .w, .vv, .m], [.vadds, .w, .u, .vv, .m], 1, [⟨26, 6, 1⟩, ⟨12, 2, 2⟩, ⟨5, 1, 1⟩, ⟨2, 3, 4⟩, ⟨0, 2, 0⟩], [], [.vs1, .vs2], [.vd], .vec (.bin .addsu .u32) false true⟩,
  ⟨[.vadds, .u, .w, .vx, .m], [.vadds, .w, .u, .vx, .m], 1, [⟨26, 6, 1⟩, ⟨12, 2, 2⟩, ⟨5, 1, 1⟩, ⟨2, 3, 4⟩, ⟨0, 2, 2⟩], [], [.vs1, .vs2], [.vd], .vec (.bin .addsu .u32) true true⟩,
  ⟨[.vsubs, .b, .vv], [.vsubs, .b, .vv], 1, [⟨26, 6, 2⟩, ⟨12, 2, 0⟩, ⟨5, 1, 0⟩, ⟨2, 3, 4⟩, ⟨0, 2, 0⟩], [], [.vs1, .vs2], [.vd], .vec (.bin .subs .i8) false false⟩,
  ⟨[.vsubs, .b, .vx], [.vsubs, .b, .vx], 1, [⟨26, 6, 2⟩, ⟨12, 2, 0⟩, ⟨5, 1, 0⟩, ⟨2, 3, 4⟩, ⟨0, 2, 2⟩], [], [.vs1, .vs2], [.vd], .vec (.bin .subs .i8) true false⟩,
  ⟨[.vsubs, .b, .vv, .m], [.vsubs, .b, .vv, .m], 1, [⟨26, 6, 2⟩, ⟨12, 2, 0⟩, ⟨5, 1, 1⟩, ⟨2, 3, 4⟩, ⟨0, 2, 0⟩], [], [.vs1, .vs2], [.vd], .vec (.bin .subs .i8) false true⟩,
  ⟨[.vsubs, .b, .vx, .m], [.vsubs, .b, .vx, .m], 1, [⟨26, 6, 2⟩, ⟨12, 2, 0⟩, ⟨5, 1, 1⟩, ⟨2, 3, 4⟩, ⟨0, 2, 2⟩], [], [.vs1, .vs2], [.vd], .vec (.bin .subs .i8) true true⟩,
  ⟨[.vsubs, .h, .vv], [.vsubs, .h, .vv], 1, [⟨26, 6, 2⟩, ⟨12, 2, 1⟩, ⟨5, 1, 0⟩, ⟨2, 3, 4⟩, ⟨0, 2, 0⟩], [], [.vs1, .vs2], [.vd], .vec (.bin .subs .i16) false false⟩,
  ⟨[.vsubs, .h, .vx], [.vsubs, .h, .vx], 1, [⟨26, 6, 2⟩, ⟨12, 2, 1⟩, ⟨5, 1, 0⟩, ⟨2, 3, 4⟩, ⟨0, 2, 2⟩], [], [.vs1, .vs2], [.vd], .vec (.bin .subs .i16) true false⟩,
  ⟨[.vsubs, .h, .vv, .m], [.vsubs, .h, .vv, .m], 1, [⟨26, 6, 2⟩, ⟨12, 2, 1⟩, ⟨5, 1, 1⟩, ⟨2, 3, 4⟩, ⟨0, 2, 0⟩], [], [.vs1, .vs2], [.vd], .vec (.bin .subs .i16) false true⟩,
  ⟨[.vsubs, .h, .vx, .m], [.vsubs, .h, .vx, .m], 1, [⟨26, 6, 2⟩, ⟨12, 2, 1⟩, ⟨5, 1, 1⟩, ⟨2, 3, 4⟩, ⟨0, 2, 2⟩], [], [.vs1, .vs2], [.vd], .vec (.bin .subs .i16) true true⟩,
  ⟨[.vsubs, .w, .vv], [.vsubs, .w, .vv], 1, [⟨26, 6, 2⟩, ⟨12, 2, 2⟩, ⟨5, 1, 0⟩, ⟨2, 3, 4⟩, ⟨0, 2, 0⟩], [], [.vs1, .vs2], [.vd], .vec (.bin .subs .i32) false false⟩,
  ⟨[.vsubs, .w, .vx], [.vsubs, .w, .vx], 1, [⟨26, 6, 2⟩, ⟨12, 2, 2⟩, ⟨5, 1, 0⟩, ⟨2, 3, 4⟩, ⟨0, 2, 2⟩], [], [.vs1, .vs2], [.vd], .vec (.bin .subs .i32) true false⟩,
  ⟨[.vsubs, .w, .vv, .m], [.vsubs, .w, .vv, .m], 1, [⟨26, 6, 2⟩, ⟨12, 2, 2⟩, ⟨5, 1, 1⟩, ⟨2, 3, 4⟩, ⟨0, 2, 0⟩], [], [.vs1, .vs2], [.vd], .vec (.bin .subs .i32) false true⟩,
  ⟨[.vsubs, .w, .vx, .m], [.vsubs, .w, .vx, .m], 1, [⟨26, 6, 2⟩, ⟨12, 2, 2⟩, ⟨5, 1, 1⟩, ⟨2, 3, 4⟩, ⟨0, 2, 2⟩], [], [.vs1, .vs2], [.vd], .vec (.bin .subs .i32) true true⟩,
  ⟨[.vsubs, .u, .b, .vv], [.vsubs, .b, .u, .vv], 1, [⟨26, 6, 3⟩, ⟨12, 2, 0⟩, ⟨5, 1, 0⟩, ⟨2, 3, 4⟩, ⟨0, 2, 0⟩], [], [.vs1, .vs2], [.vd], .vec (.bin .subsu .u8) false false⟩,
  ⟨[.vsubs, .u, .b, .vx], [.vsubs, .b, .u, .vx], 1, [⟨26, 6, 3⟩, ⟨12, 2, 0⟩, ⟨5, 1, 0⟩, ⟨2, 3, 4⟩, ⟨0, 2, 2⟩], [], [.vs1, .vs2], [.vd], .vec (.bin .subsu .u8) true false⟩,
  ⟨[.vsubs, .u, .b, .vv, .m], [.vsubs, .b, .u, .vv, .m], 1, [⟨26, 6, 3⟩, ⟨12, 2, 0⟩, ⟨5, 1, 1⟩, ⟨2, 3, 4⟩, ⟨0, 2, 0⟩], [], [.vs1, .vs2], [.vd], .vec (.bin .subsu .u8) false true⟩,
  ⟨[.vsubs, .u, .b, .vx, .m], [.vsubs, .b, .u, .vx, .m], 1, [⟨26, 6, 3⟩, ⟨12, 2, 0⟩, ⟨5, 1, 1⟩, ⟨2, 3, 4⟩, ⟨0, 2, 2⟩], [], [.vs1, .vs2], [.vd], .vec (.bin .subsu .u8) true true⟩,
  ⟨[.vsubs, .u, .h, .vv], [.vsubs, .h, .u, .vv], 1, [⟨26, 6, 3⟩, ⟨12, 2, 1⟩, ⟨5, 1, 0⟩, ⟨2, 3, 4⟩, ⟨0, 2, 0⟩], [], [.vs1, .vs2], [.vd], .vec (.bin .subsu .u16) false false⟩,
  ⟨[.vsubs, .u, .h, .vx], [.vsubs, .h, .u, .vx], 1, [⟨26, 6, 3⟩, ⟨12, 2, 1⟩, ⟨5, 1, 0⟩, ⟨2, 3, 4⟩, ⟨0, 2, 2⟩], [], [.vs1, .vs2], [.vd], .vec (.bin .subsu .u16) true false⟩,
  ⟨[.vsubs, .u, .h, .vv, .m], [.vsubs, .h, .u, .vv, .m], 1, [⟨26, 6, 3⟩, ⟨12, 2, 1⟩, ⟨5, 1, 1⟩, ⟨2, 3, 4⟩, ⟨0, 2, 0⟩], [], [.vs1, .vs2], [.vd], .vec (.bin .subsu .u16) false true⟩,
  ⟨[.vsubs, .u, .h, .vx, .m], [.vsubs, .h, .u, .vx, .m], 1, [⟨26, 6, 3⟩, ⟨12, 2, 1⟩, ⟨5, 1, 1⟩, ⟨2, 3, 4⟩, ⟨0, 2, 2⟩], [], [.vs1, .vs2], [.vd], .vec (.bin .subsu .u16) true true⟩,
  ⟨[.vsubs, .u, .w, .vv], [.vsubs, .w, .u, .vv], 1, [⟨26, 6, 3⟩, ⟨12, 2, 2⟩, ⟨5, 1, 0⟩, ⟨2, 3, 4⟩, ⟨0, 2, 0⟩], [], [.vs1, .vs2], [.vd], .vec (.bin .subsu .u32) false false⟩,
  ⟨[.vsubs, .u, .w, .vx], [.vsubs, .w, .u, .vx], 1, [⟨26, 6, 3⟩, ⟨12, 2, 2⟩, ⟨5, 1, 0⟩, ⟨2, 3, 4⟩, ⟨0, 2, 2⟩], [], [.vs1, .vs2], [.vd], .vec (.bin .subsu .u32) true false⟩,
  ⟨[.vsubs, .u, .w, .vv, .m], [.vsubs, .w, .u, .vv, .m], 1, [⟨26, 6, 3⟩, ⟨12, 2, 2⟩, ⟨5, 1, 1⟩, ⟨2, 3, 4⟩, ⟨0, 2, 0⟩], [], [.vs1, .vs2], [.vd], .vec (.bin .subsu .u32) false true⟩,
  ⟨[.vsubs, .u, .w, .vx, .m], [.vsubs, .w, .u, .vx, .m], 1, [⟨26, 6, 3⟩, ⟨12, 2, 2⟩, ⟨5, 1, 1⟩, ⟨2, 3, 4⟩, ⟨0, 2, 2⟩], [], [.vs1, .vs2], [.vd], .vec (.bin .subsu .u32) true true⟩,
  ⟨[.vaddw, .h, .vv], [.vaddw, .h, .vv], 1, [⟨26, 6, 4⟩, ⟨12, 2, 1⟩, ⟨5, 1, 0⟩, ⟨2, 3, 4⟩, ⟨0, 2, 0⟩], [], [.vs1, .vs2], [.vd], .vec (.wid .addw .i16 .i8) false false⟩,
  ⟨[.vaddw, .h, .vx], [.vaddw, .h, .vx], 1, [⟨26, 6, 4⟩, ⟨12, 2, 1⟩, ⟨5, 1, 0⟩, ⟨2, 3, 4⟩, ⟨0, 2, 2⟩], [], [.vs1, .vs2], [.vd], .vec (.wid .addw .i16 .i8) true false⟩,
  ⟨[.vaddw, .h, .vv, .m], [.vaddw, .h, .vv, .m], 1, [⟨26, 6, 4⟩, ⟨12, 2, 1⟩, ⟨5, 1, 1⟩, ⟨2, 3, 4⟩, ⟨0, 2, 0⟩], [], [.vs1, .vs2], [.vd], .vec (.wid .addw .i16 .i8) false true⟩,
  ⟨[.vaddw, .h, .vx, .m], [.vaddw, .h, .vx, .m], 1, [⟨26, 6, 4⟩, ⟨12, 2, 1⟩, ⟨5, 1, 1⟩, ⟨2, 3, 4⟩, ⟨0, 2, 2⟩], [], [.vs1, .vs2], [.vd], .vec (.wid .addw .i16 .i8) true true⟩,
  ⟨[.vaddw, .w, .vv], [.vaddw, .w, .vv], 1, [⟨26, 6, 4⟩, ⟨12, 2, 2⟩, ⟨5, 1, 0⟩, ⟨2, 3, 4⟩, ⟨0, 2, 0⟩], [], [.vs1, .vs2], [.vd], .vec (.wid .addw .i32 .i16) false false⟩,
  ⟨[.vaddw, .w, .vx], [.vaddw, .w, .vx], 1, [⟨26, 6, 4⟩, ⟨12, 2, 2⟩, ⟨5, 1, 0⟩, ⟨2, 3, 4⟩, ⟨0, 2, 2⟩], [], [.vs1, .vs2], [.vd], .vec (.wid .addw .i32 .i16) true false⟩,
  ⟨[.vaddw, .w, .vv, .m], [.vaddw, .w, .vv, .m], 1, [⟨26, 6, 4⟩, ⟨12, 2, 2⟩, ⟨5, 1, 1⟩, ⟨2, 3, 4⟩, ⟨0, 2, 0⟩], [], [.vs1, .vs2], [.vd], .vec (.wid .addw .i32 .i16) false true⟩,
  ⟨[.vaddw, .w, .vx, .m], [.vaddw, .w, .vx, .m], 1, [⟨26, 6, 4⟩, ⟨12, 2, 2⟩, ⟨5, 1, 1⟩, ⟨2, 3, 4⟩, ⟨0, 2, 2⟩], [], [.vs1, .vs2], [.vd], .vec (.wid .addw .i32 .i16) true true⟩,
  ⟨[.vaddw, .h, .u, .vv], [.vaddw, .h, .u, .vv], 1, [⟨26, 6, 5⟩, ⟨12, 2, 1⟩, ⟨5, 1, 0⟩, ⟨2, 3, 4⟩, ⟨0, 2, 0⟩], [], [.vs1, .vs2], [.vd], .vec (.wid .addw .u16 .u8) false false⟩,
  ⟨[.vaddw, .h, .u, .vx], [.vaddw, .h, .u, .vx], 1, [⟨26, 6, 5⟩, ⟨12, 2, 1⟩, ⟨5, 1, 0⟩, ⟨2, 3, 4⟩, ⟨0, 2, 2⟩], [], [.vs1, .vs2], [.vd], .vec (.wid .addw .u16 .u8) true false⟩,
  ⟨[.vaddw, .h, .u, .vv, .m], [.vaddw, .h, .u, .vv, .m], 1, [⟨26, 6, 5⟩, ⟨12, 2, 1⟩, ⟨5, 1, 1⟩, ⟨2, 3, 4⟩, ⟨0, 2, 0⟩], [], [.vs1, .vs2], [.vd], .vec (.wid .addw .u16 .u8) false true⟩,
  ⟨[.vaddw, .h, .u, .vx, .m], [.vaddw, .h, .u, .vx, .m], 1, [⟨26, 6, 5⟩, ⟨12, 2, 1⟩, ⟨5, 1, 1⟩, ⟨2, 3, 4⟩, ⟨0, 2, 2⟩], [], [.vs1, .vs2], [.vd], .vec (.wid .addw .u16 .u8) true true⟩]

def g1_5 : List Row := [
  ⟨[.vaddw, .w, .u, .vv], [.vaddw, .w, .u, .vv], 1, [⟨26, 6, 5⟩, ⟨12, 2, 2⟩, ⟨5, 1, 0⟩, ⟨2, 3, 4⟩, ⟨0, 2, 0⟩], [], [.vs1, .vs2], [.vd], .vec (.wid .addw .u32 .u16) false false⟩,
  ⟨[.vaddw, .w, .u, .vx], [.vaddw, .w, .u, .vx], 1, [⟨26, 6, 5⟩, ⟨12, 2, 2⟩, ⟨5, 1, 0⟩, ⟨2, 3, 4⟩, ⟨0, 2, 2⟩], [], [.vs1, .vs2], [.vd], .vec (.wid .addw .u32 .u16) true false⟩,
  ⟨[.vaddw, .w, .u, .vv, .m], [.vaddw, .w, .u, .vv, .m], 1, [⟨26, 6, 5⟩, ⟨12, 2, 2⟩, ⟨5, 1, 1⟩, ⟨2, 3, 4⟩, ⟨0, 2, 0⟩], [], [.vs1, .vs2], [.vd], .vec (.wid .addw .u32 .u16) false true⟩,
  ⟨[.vaddw, .w, .u, .vx, .m], [.vaddw, .w, .u, .vx, .m], 1, [⟨26, 6, 5⟩, ⟨12, 2, 2⟩, ⟨5, 1, 1⟩, ⟨2, 3, 4⟩, ⟨0, 2, 2⟩], [], [.vs1, .vs2], [.vd], .vec (.wid .addw .u32 .u16) true true⟩,
  ⟨[.vsubw, .h, .vv], [.vsubw, .h, .vv], 1, [⟨26, 6, 6⟩, ⟨12, 2, 1⟩, ⟨5, 1, 0⟩, ⟨2, 3, 4⟩, ⟨0, 2, 0⟩], [], [.vs1, .vs2], [.vd], .vec (.wid .subw .i16 .i8) false false⟩,
  ⟨[.vsubw, .h, .vx], [.vsubw, .h, .vx], 1, [⟨26, 6, 6⟩, ⟨12, 2, 1⟩, ⟨5, 1, 0⟩, ⟨2, 3, 4⟩, ⟨0, 2, 2⟩], [], [.vs1, .vs2], [.vd], .vec (.wid .subw .i16 .i8) true false⟩,
  ⟨[.vsubw, .h, .vv, .m], [.vsubw, .h, .vv, .m], 1, [⟨26, 6, 6⟩, ⟨12, 2, 1⟩, ⟨5, 1, 1⟩, ⟨2, 3, 4⟩, ⟨0, 2, 0⟩], [], [.vs1, .vs2], [.vd], .vec (.wid .subw .i16 .i8) false true⟩,
  ⟨[.vsubw, .h, .vx, .m], [.vsubw, .h, .vx, .m], 1, [⟨26, 6, 6⟩, ⟨12, 2, 1⟩, ⟨5, 1, 1⟩, ⟨2, 3, 4⟩, ⟨0, 2, 2⟩], [], [.vs1, .vs2], [.vd], .vec (.wid .subw .i16 .i8) true true⟩,
  ⟨[.vsubw, .w, .vv], [.vsubw, .w, .vv], 1, [⟨26, 6, 6⟩, ⟨12, 2, 2⟩, ⟨5, 1, 0⟩, ⟨2, 3, 4⟩, ⟨0, 2, 0⟩], [], [.vs1, .vs2], [.vd], .vec (.wid .subw .i32 .i16) false false⟩,
  ⟨[.vsubw, .w, .vx], [.vsubw, .w, .vx], 1, [⟨26, 6, 6⟩, ⟨12, 2, 2⟩, ⟨5, 1, 0⟩, ⟨2, 3, 4⟩, ⟨0, 2, 2⟩], [], [.vs1, .vs2], [.vd], .vec (.wid .subw .i32 .i16) true false⟩,
  ⟨[.vsubw, .w, .vv, .m], [.vsubw, .w, .vv, .m], 1, [⟨26, 6, 6⟩, ⟨12, 2, 2⟩, ⟨5, 1, 1⟩, ⟨2, 3, 4⟩, ⟨0, 2, 0⟩], [], [.vs1, .vs2], [.vd], .vec (.wid .subw .i32 .i16) false true⟩,
  ⟨[.vsubw, .w, .vx, .m], [.vsubw, .w, .vx, .m], 1, [⟨26, 6, 6⟩, ⟨12, 2, 2⟩, ⟨5, 1, 1⟩, ⟨2, 3, 4⟩, ⟨0, 2, 2⟩], [], [.vs1, .vs2], [.vd], .vec (.wid .subw .i32 .i16) true true⟩,
  ⟨[.vsubw, .h, .u, .vv], [.vsubw, .h, .u, .vv], 1, [⟨26, 6, 7⟩, ⟨12, 2, 1⟩, ⟨5, 1, 0⟩, ⟨2, 3, 4⟩, ⟨0, 2, 0⟩], [], [.vs1, .vs2], [.vd], .vec (.wid .subw .u16 .u8) false false⟩,
  ⟨[.vsubw, .h, .u, .vx], [.vsubw, .h, .u, .vx], 1, [⟨26, 6, 7⟩, ⟨12, 2, 1⟩, ⟨5, 1, 0⟩, ⟨2, 3, 4⟩, ⟨0, 2, 2⟩], [], [.vs1, .vs2], [.vd], .vec (.wid .subw .u16 .u8) true false⟩,
  ⟨[.vsubw, .h, .u, .vv, .m], [.vsubw, .h, .u, .vv, .m], 1, [⟨26, 6, 7⟩, ⟨12, 2, 1⟩, ⟨5, 1, 1⟩, ⟨2, 3, 4⟩, ⟨0, 2, 0⟩], [], [.vs1, .vs2], [.vd], .vec (.wid .subw .u16 .u8) false true⟩,
  ⟨[.vsubw, .h, .u, .vx, .m], [.vsubw, .h, .u, .vx, .m], 1, [⟨26, 6, 7⟩, ⟨12, 2, 1⟩, ⟨5, 1, 1⟩, ⟨2, 3, 4⟩, ⟨0, 2, 2⟩], [], [.vs1, .vs2], [.vd], .vec (.wid .subw .u16 .u8) true true⟩,
  ⟨[.vsubw, .w, .u, .vv], [.vsubw, .w, .u, .vv], 1, [⟨26, 6, 7⟩, ⟨12, 2, 2⟩, ⟨5, 1, 0⟩, ⟨2, 3, 4⟩, ⟨0, 2, 0⟩], [], [.vs1, .vs2], [.vd], .vec (.wid .subw .u32 .u16) false false⟩,
  ⟨[.vsubw, .w, .u, .vx], [.vsubw, .w, .u, .vx], 1, [⟨26, 6, 7⟩, ⟨12, 2, 2⟩, ⟨5, 1, 0⟩, ⟨2, 3, 4⟩, ⟨0, 2, 2⟩], [], [.vs1, .vs2], [.vd], .vec (.wid .subw .u32 .u16) true false⟩,
  ⟨[.vsubw, .w, .u, .vv, .m], [.vsubw, .w, .u, .vv, .m], 1, [⟨26, 6, 7⟩, ⟨12, 2, 2⟩, ⟨5, 1, 1⟩, ⟨2, 3, 4⟩, ⟨0, 2, 0⟩], [], [.vs1, .vs2], [.vd], .vec (.wid .subw .u32 .u16) false true⟩,
  ⟨[.vsubw, .w, .u, .vx, .m], [.vsubw, .w, .u, .vx, .m], 1, [⟨26, 6, 7⟩, ⟨12, 2, 2⟩, ⟨5, 1, 1⟩, ⟨2, 3, 4⟩, ⟨0, 2, 2⟩], [], [.vs1, .vs2], [.vd], .vec (.wid .subw .u32 .u16) true true⟩,
  ⟨[.vacc, .h, .vv], [.vacc, .h, .vv], 1, [⟨26, 6, 10⟩, ⟨12, 2, 1⟩, ⟨5, 1, 0⟩, ⟨2, 3, 4⟩, ⟨0, 2, 0⟩], [], [.vs1, .vs2], [.vd], .vec (.acc .i16 .i8) false false⟩,
  ⟨[.vacc, .h, .vx], [.vacc, .h, .vx], 1, [⟨26, 6, 10⟩, ⟨12, 2, 1⟩, ⟨5, 1, 0⟩, ⟨2, 3, 4⟩, ⟨0, 2, 2⟩], [], [.vs1, .vs2], [.vd], .vec (.acc .i16 .i8) true false⟩,
  ⟨[.vacc, .h, .vv, .m], [.vacc, .h, .vv, .m], 1, [⟨26, 6, 10⟩, ⟨12, 2, 1⟩, ⟨5, 1, 1⟩, ⟨2, 3, 4⟩, ⟨0, 2, 0⟩], [], [.vs1, .vs2], [.vd], .vec (.acc .i16 .i8) false true⟩,
  ⟨[.vacc, .h, .vx, .m], [.vacc, .h, .vx, .m], 1, [⟨26, 6, 10⟩, ⟨12, 2, 1⟩, ⟨5, 1, 1⟩, ⟨2, 3, 4⟩, ⟨0, 2, 2⟩], [], [.vs1, .vs2], [.vd], .vec (.acc .i16 .i8) true true⟩,
  ⟨[.vacc, .w, .vv], [.vacc, .w, .vv], 1, [⟨26, 6, 10⟩, ⟨12, 2, 2⟩, ⟨5, 1, 0⟩, ⟨2, 3, 4⟩, ⟨0, 2, 0⟩], [], [.vs1, .vs2], [.vd], .vec (.acc .i32 .i16) false false⟩,
  ⟨[.vacc, .w, .vx], [.vacc, .w, .vx], 1, [⟨26, 6, 10⟩, ⟨12, 2, 2⟩, ⟨5, 1, 0⟩, ⟨2, 3, 4⟩, ⟨0, 2, 2⟩], [], [.vs1, .vs2], [.vd], .vec (.acc .i32 .i16) true false⟩,
  ⟨[.vacc, .w, .vv, .m], [.vacc, .w, .vv, .m], 1, [⟨26, 6, 10⟩, ⟨12, 2, 2⟩, ⟨5, 1, 1⟩, ⟨2, 3, 4⟩, ⟨0, 2, 0⟩], [], [.vs1, .vs2], [.vd], .vec (.acc .i32 .i16) false true⟩,
  ⟨[.vacc, .w, .vx, .m], [.vacc, .w, .vx, .m], 1, [⟨26, 6, 10⟩, ⟨12, 2, 2⟩, ⟨5, 1, 1⟩, ⟨2, 3, 4⟩, ⟨0, 2, 2⟩], [], [.vs1, .vs2], [.vd], .vec (.acc .i32 .i16) true true⟩,
  ⟨[.vacc, .h, .u, .vv], [.vacc, .h, .u, .vv], 1, [⟨26, 6, 11⟩, ⟨12, 2, 1⟩, ⟨5, 1, 0⟩, ⟨2, 3, 4⟩, ⟨0, 2, 0⟩], [], [.vs1, .vs2], [.vd], .vec (.acc .u16 .u8) false false⟩,
  ⟨[.vacc, .h, .u, .vx], [.vacc, .h, .u, .vx], 1, [⟨26, 6, 11⟩, ⟨12, 2, 1⟩, ⟨5, 1, 0⟩, ⟨2, 3, 4⟩, ⟨0, 2, 2⟩], [], [.vs1, .vs2], [.vd], .vec (.acc .u16 .u8) true false⟩,
  ⟨[.vacc, .h, .u, .vv, .m], [.vacc, .h, .u, .vv, .m], 1, [⟨26, 6, 11⟩, ⟨12, 2, 1⟩, ⟨5, 1, 1⟩, ⟨2, 3, 4⟩, ⟨0, 2, 0⟩], [], [.vs1, .vs2], [.vd], .vec (.acc .u16 .u8) false true⟩,
  ⟨[.vacc, .h, .u, .vx, .m], [.vacc, .h, .u, .vx, .m], 1, [⟨26, 6, 11⟩, ⟨12, 2, 1⟩, ⟨5, 1, 1⟩, ⟨2, 3, 4⟩, ⟨0, 2, 2⟩], [], [.vs1, .vs2], [.vd], .vec (.acc .u16 .u8) true true⟩,
  ⟨[.vacc, .w, .u, .vv], [.vacc, .w, .u, .vv], 1, [⟨26, 6, 11⟩, ⟨12, 2, 2⟩, ⟨5, 1, 0⟩, ⟨2, 3, 4⟩, ⟨0, 2, 0⟩], [], [.vs1, .vs2], [.vd], .vec (.acc .u32 .u16) false false⟩,
  ⟨[.vacc, .w, .u, .vx], [.vacc, .w, .u, .vx], 1, [⟨26, 6, 11⟩, ⟨12, 2, 2⟩, ⟨5, 1, 0⟩, ⟨2, 3, 4⟩, ⟨0, 2, 2⟩], [], [.vs1, .vs2], [.vd], .vec (.acc .u32 .u16) true false⟩,
  ⟨[.vacc, .w, .u, .vv, .m], [.vacc, .w, .u, .vv, .m], 1, [⟨26, 6, 11⟩, ⟨12, 2, 2⟩, ⟨5, 1, 1⟩, ⟨2, 3, 4⟩, ⟨0, 2, 0⟩], [], [.vs1, .vs2], [.vd], .vec (.acc .u32 .u16) false true⟩,
  ⟨[.vacc, .w, .u, .vx, .m], [.vacc, .w, .u, .vx, .m], 1, [⟨26, 6, 11⟩, ⟨12, 2, 2⟩, ⟨5, 1, 1⟩, ⟨2, 3, 4⟩, ⟨0, 2, 2⟩], [], [.vs1, .vs2], [.vd], .vec (.acc .u32 .u16) true true⟩,
  ⟨[.vpadd, .h, .v], [.vpadd, .h, .v], 1, [⟨26, 6, 12⟩, ⟨20, 6, 0⟩, ⟨12, 2, 1⟩, ⟨5, 1, 0⟩, ⟨2, 3, 4⟩, ⟨0, 2, 2⟩], [], [.vs1], [.vd], .vec (.packed .addw .i16 .i8) false false⟩,
  ⟨[.vpadd, .h, .v, .m], [.vpadd, .h, .v, .m], 1, [⟨26, 6, 12⟩, ⟨20, 6, 0⟩, ⟨12, 2, 1⟩, ⟨5, 1, 1⟩, ⟨2, 3, 4⟩, ⟨0, 2, 2⟩], [], [.vs1], [.vd], .vec (.packed .addw .i16 .i8) false true⟩,
  ⟨[.vpadd, .w, .v], [.vpadd, .w, .v], 1, [⟨26, 6, 12⟩, ⟨20, 6, 0⟩, ⟨12, 2, 2⟩, ⟨5, 1, 0⟩, ⟨2, 3, 4⟩, ⟨0, 2, 2⟩], [], [.vs1], [.vd], .vec (.packed .addw .i32 .i16) false false⟩,
  ⟨[.vpadd, .w, .v, .m], [.vpadd, .w, .v, .m], 1, [⟨26, 6, 12⟩, ⟨20, 6, 0⟩, ⟨12, 2, 2⟩, ⟨5, 1, 1⟩, ⟨2, 3, 4⟩, ⟨0, 2, 2⟩], [], [.vs1], [.vd], .vec (.packed .addw .i32 .i16) false true⟩,
  ⟨[.vpadd, .h, .u, .v], [.vpadd, .h, .u, .v], 1, [⟨26, 6, 13⟩, ⟨20, 6, 0⟩, ⟨12, 2, 1⟩, ⟨5, 1, 0⟩, ⟨2, 3, 4⟩, ⟨0, 2, 2⟩], [], [.vs1], [.vd], .vec (.packed .addw .u16 .u8) false false⟩,
  ⟨[.vpadd, .h, .u, .v, .m], [.vpadd, .h, .u, .v, .m], 1, [⟨26, 6, 13⟩, ⟨20, 6, 0⟩, ⟨12, 2, 1⟩, ⟨5, 1, 1⟩, ⟨2, 3, 4⟩, ⟨0, 2, 2⟩], [], [.vs1], [.vd], .vec (.packed .addw .u16 .u8) false true⟩,
  ⟨[.vpadd, .w, .u, .v], [.vpadd, .w, .u, .v], 1, [⟨26, 6, 13⟩, ⟨20, 6, 0⟩, ⟨12, 2, 2⟩, ⟨5, 1, 0⟩, ⟨2, 3, 4⟩, ⟨0, 2, 2⟩], [], [.vs1], [.vd], .vec (.packed .addw .u32 .u16) false false⟩,
  ⟨[.vpadd, .w, .u, .v, .m], [.vpadd, .w, .u, .v, .m], 1, [⟨26, 6, 13⟩, ⟨20, 6, 0⟩, ⟨12, 2, 2⟩, ⟨5, 1, 1⟩, ⟨2, 3, 4⟩, ⟨0, 2, 2⟩], [], [.vs1], [.vd], .vec (.packed .addw .u32 .u16) false true⟩,
  ⟨[.vpsub, .h, .v], [.vpsub, .h, .v], 1, [⟨26, 6, 14⟩, ⟨20, 6, 0⟩, ⟨12, 2, 1⟩, ⟨5, 1, 0⟩, ⟨2, 3, 4⟩, ⟨0, 2, 2⟩], [], [.vs1], [.vd], .vec (.packed .subw .i16 .i8) false false⟩,
  ⟨[.vpsub, .h, .v, .m], [.vpsub, .h, .v, .m], 1, [⟨26, 6, 14⟩, ⟨20, 6, 0⟩, ⟨12, 2, 1⟩, ⟨5, 1, 1⟩, ⟨2, 3, 4⟩, ⟨0, 2, 2⟩], [], [.vs1], [.vd], .vec (.packed .subw .i16 .i8) false true⟩,
  ⟨[.vpsub, .w, .v], [.vpsub, .w, .v], 1, [⟨26, 6, 14⟩, ⟨20, 6, 0⟩, ⟨12, 2, 2⟩, ⟨5, 1, 0⟩, ⟨2, 3, 4⟩, ⟨0, 2, 2⟩], [], [.vs1], [.vd], .vec (.packed .subw .i32 .i16) false false⟩,
  ⟨[.vpsub, .w, .v, .m], [.vpsub, .w, .v, .m], 1, [⟨26, 6, 14⟩, ⟨20, 6, 0⟩, ⟨12, 2, 2⟩, ⟨5, 1, 1⟩, ⟨2, 3, 4⟩, ⟨0, 2, 2⟩], [], [.vs1], [.vd], .vec (.packed .subw .i32 .i16) false true⟩,
  ⟨[.vpsub, .h, .u, .v], [.vpsub, .h, .u, .v], 1, [⟨26, 6, 15⟩, ⟨20, 6, 0⟩, ⟨12, 2, 1⟩, ⟨5, 1, 0⟩, ⟨2, 3, 4⟩, ⟨0, 2, 2⟩], [], [.vs1], [.vd], .vec (.packed .subw .u16 .u8) false false⟩,
  ⟨[.vpsub, .h, .u, .v, .m], [.vpsub, .h, .u, .v, .m], 1, [⟨26, 6, 15⟩, ⟨20, 6, 0⟩, ⟨12, 2, 1⟩, ⟨5, 1, 1⟩, ⟨2, 3, 4⟩, ⟨0, 2, 2⟩], [], [.vs1], [.vd], .vec (.packed .subw .u16 .u8) false true⟩,
  ⟨[.vpsub, .w, .u, .v], [.vpsub, .w, .u, .v], 1, [⟨26, 6, 15⟩, ⟨20, 6, 0⟩, ⟨12, 2, 2⟩, ⟨5, 1, 0⟩, ⟨2, 3, 4⟩, ⟨0, 2, 2⟩], [], [.vs1], [.vd], .vec (.packed .subw .u32 .u16) false false⟩,
  ⟨[.vpsub, .w, .u, .v, .m], [.vpsub, .w, .u, .v, .m], 1, [⟨26, 6, 15⟩, ⟨20, 6, 0⟩, ⟨12, 2, 2⟩, ⟨5, 1, 1⟩, ⟨2, 3, 4⟩, ⟨0, 2, 2⟩], [], [.vs1], [.vd], .vec (.packed .subw .u32 .u16) false true⟩,
  ⟨[.vhadd, .b, .vv], [.vhadd, .b, .vv], 1, [⟨26, 6, 16⟩, ⟨12, 2, 0⟩, ⟨5, 1, 0⟩, ⟨2, 3, 4⟩, ⟨0, 2, 0⟩], [], [.vs1, .vs2], [.vd], .vec (.bin (.hadd false) .i8) false false⟩,
  ⟨[.vhadd, .b, .vx], [.vhadd, .b, .vx], 1, [⟨26, 6, 16⟩, ⟨12, 2, 0⟩, ⟨5, 1, 0⟩, ⟨2, 3, 4⟩, ⟨0, 2, 2⟩], [], [.vs1, .vs2], [.vd], .vec (.bin (.hadd false) .i8) true false⟩,
  ⟨[.vhadd, .b, .vv, .m], [.vhadd, .b, .vv, .m], 1, [⟨26, 6, 16⟩, ⟨12, 2, 0⟩, ⟨5, 1, 1⟩, ⟨2, 3, 4⟩, ⟨0, 2, 0⟩], [], [.vs1, .vs2], [.vd], .vec (.bin (.hadd false) .i8) false true⟩,
  ⟨[.vhadd, .b, .vx, .m], [.vhadd, .b, .vx, .m], 1, [⟨26, 6, 16⟩, ⟨12, 2, 0⟩, ⟨5, 1, 1⟩, ⟨2, 3, 4⟩, ⟨0, 2, 2⟩], [], [.vs1, .vs2], [.vd], .vec (.bin (.hadd false) .i8) true true⟩,
  ⟨[.vhadd, .h, .vv], [.vhadd, .h, .vv], 1, [⟨26, 6, 16⟩, ⟨12, 2, 1⟩, ⟨5, 1, 0⟩, ⟨2, 3, 4⟩, ⟨0, 2, 0⟩], [], [.vs1, .vs2], [.vd], .vec (.bin (.hadd false) .i16) false false⟩,
  ⟨[.vhadd, .h, .vx], [.vhadd, .h, .vx], 1, [⟨26, 6, 16⟩, ⟨12, 2, 1⟩, ⟨5, 1, 0⟩, ⟨2, 3, 4⟩, ⟨0, 2, 2⟩], [], [.vs1, .vs2], [.vd], .vec (.bin (.hadd false) .i16) true false⟩,
  ⟨[.vhadd, .h, .vv, .m], [.vhadd, .h, .vv, .m], 1, [⟨26, 6, 16⟩, ⟨12, 2, 1⟩, ⟨5, 1, 1⟩, ⟨2, 3, 4⟩, ⟨0, 2, 0⟩], [], [.vs1, .vs2], [.vd], .vec (.bin (.hadd false) .i16) false true⟩,
  ⟨[.vhadd, .h, .vx, .m], [.vhadd, .h, .vx, .m], 1, [⟨26, 6, 16⟩, ⟨12, 2, 1⟩, ⟨5, 1, 1⟩, ⟨2, 3, 4⟩, ⟨0, 2, 2⟩], [], [.vs1, .vs2], [.vd], .vec (.bin (.hadd false) .i16) true true⟩]

def g1_6 : List Row := [
  ⟨[.vhadd, .w, .vv], [.vhadd, .w, .vv], 1, [⟨26, 6, 16⟩, ⟨12, 2, 2⟩, ⟨5, 1, 0⟩, ⟨2, 3, 4⟩, ⟨0, 2, 0⟩], [], [.vs1, .vs2], [.vd], .vec (.bin (.hadd false) .i32) false false⟩,
  ⟨[.vhadd, .w, .vx], [.vhadd, .w, .vx], 1, [⟨26, 6, 16⟩, ⟨12, 2, 2⟩, ⟨5, 1, 0⟩, ⟨2, 3, 4⟩, ⟨0, 2, 2⟩], [], [.vs1, .vs2], [.vd], .vec (.bin (.hadd false) .i32) true false⟩,
  ⟨[.vhadd, .w, .vv, .m], [.vhadd, .w, .vv, .m], 1, [⟨26, 6, 16⟩, ⟨12, 2, 2⟩, ⟨5, 1, 1⟩, ⟨2, 3, 4⟩, ⟨0, 2, 0⟩], [], [.vs1, .vs2], [.vd], .vec (.bin (.hadd false) .i32) false true⟩,
  ⟨[.vhadd, .w, .vx, .m], [.vhadd, .w, .vx, .m], 1, [⟨26, 6, 16⟩, ⟨12, 2, 2⟩, ⟨5, 1, 1⟩, ⟨2, 3, 4⟩, ⟨0, 2, 2⟩], [], [.vs1, .vs2], [.vd], .vec (.bin (.hadd false) .i32) true true⟩,
  ⟨[.vhadd, .b, .r, .vv], [.vhadd, .b, .r, .vv], 1, [⟨26, 6, 18⟩, ⟨12, 2, 0⟩, ⟨5, 1, 0⟩, ⟨2, 3, 4⟩, ⟨0, 2, 0⟩], [], [.vs1, .vs2], [.vd], .vec (.bin (.hadd true) .i8) false false⟩,
  ⟨[.vhadd, .b, .r, .vx], [.vhadd, .b, .r, .vx], 1, [⟨26, 6, 18⟩, ⟨12, 2, 0⟩, ⟨5, 1, 0⟩, ⟨2, 3, 4⟩, ⟨0, 2, 2⟩], [], [.vs1, .vs2], [.vd], .vec (.bin (.hadd true) .i8) true false⟩,
  ⟨[.vhadd, .b, .r, .vv, .m], [.vhadd, .b, .r, .vv, .m], 1, [⟨26, 6, 18⟩, ⟨12, 2, 0⟩, ⟨5, 1, 1⟩, ⟨2, 3, 4⟩, ⟨0, 2, 0⟩], [], [.vs1, .vs2], [.vd], .vec (.bin (.hadd true) .i8) false true⟩,
  ⟨[.vhadd, .b, .r, .vx, .m], [.vhadd, .b, .r, .vx, .m], 1, [⟨26, 6, 18⟩, ⟨12, 2, 0⟩, ⟨5, 1, 1⟩, ⟨2, 3, 4⟩, ⟨0, 2, 2⟩], [], [.vs1, .vs2], [.vd], .vec (.bin (.hadd true) .i8) true true⟩,
  ⟨[.vhadd, .h, .r, .vv], [.vhadd, .h, .r, .vv], 1, [⟨26, 6, 18⟩, ⟨12, 2, 1⟩, ⟨5, 1, 0⟩, ⟨2, 3, 4⟩, ⟨0, 2, 0⟩], [], [.vs1, .vs2], [.vd], .vec (.bin (.hadd true) .i16) false false⟩,
  ⟨[.vhadd, .h, .r, .vx], [.vhadd, .h, .r, .vx], 1, [⟨26, 6, 18⟩, ⟨12, 2, 1⟩, ⟨5, 1, 0⟩, ⟨2, 3, 4⟩, ⟨0, 2, 2⟩], [], [.vs1, .vs2], [.vd], .vec (.bin (.hadd true) .i16) true false⟩,
  ⟨[.vhadd, .h, .r, .vv, .m], [.vhadd, .h, .r, .vv, .m], 1, [⟨26, 6, 18⟩, ⟨12, 2, 1⟩, ⟨5, 1, 1⟩, ⟨2, 3, 4⟩, ⟨0, 2, 0⟩], [], [.vs1, .vs2], [.vd], .vec (.bin (.hadd true) .i16) false true⟩,
  ⟨[.vhadd, .h, .r, .vx, .m], [.vhadd, .h, .r, .vx, .m], 1, [⟨26, 6, 18⟩, ⟨12, 2, 1⟩, ⟨5, 1, 1⟩, ⟨2, 3, 4⟩, ⟨0, 2, 2⟩], [], [.vs1, .vs2], [.vd], .vec (.bin (.hadd true) .i16) true true⟩,
  ⟨[.vhadd, .w, .r, .vv], [.vhadd, .w, .r, .vv], 1, [⟨26, 6, 18⟩, ⟨12, 2, 2⟩, ⟨5, 1, 0⟩, ⟨2, 3, 4⟩, ⟨0, 2, 0⟩], [], [.vs1, .vs2], [.vd], .vec (.bin (.hadd true) .i32) false false⟩,
  ⟨[.vhadd, .w, .r, .vx], [.vhadd, .w, .r, .vx], 1, [⟨26, 6, 18⟩, ⟨12, 2, 2⟩, ⟨5, 1, 0⟩, ⟨2, 3, 4⟩, ⟨0, 2, 2⟩], [], [.vs1, .vs2], [.vd], .vec (.bin (.hadd true) .i32) true false⟩,
  ⟨[.vhadd, .w, .r, .vv, .m], [.vhadd, .w, .r, .vv, .m], 1, [⟨26, 6, 18⟩, ⟨12, 2, 2⟩, ⟨5, 1, 1⟩, ⟨2, 3, 4⟩, ⟨0, 2, 0⟩], [], [.vs1, .vs2], [.vd], .vec (.bin (.hadd true) .i32) false true⟩,
  ⟨[.vhadd, .w, .r, .vx, .m], [.vhadd, .w, .r, .vx, .m], 1, [⟨26, 6, 18⟩, ⟨12, 2, 2⟩, ⟨5, 1, 1⟩, ⟨2, 3, 4⟩, ⟨0, 2, 2⟩], [], [.vs1, .vs2], [.vd], .vec (.bin (.hadd true) .i32) true true⟩,
  ⟨[.vhadd, .b, .u, .vv], [.vhadd, .b, .u, .vv], 1, [⟨26, 6, 17⟩, ⟨12, 2, 0⟩, ⟨5, 1, 0⟩, ⟨2, 3, 4⟩, ⟨0, 2, 0⟩], [], [.vs1, .vs2], [.vd], .vec (.bin (.hadd false) .u8) false false⟩,
  ⟨[.vhadd, .b, .u, .vx], [.vhadd, .b, .u, .vx], 1, [⟨26, 6, 17⟩, ⟨12, 2, 0⟩, ⟨5, 1, 0⟩, ⟨2, 3, 4⟩, ⟨0, 2, 2⟩], [], [.vs1, .vs2], [.vd], .vec (.bin (.hadd false) .u8) true false⟩,
  ⟨[.vhadd, .b, .u, .vv, .m], [.vhadd, .b, .u, .vv, .m], 1, [⟨26, 6, 17⟩, ⟨12, 2, 0⟩, ⟨5, 1, 1⟩, ⟨2, 3, 4⟩, ⟨0, 2, 0⟩], [], [.vs1, .vs2], [.vd], .vec (.bin (.hadd false) .u8) false true⟩,
  ⟨[.vhadd, .b, .u, .vx, .m], [.vhadd, .b, .u, .vx, .m], 1, [⟨26, 6, 17⟩, ⟨12, 2, 0⟩, ⟨5, 1, 1⟩, ⟨2, 3, 4⟩, ⟨0, 2, 2⟩], [], [.vs1, .vs2], [.vd], .vec (.bin (.hadd false) .u8) true true⟩,
  ⟨[.vhadd, .h, .u, .vv], [.vhadd, .h, .u, .vv], 1, [⟨26, 6, 17⟩, ⟨12, 2, 1⟩, ⟨5, 1, 0⟩, ⟨2, 3, 4⟩, ⟨0, 2, 0⟩], [], [.vs1, .vs2], [.vd], .vec (.bin (.hadd false) .u16) false false⟩,
  ⟨[.vhadd, .h, .u, .vx], [.vhadd, .h, .u, .vx], 1, [⟨26, 6, 17⟩, ⟨12, 2, 1⟩, ⟨5, 1, 0⟩, ⟨2, 3, 4⟩, ⟨0, 2, 2⟩], [], [.vs1, .vs2], [.vd], .vec (.bin (.hadd false) .u16) true false⟩,
  ⟨[.vhadd, .h, .u, .vv, .m], [.vhadd, .h, .u, .vv, .m], 1, [⟨26, 6, 17⟩, ⟨12, 2, 1⟩, ⟨5, 1, 1⟩, ⟨2, 3, 4⟩, ⟨0, 2, 0⟩], [], [.vs1, .vs2], [.vd], .vec (.bin (.hadd false) .u16) false true⟩,
  ⟨[.vhadd, .h, .u, .vx, .m], [.vhadd, .h, .u, .vx, .m], 1, [⟨26, 6, 17⟩, ⟨12, 2, 1⟩, ⟨5, 1, 1⟩, ⟨2, 3, 4⟩, ⟨0, 2, 2⟩], [], [.vs1, .vs2], [.vd], .vec (.bin (.hadd false) .u16) true true⟩,
  ⟨[.vhadd, .w, .u, .vv], [.vhadd, .w, .u, .vv], 1, [⟨26, 6, 17⟩, ⟨12, 2, 2⟩, ⟨5, 1, 0⟩, ⟨2, 3, 4⟩, ⟨0, 2, 0⟩], [], [.vs1, .vs2], [.vd], .vec (.bin (.hadd false) .u32) false false⟩,
  ⟨[.vhadd, .w, .u, .vx], [.vhadd, .w, .u, .vx], 1, [⟨26, 6, 17⟩, ⟨12, 2, 2⟩, ⟨5, 1, 0⟩, ⟨2, 3, 4⟩, ⟨0, 2, 2⟩], [], [.vs1, .vs2], [.vd], .vec (.bin (.hadd false) .u32) true false⟩,
  ⟨[.vhadd, .w, .u, .vv, .m], [.vhadd, .w, .u, .vv, .m], 1, [⟨26, 6, 17⟩, ⟨12, 2, 2⟩, ⟨5, 1, 1⟩, ⟨2, 3, 4⟩, ⟨0, 2, 0⟩], [], [.vs1, .vs2], [.vd], .vec (.bin (.hadd false) .u32) false true⟩,
  ⟨[.vhadd, .w, .u, .vx, .m], [.vhadd, .w, .u, .vx, .m], 1, [⟨26, 6, 17⟩, ⟨12, 2, 2⟩, ⟨5, 1, 1⟩, ⟨2, 3, 4⟩, ⟨0, 2, 2⟩], [], [.vs1, .vs2], [.vd], .vec (.bin (.hadd false) .u32) true true⟩,
  ⟨[.vhadd, .b, .ur, .vv], [.vhadd, .b, .ur, .vv], 1, [⟨26, 6, 19⟩, ⟨12, 2, 0⟩, ⟨5, 1, 0⟩, ⟨2, 3, 4⟩, ⟨0, 2, 0⟩], [], [.vs1, .vs2], [.vd], .vec (.bin (.hadd true) .u8) false false⟩,
  ⟨[.vhadd, .b, .ur, .vx], [.vhadd, .b, .ur, .vx], 1, [⟨26, 6, 19⟩, ⟨12, 2, 0⟩, ⟨5, 1, 0⟩, ⟨2, 3, 4⟩, ⟨0, 2, 2⟩], [], [.vs1, .vs2], [.vd], .vec (.bin (.hadd true) .u8) true false⟩,
  ⟨[.vhadd, .b, .ur, .vv, .m], [.vhadd, .b, .ur, .vv, .m], 1, [⟨26, 6, 19⟩, ⟨12, 2, 0⟩, ⟨5, 1, 1⟩, ⟨2, 3, 4⟩, ⟨0, 2, 0⟩], [], [.vs1, .vs2], [.vd], .vec (.bin (.hadd true) .u8) false true⟩,
  ⟨[.vhadd, .b, .ur, .vx, .m], [.vhadd, .b, .ur, .vx, .m], 1, [⟨26, 6, 19⟩, ⟨12, 2, 0⟩, ⟨5, 1, 1⟩, ⟨2, 3, 4⟩, ⟨0, 2, 2⟩], [], [.vs1, .vs2], [.vd], .vec (.bin (.hadd true) .u8) true true⟩,
  ⟨[.vhadd, .h, .ur, .vv], [.vhadd, .h, .ur, .vv], 1, [⟨26, 6, 19⟩, ⟨12, 2, 1⟩, ⟨5, 1, 0⟩, ⟨2, 3, 4⟩, ⟨0, 2, 0⟩], [], [.vs1, .vs2], [.vd], .vec (.bin (.hadd true) .u16) false false⟩,
  ⟨[.vhadd, .h, .ur, .vx], [.vhadd, .h, .ur, .vx], 1, [⟨26, 6, 19⟩, ⟨12, 2, 1⟩, ⟨5, 1, 0⟩, ⟨2, 3, 4⟩, ⟨0, 2, 2⟩], [], [.vs1, .vs2], [.vd], .vec (.bin (.hadd true) .u16) true false⟩,
  ⟨[.vhadd, .h, .ur, .vv, .m], [.vhadd, .h, .ur, .vv, .m], 1, [⟨26, 6, 19⟩, ⟨12, 2, 1⟩, ⟨5, 1, 1⟩, ⟨2, 3, 4⟩, ⟨0, 2, 0⟩], [], [.vs1, .vs2], [.vd], .vec (.bin (.hadd true) .u16) false true⟩,
  ⟨[.vhadd, .h, .ur, .vx, .m], [.vhadd, .h, .ur, .vx, .m], 1, [⟨26, 6, 19⟩, ⟨12, 2, 1⟩, ⟨5, 1, 1⟩, ⟨2, 3, 4⟩, ⟨0, 2, 2⟩], [], [.vs1, .vs2], [.vd], .vec (.bin (.hadd true) .u16) true true⟩,
  ⟨[.vhadd, .w, .ur, .vv], [.vhadd, .w, .ur, .vv], 1, [⟨26, 6, 19⟩, ⟨12, 2, 2⟩, ⟨5, 1, 0⟩, ⟨2, 3, 4⟩, ⟨0, 2, 0⟩], [], [.vs1, .vs2], [.vd], .vec (.bin (.hadd true) .u32) false false⟩,
  ⟨[.vhadd, .w, .ur, .vx], [.vhadd, .w, .ur, .vx], 1, [⟨26, 6, 19⟩, ⟨12, 2, 2⟩, ⟨5, 1, 0⟩, ⟨2, 3, 4⟩, ⟨0, 2, 2⟩], [], [.vs1, .vs2], [.vd], .vec (.bin (.hadd true) .u32) true false⟩,
  ⟨[.vhadd, .w, .ur, .vv, .m], [.vhadd, .w, .ur, .vv, .m], 1, [⟨26, 6, 19⟩, ⟨12, 2, 2⟩, ⟨5, 1, 1⟩, ⟨2, 3, 4⟩, ⟨0, 2, 0⟩], [], [.vs1, .vs2], [.vd], .vec (.bin (.hadd true) .u32) false true⟩,
  ⟨[.vhadd, .w, .ur, .vx, .m], [.vhadd, .w, .ur, .vx, .m], 1, [⟨26, 6, 19⟩, ⟨12, 2, 2⟩, ⟨5, 1, 1⟩, ⟨2, 3, 4⟩, ⟨0, 2, 2⟩], [], [.vs1, .vs2], [.vd], .vec (.bin (.hadd true) .u32) true true⟩,
  ⟨[.vhsub, .b, .vv], [.vhsub, .b, .vv], 1, [⟨26, 6, 20⟩, ⟨12, 2, 0⟩, ⟨5, 1, 0⟩, ⟨2, 3, 4⟩, ⟨0, 2, 0⟩], [], [.vs1, .vs2], [.vd], .vec (.bin (.hsub false) .i8) false false⟩,
  ⟨[.vhsub, .b, .vx], [.vhsub, .b, .vx], 1, [⟨26, 6, 20⟩, ⟨12, 2, 0⟩, ⟨5, 1, 0⟩, ⟨2, 3, 4⟩, ⟨0, 2, 2⟩], [], [.vs1, .vs2], [.vd], .vec (.bin (.hsub false) .i8) true false⟩,
  ⟨[.vhsub, .b, .vv, .m], [.vhsub, .b, .vv, .m], 1, [⟨26, 6, 20⟩, ⟨12, 2, 0⟩, ⟨5, 1, 1⟩, ⟨2, 3, 4⟩, ⟨0, 2, 0⟩], [], [.vs1, .vs2], [.vd], .vec (.bin (.hsub false) .i8) false true⟩,
  ⟨[.vhsub, .b, .vx, .m], [.vhsub, .b, .vx, .m], 1, [⟨26, 6, 20⟩, ⟨12, 2, 0⟩, ⟨5, 1, 1⟩, ⟨2, 3, 4⟩, ⟨0, 2, 2⟩], [], [.vs1, .vs2], [.vd], .vec (.bin (.hsub false) .i8) true true⟩,
  ⟨[.vhsub, .h, .vv], [.vhsub, .h, .vv], 1, [⟨26, 6, 20⟩, ⟨12, 2, 1⟩, ⟨5, 1, 0⟩, ⟨2, 3, 4⟩, ⟨0, 2, 0⟩], [], [.vs1, .vs2], [.vd], .vec (.bin (.hsub false) .i16) false false⟩,
  ⟨[.vhsub, .h, .vx], [.vhsub, .h, .vx], 1, [⟨26, 6, 20⟩, ⟨12, 2, 1⟩, ⟨5, 1, 0⟩, ⟨2, 3, 4⟩, ⟨0, 2, 2⟩], [], [.vs1, .vs2], [.vd], .vec (.bin (.hsub false) .i16) true false⟩,
  ⟨[.vhsub, .h, .vv, .m], [.vhsub, .h, .vv, .m], 1, [⟨26, 6, 20⟩, ⟨12, 2, 1⟩, ⟨5, 1, 1⟩, ⟨2, 3, 4⟩, ⟨0, 2, 0⟩], [], [.vs1, .vs2], [.vd], .vec (.bin (.hsub false) .i16) false true⟩,
  ⟨[.vhsub, .h, .vx, .m], [.vhsub, .h, .vx, .m], 1, [⟨26, 6, 20⟩, ⟨12, 2, 1⟩, ⟨5, 1, 1⟩, ⟨2, 3, 4⟩, ⟨0, 2, 2⟩], [], [.vs1, .vs2], [.vd], .vec (.bin (.hsub false) .i16) true true⟩,
  ⟨[.vhsub, .w, .vv], [.vhsub, .w, .vv], 1, [⟨26, 6, 20⟩, ⟨12, 2, 2⟩, ⟨5, 1, 0⟩, ⟨2, 3, 4⟩, ⟨0, 2, 0⟩], [], [.vs1, .vs2], [.vd], .vec (.bin (.hsub false) .i32) false false⟩,
  ⟨[.vhsub, .w, .vx], [.vhsub, .w, .vx], 1, [⟨26, 6, 20⟩, ⟨12, 2, 2⟩, ⟨5, 1, 0⟩, ⟨2, 3, 4⟩, ⟨0, 2, 2⟩], [], [.vs1, .vs2], [.vd], .vec (.bin (.hsub false) .i32) true false⟩,
  ⟨[.vhsub, .w, .vv, .m], [.vhsub, .w, .vv, .m], 1, [⟨26, 6, 20⟩, ⟨12, 2, 2⟩, ⟨5, 1, 1⟩, ⟨2, 3, 4⟩, ⟨0, 2, 0⟩], [], [.vs1, .vs2], [.vd], .vec (.bin (.hsub false) .i32) false true⟩,
  ⟨[.vhsub, .w, .vx, .m], [.vhsub, .w, .vx, .m], 1, [⟨26, 6, 20⟩, ⟨12, 2, 2⟩, ⟨5, 1, 1⟩, ⟨2, 3, 4⟩, ⟨0, 2, 2⟩], [], [.vs1, .vs2], [.vd], .vec (.bin (.hsub false) .i32) true true⟩,
  ⟨[.vhsub, .b, .r, .vv], [.vhsub, .b, .r, .vv], 1, [⟨26, 6, 22⟩, ⟨12, 2, 0⟩, ⟨5, 1, 0⟩, ⟨2, 3, 4⟩, ⟨0, 2, 0⟩], [], [.vs1, .vs2], [.vd], .vec (.bin (.hsub true) .i8) false false⟩,
  ⟨[.vhsub, .b, .r, .vx], [.vhsub, .b, .r, .vx], 1, [⟨26, 6, 22⟩, ⟨12, 2, 0⟩, ⟨5, 1, 0⟩, ⟨2, 3, 4⟩, ⟨0, 2, 2⟩], [], [.vs1, .vs2], [.vd], .vec (.bin (.hsub true) .i8) true false⟩,
  ⟨[.vhsub, .b, .r, .vv, .m], [.vhsub, .b, .r, .vv, .m], 1, [⟨26, 6, 22⟩, ⟨12, 2, 0⟩, ⟨5, 1, 1⟩, ⟨2, 3, 4⟩, ⟨0, 2, 0⟩], [], [.vs1, .vs2], [.vd], .vec (.bin (.hsub true) .i8) false true⟩,
  ⟨[.vhsub, .b, .r, .vx, .m], [.vhsub, .b, .r, .vx, .m], 1, [⟨26, 6, 22⟩, ⟨12, 2, 0⟩, ⟨5, 1, 1⟩, ⟨2, 3, 4⟩, ⟨0, 2, 2⟩], [], [.vs1, .vs2], [.vd], .vec (.bin (.hsub true) .i8) true true⟩,
  ⟨[.vhsub, .h, .r, .vv], [.vhsub, .h, .r, .vv], 1, [⟨26, 6, 22⟩, ⟨12, 2, 1⟩, ⟨5, 1, 0⟩, ⟨2, 3, 4⟩, ⟨0, 2, 0⟩], [], [.vs1, .vs2], [.vd], .vec (.bin (.hsub true) .i16) false false⟩,
  ⟨[.vhsub, .h, .r, .vx], [.vhsub, .h, .r, .vx], 1, [⟨26, 6, 22⟩, ⟨12, 2, 1⟩, ⟨5, 1, 0⟩, ⟨2, 3, 4⟩, ⟨0, 2, 2⟩], [], [.vs1, .vs2], [.vd], .vec (.bin (.hsub true) .i16) true false⟩,
  ⟨[.vhsub, .h, .r, .vv, .m], [.vhsub, .h, .r, .vv, .m], 1, [⟨26, 6, 22⟩, ⟨12, 2, 1⟩, ⟨5, 1, 1⟩, ⟨2, 3, 4⟩, ⟨0, 2, 0⟩], [], [.vs1, .vs2], [.vd], .vec (.bin (.hsub true) .i16) false true⟩,
  ⟨[.vhsub, .h, .r, .vx, .m], [.vhsub, .h, .r, .vx, .m], 1, [⟨26, 6, 22⟩, ⟨12, 2, 1⟩, ⟨5, 1, 1⟩, ⟨2, 3, 4⟩, ⟨0, 2, 2⟩], [], [.vs1, .vs2], [.vd], .vec (.bin (.hsub true) .i16) true true⟩]

def g1_7 : List Row := [
  ⟨[.vhsub, .w, .r, .vv], [.vhsub, .w, .r, .vv], 1, [⟨26, 6, 22⟩, ⟨12, 2, 2⟩, ⟨5, 1, 0⟩, ⟨2, 3, 4⟩, ⟨0, 2, 0⟩], [], [.vs1, .vs2], [.vd], .vec (.bin (.hsub true) .i32) false false⟩,
  ⟨[.vhsub, .w, .r, .vx], [.vhsub, .w, .r, .vx], 1, [⟨26, 6, 22⟩, ⟨12, 2, 2⟩, ⟨5, 1, 0⟩, ⟨2, 3, 4⟩, ⟨0, 2, 2⟩], [], [.vs1, .vs2], [.vd], .vec (.bin (.hsub true) .i32) true false⟩,
  ⟨[.vhsub, .w, .r, .vv, .m], [.vhsub, .w, .r, .vv, .m], 1, [⟨26, 6, 22⟩, ⟨12, 2, 2⟩, ⟨5, 1, 1⟩, ⟨2, 3, 4⟩, ⟨0, 2, 0⟩], [], [.vs1, .vs2], [.vd], .vec (.bin (.hsub true) .i32) false true⟩,
  ⟨[.vhsub, .w, .r, .vx, .m], [.vhsub, .w, .r, .vx, .m], 1, [⟨26, 6, 22⟩, ⟨12, 2, 2⟩, ⟨5, 1, 1⟩, ⟨2, 3, 4⟩, ⟨0, 2, 2⟩], [], [.vs1, .vs2], [.vd], .vec (.bin (.hsub true) .i32) true true⟩,
  ⟨[.vhsub, .b, .u, .vv], [.vhsub, .b, .u, .vv], 1, [⟨26, 6, 21⟩, ⟨12, 2, 0⟩, ⟨5, 1, 0⟩, ⟨2, 3, 4⟩, ⟨0, 2, 0⟩], [], [.vs1, .vs2], [.vd], .vec (.bin (.hsub false) .u8) false false⟩,
  ⟨[.vhsub, .b, .u, .vx], [.vhsub, .b, .u, .vx], 1, [⟨26, 6, 21⟩, ⟨12, 2, 0⟩, ⟨5, 1, 0⟩, ⟨2, 3, 4⟩, ⟨0, 2, 2⟩], [], [.vs1, .vs2], [.vd], .vec (.bin (.hsub false) .u8) true false⟩,
  ⟨[.vhsub, .b, .u, .vv, .m], [.vhsub, .b, .u, .vv, .m], 1, [⟨26, 6, 21⟩, ⟨12, 2, 0⟩, ⟨5, 1, 1⟩, ⟨2, 3, 4⟩, ⟨0, 2, 0⟩], [], [.vs1, .vs2], [.vd], .vec (.bin (.hsub false) .u8) false true⟩,
  ⟨[.vhsub, .b, .u, .vx, .m], [.vhsub, .b, .u, .vx, .m], 1, [⟨26, 6, 21⟩, ⟨12, 2, 0⟩, ⟨5, 1, 1⟩, ⟨2, 3, 4⟩, ⟨0, 2, 2⟩], [], [.vs1, .vs2], [.vd], .vec (.bin (.hsub false) .u8) true true⟩,
  ⟨[.vhsub, .h, .u, .vv], [.vhsub, .h, .u, .vv], 1, [⟨26, 6, 21⟩, ⟨12, 2, 1⟩, ⟨5, 1, 0⟩, ⟨2, 3, 4⟩, ⟨0, 2, 0⟩], [], [.vs1, .vs2], [.vd], .vec (.bin (.hsub false) .u16) false false⟩,
  ⟨[.vhsub, .h, .u, .vx], [.vhsub, .h, .u, .vx], 1, [⟨26, 6, 21⟩, ⟨12, 2, 1⟩, ⟨5, 1, 0⟩, ⟨2, 3, 4⟩, ⟨0, 2, 2⟩], [], [.vs1, .vs2], [.vd], .vec (.bin (.hsub false) .u16) true false⟩,
  ⟨[.vhsub, .h, .u, .vv, .m], [.vhsub, .h, .u, .vv, .m], 1, [⟨26, 6, 21⟩, ⟨12, 2, 1⟩, ⟨5, 1, 1⟩, ⟨2, 3, 4⟩, ⟨0, 2, 0⟩], [], [.vs1, .vs2], [.vd], .vec (.bin (.hsub false) .u16) false true⟩,
  ⟨[.vhsub, .h, .u, .vx, .m], [.vhsub, .h, .u, .vx, .m], 1, [⟨26, 6, 21⟩, ⟨12, 2, 1⟩, ⟨5, 1, 1⟩, ⟨2, 3, 4⟩, ⟨0, 2, 2⟩], [], [.vs1, .vs2], [.vd], .vec (.bin (.hsub false) .u16) true true⟩,
  ⟨[.vhsub, .w, .u, .vv], [.vhsub, .w, .u, .vv], 1, [⟨26, 6, 21⟩, ⟨12, 2, 2⟩, ⟨5, 1, 0⟩, ⟨2, 3, 4⟩, ⟨0, 2, 0⟩], [], [.vs1, .vs2], [.vd], .vec (.bin (.hsub false) .u32) false false⟩,
  ⟨[.vhsub, .w, .u, .vx], [.vhsub, .w, .u, .vx], 1, [⟨26, 6, 21⟩, ⟨12, 2, 2⟩, ⟨5, 1, 0⟩, ⟨2, 3, 4⟩, ⟨0, 2, 2⟩], [], [.vs1, .vs2], [.vd], .vec (.bin (.hsub false) .u32) true false⟩,
  ⟨[.vhsub, .w, .u, .vv, .m], [.vhsub, .w, .u, .vv, .m], 1, [⟨26, 6, 21⟩, ⟨12, 2, 2⟩, ⟨5, 1, 1⟩, ⟨2, 3, 4⟩, ⟨0, 2, 0⟩], [], [.vs1, .vs2], [.vd], .vec (.bin (.hsub false) .u32) false true⟩,
  ⟨[.vhsub, .w, .u, .vx, .m], [.vhsub, .w, .u, .vx, .m], 1, [⟨26, 6, 21⟩, ⟨12, 2, 2⟩, ⟨5, 1, 1⟩, ⟨2, 3, 4⟩, ⟨0, 2, 2⟩], [], [.vs1, .vs2], [.vd], .vec (.bin (.hsub false) .u32) true true⟩,
  ⟨[.vhsub, .b, .ur, .vv], [.vhsub, .b, .ur, .vv], 1, [⟨26, 6, 23⟩, ⟨12, 2, 0⟩, ⟨5, 1, 0⟩, ⟨2, 3, 4⟩, ⟨0, 2, 0⟩], [], [.vs1, .vs2], [.vd], .vec (.bin (.hsub true) .u8) false false⟩,
  ⟨[.vhsub, .b, .ur, .vx], [.vhsub, .b, .ur, .vx], 1, [⟨26, 6, 23⟩, ⟨12, 2, 0⟩, ⟨5, 1, 0⟩, ⟨2, 3, 4⟩, ⟨0, 2, 2⟩], [], [.vs1, .vs2], [.vd], .vec (.bin (.hsub true) .u8) true false⟩,
  ⟨[.vhsub, .b, .ur, .vv, .m], [.vhsub, .b, .ur, .vv, .m], 1, [⟨26, 6, 23⟩, ⟨12, 2, 0⟩, ⟨5, 1, 1⟩, ⟨2, 3, 4⟩, ⟨0, 2, 0⟩], [], [.vs1, .vs2], [.vd], .vec (.bin (.hsub true) .u8) false true⟩,
  ⟨[.vhsub, .b, .ur, .vx, .m], [.vhsub, .b, .ur, .vx, .m], 1, [⟨26, 6, 23⟩, ⟨12, 2, 0⟩, ⟨5, 1, 1⟩, ⟨2, 3, 4⟩, ⟨0, 2, 2⟩], [], [.vs1, .vs2], [.vd], .vec (.bin (.hsub true) .u8) true true⟩,
  ⟨[.vhsub, .h, .ur, .vv], [.vhsub, .h, .ur, .vv], 1, [⟨26, 6, 23⟩, ⟨12, 2, 1⟩, ⟨5, 1, 0⟩, ⟨2, 3, 4⟩, ⟨0, 2, 0⟩], [], [.vs1, .vs2], [.vd], .vec (.bin (.hsub true) .u16) false false⟩,
  ⟨[.vhsub, .h, .ur, .vx], [.vhsub, .h, .ur, .vx], 1, [⟨26, 6, 23⟩, ⟨12, 2, 1⟩, ⟨5, 1, 0⟩, ⟨2, 3, 4⟩, ⟨0, 2, 2⟩], [], [.vs1, .vs2], [.vd], .vec (.bin (.hsub true) .u16) true false⟩,
  ⟨[.vhsub, .h, .ur, .vv, .m], [.vhsub, .h, .ur, .vv, .m], 1, [⟨26, 6, 23⟩, ⟨12, 2, 1⟩, ⟨5, 1, 1⟩, ⟨2, 3, 4⟩, ⟨0, 2, 0⟩], [], [.vs1, .vs2], [.vd], .vec (.bin (.hsub true) .u16) false true⟩,
  ⟨[.vhsub, .h, .ur, .vx, .m], [.vhsub, .h, .ur, .vx, .m], 1, [⟨26, 6, 23⟩, ⟨12, 2, 1⟩, ⟨5, 1, 1⟩, ⟨2, 3, 4⟩, ⟨0, 2, 2⟩], [], [.vs1, .vs2], [.vd], .vec (.bin (.hsub true) .u16) true true⟩,
  ⟨[.vhsub, .w, .ur, .vv], [.vhsub, .w, .ur, .vv], 1, [⟨26, 6, 23⟩, ⟨12, 2, 2⟩, ⟨5, 1, 0⟩, ⟨2, 3, 4⟩, ⟨0, 2, 0⟩], [], [.vs1, .vs2], [.vd], .vec (.bin (.hsub true) .u32) false false⟩,
  ⟨[.vhsub, .w, .ur, .vx], [.vhsub, .w, .ur, .vx], 1, [⟨26, 6, 23⟩, ⟨12, 2, 2⟩, ⟨5, 1, 0⟩, ⟨2, 3, 4⟩, ⟨0, 2, 2⟩], [], [.vs1, .vs2], [.vd], .vec (.bin (.hsub true) .u32) true false⟩,
  ⟨[.vhsub, .w, .ur, .vv, .m], [.vhsub, .w, .ur, .vv, .m], 1, [⟨26, 6, 23⟩, ⟨12, 2, 2⟩, ⟨5, 1, 1⟩, ⟨2, 3, 4⟩, ⟨0, 2, 0⟩], [], [.vs1, .vs2], [.vd], .vec (.bin (.hsub true) .u32) false true⟩,
  ⟨[.vhsub, .w, .ur, .vx, .m], [.vhsub, .w, .ur, .vx, .m], 1, [⟨26, 6, 23⟩, ⟨12, 2, 2⟩, ⟨5, 1, 1⟩, ⟨2, 3, 4⟩, ⟨0, 2, 2⟩], [], [.vs1, .vs2], [.vd], .vec (.bin (.hsub true) .u32) true true⟩,
  ⟨[.vand, .vv], [.vand, .vv], 1, [⟨26, 6, 0⟩, ⟨5, 1, 0⟩, ⟨2, 3, 1⟩, ⟨0, 2, 0⟩], [], [.vs1, .vs2], [.vd], .vec (.bin .and .u32) false false⟩,
  ⟨[.vand, .vv, .m], [.vand, .vv, .m], 1, [⟨26, 6, 0⟩, ⟨5, 1, 1⟩, ⟨2, 3, 1⟩, ⟨0, 2, 0⟩], [], [.vs1, .vs2], [.vd], .vec (.bin .and .u32) false true⟩,
  ⟨[.vand, .b, .vx], [.vand, .b, .vx], 1, [⟨26, 6, 0⟩, ⟨12, 2, 0⟩, ⟨5, 1, 0⟩, ⟨2, 3, 1⟩, ⟨0, 2, 2⟩], [], [.vs1, .vs2], [.vd], .vec (.bin .and .u8) true false⟩,
  ⟨[.vand, .b, .vx, .m], [.vand, .b, .vx, .m], 1, [⟨26, 6, 0⟩, ⟨12, 2, 0⟩, ⟨5, 1, 1⟩, ⟨2, 3, 1⟩, ⟨0, 2, 2⟩], [], [.vs1, .vs2], [.vd], .vec (.bin .and .u8) true true⟩,
  ⟨[.vand, .h, .vx], [.vand, .h, .vx], 1, [⟨26, 6, 0⟩, ⟨12, 2, 1⟩, ⟨5, 1, 0⟩, ⟨2, 3, 1⟩, ⟨0, 2, 2⟩], [], [.vs1, .vs2], [.vd], .vec (.bin .and .u16) true false⟩,
  ⟨[.vand, .h, .vx, .m], [.vand, .h, .vx, .m], 1, [⟨26, 6, 0⟩, ⟨12, 2, 1⟩, ⟨5, 1, 1⟩, ⟨2, 3, 1⟩, ⟨0, 2, 2⟩], [], [.vs1, .vs2], [.vd], .vec (.bin .and .u16) true true⟩,
  ⟨[.vand, .w, .vx], [.vand, .w, .vx], 1, [⟨26, 6, 0⟩, ⟨12, 2, 2⟩, ⟨5, 1, 0⟩, ⟨2, 3, 1⟩, ⟨0, 2, 2⟩], [], [.vs1, .vs2], [.vd], .vec (.bin .and .u32) true false⟩,
  ⟨[.vand, .w, .vx, .m], [.vand, .w, .vx, .m], 1, [⟨26, 6, 0⟩, ⟨12, 2, 2⟩, ⟨5, 1, 1⟩, ⟨2, 3, 1⟩, ⟨0, 2, 2⟩], [], [.vs1, .vs2], [.vd], .vec (.bin .and .u32) true true⟩,
  ⟨[.vor, .vv], [.vor, .vv], 1, [⟨26, 6, 1⟩, ⟨5, 1, 0⟩, ⟨2, 3, 1⟩, ⟨0, 2, 0⟩], [], [.vs1, .vs2], [.vd], .vec (.bin .or .u32) false false⟩,
  ⟨[.vor, .vv, .m], [.vor, .vv, .m], 1, [⟨26, 6, 1⟩, ⟨5, 1, 1⟩, ⟨2, 3, 1⟩, ⟨0, 2, 0⟩], [], [.vs1, .vs2], [.vd], .vec (.bin .or .u32) false true⟩,
  ⟨[.vor, .b, .vx], [.vor, .b, .vx], 1, [⟨26, 6, 1⟩, ⟨12, 2, 0⟩, ⟨5, 1, 0⟩, ⟨2, 3, 1⟩, ⟨0, 2, 2⟩], [], [.vs1, .vs2], [.vd], .vec (.bin .or .u8) true false⟩,
  ⟨[.vor, .b, .vx, .m], [.vor, .b, .vx, .m], 1, [⟨26, 6, 1⟩, ⟨12, 2, 0⟩, ⟨5, 1, 1⟩, ⟨2, 3, 1⟩, ⟨0, 2, 2⟩], [], [.vs1, .vs2], [.vd], .vec (.bin .or .u8) true true⟩,
  ⟨[.vor, .h, .vx], [.vor, .h, .vx], 1, [⟨26, 6, 1⟩, ⟨12, 2, 1⟩, ⟨5, 1, 0⟩, ⟨2, 3, 1⟩, ⟨0, 2, 2⟩], [], [.vs1, .vs2], [.vd], .vec (.bin .or .u16) true false⟩,
  ⟨[.vor, .h, .vx, .m], [.vor, .h, .vx, .m], 1, [⟨26, 6, 1⟩, ⟨12, 2, 1⟩, ⟨5, 1, 1⟩, ⟨2, 3, 1⟩, ⟨0, 2, 2⟩], [], [.vs1, .vs2], [.vd], .vec (.bin .or .u16) true true⟩,
  ⟨[.vor, .w, .vx], [.vor, .w, .vx], 1, [⟨26, 6, 1⟩, ⟨12, 2, 2⟩, ⟨5, 1, 0⟩, ⟨2, 3, 1⟩, ⟨0, 2, 2⟩], [], [.vs1, .vs2], [.vd], .vec (.bin .or .u32) true false⟩,
  ⟨[.vor, .w, .vx, .m], [.vor, .w, .vx, .m], 1, [⟨26, 6, 1⟩, ⟨12, 2, 2⟩, ⟨5, 1, 1⟩, ⟨2, 3, 1⟩, ⟨0, 2, 2⟩], [], [.vs1, .vs2], [.vd], .vec (.bin .or .u32) true true⟩,
  ⟨[.vxor, .vv], [.vxor, .vv], 1, [⟨26, 6, 2⟩, ⟨5, 1, 0⟩, ⟨2, 3, 1⟩, ⟨0, 2, 0⟩], [], [.vs1, .vs2], [.vd], .vec (.bin .xor .u32) false false⟩,
  ⟨[.vxor, .vv, .m], [.vxor, .vv, .m], 1, [⟨26, 6, 2⟩, ⟨5, 1, 1⟩, ⟨2, 3, 1⟩, ⟨0, 2, 0⟩], [], [.vs1, .vs2], [.vd], .vec (.bin .xor .u32) false true⟩,
  ⟨[.vxor, .b, .vx], [.vxor, .b, .vx], 1, [⟨26, 6, 2⟩, ⟨12, 2, 0⟩, ⟨5, 1, 0⟩, ⟨2, 3, 1⟩, ⟨0, 2, 2⟩], [], [.vs1, .vs2], [.vd], .vec (.bin .xor .u8) true false⟩,
  ⟨[.vxor, .b, .vx, .m], [.vxor, .b, .vx, .m], 1, [⟨26, 6, 2⟩, ⟨12, 2, 0⟩, ⟨5, 1, 1⟩, ⟨2, 3, 1⟩, ⟨0, 2, 2⟩], [], [.vs1, .vs2], [.vd], .vec (.bin .xor .u8) true true⟩,
  ⟨[.vxor, .h, .vx], [.vxor, .h, .vx], 1, [⟨26, 6, 2⟩, ⟨12, 2, 1⟩, ⟨5, 1, 0⟩, ⟨2, 3, 1⟩, ⟨0, 2, 2⟩], [], [.vs1, .vs2], [.vd], .vec (.bin .xor .u16) true false⟩,
  ⟨[.vxor, .h, .vx, .m], [.vxor, .h, .vx, .m], 1, [⟨26, 6, 2⟩, ⟨12, 2, 1⟩, ⟨5, 1, 1⟩, ⟨2, 3, 1⟩, ⟨0, 2, 2⟩], [], [.vs1, .vs2], [.vd], .vec (.bin .xor .u16) true true⟩,
  ⟨[.vxor, .w, .vx], [.vxor, .w, .vx], 1, [⟨26, 6, 2⟩, ⟨12, 2, 2⟩, ⟨5, 1, 0⟩, ⟨2, 3, 1⟩, ⟨0, 2, 2⟩], [], [.vs1, .vs2], [.vd], .vec (.bin .xor .u32) true false⟩,
  ⟨[.vxor, .w, .vx, .m], [.vxor, .w, .vx, .m], 1, [⟨26, 6, 2⟩, ⟨12, 2, 2⟩, ⟨5, 1, 1⟩, ⟨2, 3, 1⟩, ⟨0, 2, 2⟩], [], [.vs1, .vs2], [.vd], .vec (.bin .xor .u32) true true⟩,
  ⟨[.vrev, .b, .vv], [.vrev, .b, .vv], 1, [⟨26, 6, 4⟩, ⟨12, 2, 0⟩, ⟨5, 1, 0⟩, ⟨2, 3, 1⟩, ⟨0, 2, 0⟩], [], [.vs1, .vs2], [.vd], .vec (.bin .rev .u8) false false⟩,
  ⟨[.vrev, .b, .vx], [.vrev, .b, .vx], 1, [⟨26, 6, 4⟩, ⟨12, 2, 0⟩, ⟨5, 1, 0⟩, ⟨2, 3, 1⟩, ⟨0, 2, 2⟩], [], [.vs1, .vs2], [.vd], .vec (.bin .rev .u8) true false⟩,
  ⟨[.vrev, .b, .vv, .m], [.vrev, .b, .vv, .m], 1, [⟨26, 6, 4⟩, ⟨12, 2, 0⟩, ⟨5, 1, 1⟩, ⟨2, 3, 1⟩, ⟨0, 2, 0⟩], [], [.vs1, .vs2], [.vd], .vec (.bin .rev .u8) false true⟩,
  ⟨[.vrev, .b, .vx, .m], [.vrev, .b, .vx, .m], 1, [⟨26, 6, 4⟩, ⟨12, 2, 0⟩, ⟨5, 1, 1⟩, ⟨2, 3, 1⟩, ⟨0, 2, 2⟩], [], [.vs1, .vs2], [.vd], .vec (.bin .rev .u8) true true⟩,
  ⟨[.vrev, .h, .vv], [.vrev, .h, .vv], 1, [⟨26, 6, 4⟩, ⟨12, 2, 1⟩, ⟨5, 1, 0⟩, ⟨2, 3, 1⟩, ⟨0, 2, 0⟩], [], [.vs1, .vs2], [.vd], .vec (.bin .rev .u16) false false⟩,
  ⟨[.vrev, .h, .vx], [.vrev, .h, .vx], 1, [⟨26, 6, 4⟩, ⟨12, 2, 1⟩, ⟨5, 1, 0⟩, ⟨2, 3, 1⟩, ⟨0, 2, 2⟩], [], [.vs1, .vs2], [.vd], .vec (.bin .rev .u16) true false⟩,
  ⟨[.vrev, .h, .vv, .m], [.vrev, .h, .vv, .m], 1, [⟨26, 6, 4⟩, ⟨12, 2, 1⟩, ⟨5, 1, 1⟩, ⟨2, 3, 1⟩, ⟨0, 2, 0⟩], [], [.vs1, .vs2], [.vd], .vec (.bin .rev .u16) false true⟩,
  ⟨[.vrev, .h, .vx, .m], [.vrev, .h, .vx, .m], 1, [⟨26, 6, 4⟩, ⟨12, 2, 1⟩, ⟨5, 1, 1⟩, ⟨2, 3, 1⟩, ⟨0, 2, 2⟩], [], [.vs1, .vs2], [.vd], .vec (.bin .rev .u16) true true⟩]

def g1_8 : List Row := [
  ⟨[.vrev, .w, .vv], [.vrev, .w, .vv], 1, [⟨26, 6, 4⟩, ⟨12, 2, 2⟩, ⟨5, 1, 0⟩, ⟨2, 3, 1⟩, ⟨0, 2, 0⟩], [], [.vs1, .vs2], [.vd], .vec (.bin .rev .u32) false false⟩,
  ⟨[.vrev, .w, .vx], [.vrev, .w, .vx], 1, [⟨26, 6, 4⟩, ⟨12, 2, 2⟩, ⟨5, 1, 0⟩, ⟨2, 3, 1⟩, ⟨0, 2, 2⟩], [], [.vs1, .vs2], [.vd], .vec (.bin .rev .u32) true false⟩,
  ⟨[.vrev, .w, .vv, .m], [.vrev, .w, .vv, .m], 1, [⟨26, 6, 4⟩, ⟨12, 2, 2⟩, ⟨5, 1, 1⟩, ⟨2, 3, 1⟩, ⟨0, 2, 0⟩], [], [.vs1, .vs2], [.vd], .vec (.bin .rev .u32) false true⟩,
  ⟨[.vrev, .w, .vx, .m], [.vrev, .w, .vx, .m], 1, [⟨26, 6, 4⟩, ⟨12, 2, 2⟩, ⟨5, 1, 1⟩, ⟨2, 3, 1⟩, ⟨0, 2, 2⟩], [], [.vs1, .vs2], [.vd], .vec (.bin .rev .u32) true true⟩,
  ⟨[.vror, .b, .vv], [.vror, .b, .vv], 1, [⟨26, 6, 5⟩, ⟨12, 2, 0⟩, ⟨5, 1, 0⟩, ⟨2, 3, 1⟩, ⟨0, 2, 0⟩], [], [.vs1, .vs2], [.vd], .vec (.bin .ror .u8) false false⟩,
  ⟨[.vror, .b, .vx], [.vror, .b, .vx], 1, [⟨26, 6, 5⟩, ⟨12, 2, 0⟩, ⟨5, 1, 0⟩, ⟨2, 3, 1⟩, ⟨0, 2, 2⟩], [], [.vs1, .vs2], [.vd], .vec (.bin .ror .u8) true false⟩,
  ⟨[.vror, .b, .vv, .m], [.vror, .b, .vv, .m], 1, [⟨26, 6, 5⟩, ⟨12, 2, 0⟩, ⟨5, 1, 1⟩, ⟨2, 3, 1⟩, ⟨0, 2, 0⟩], [], [.vs1, .vs2], [.vd], .vec (.bin .ror .u8) false true⟩,
  ⟨[.vror, .b, .vx, .m], [.vror, .b, .vx, .m], 1, [⟨26, 6, 5⟩, ⟨12, 2, 0⟩, ⟨5, 1, 1⟩, ⟨2, 3, 1⟩, ⟨0, 2, 2⟩], [], [.vs1, .vs2], [.vd], .vec (.bin .ror .u8) true true⟩,
  ⟨[.vror, .h, .vv], [.vror, .h, .vv], 1, [⟨26, 6, 5⟩, ⟨12, 2, 1⟩, ⟨5, 1, 0⟩, ⟨2, 3, 1⟩, ⟨0, 2, 0⟩], [], [.vs1, .vs2], [.vd], .vec (.bin .ror .u16) false false⟩,
  ⟨[.vror, .h, .vx], [.vror, .h, .vx], 1, [⟨26, 6, 5⟩, ⟨12, 2, 1⟩, ⟨5, 1, 0⟩, ⟨2, 3, 1⟩, ⟨0, 2, 2⟩], [], [.vs1, .vs2], [.vd], .vec (.bin .ror .u16) true false⟩,
  ⟨[.vror, .h, .vv, .m], [.vror, .h, .vv, .m], 1, [⟨26, 6, 5⟩, ⟨12, 2, 1⟩, ⟨5, 1, 1⟩, ⟨2, 3, 1⟩, ⟨0, 2, 0⟩], [], [.vs1, .vs2], [.vd], .vec (.bin .ror .u16) false true⟩,
  ⟨[.vror, .h, .vx, .m], [.vror, .h, .vx, .m], 1, [⟨26, 6, 5⟩, ⟨12, 2, 1⟩, ⟨5, 1, 1⟩, ⟨2, 3, 1⟩, ⟨0, 2, 2⟩], [], [.vs1, .vs2], [.vd], .vec (.bin .ror .u16) true true⟩,
  ⟨[.vror, .w, .vv], [.vror, .w, .vv], 1, [⟨26, 6, 5⟩, ⟨12, 2, 2⟩, ⟨5, 1, 0⟩, ⟨2, 3, 1⟩, ⟨0, 2, 0⟩], [], [.vs1, .vs2], [.vd], .vec (.bin .ror .u32) false false⟩,
  ⟨[.vror, .w, .vx], [.vror, .w, .vx], 1, [⟨26, 6, 5⟩, ⟨12, 2, 2⟩, ⟨5, 1, 0⟩, ⟨2, 3, 1⟩, ⟨0, 2, 2⟩], [], [.vs1, .vs2], [.vd], .vec (.bin .ror .u32) true false⟩,
  ⟨[.vror, .w, .vv, .m], [.vror, .w, .vv, .m], 1, [⟨26, 6, 5⟩, ⟨12, 2, 2⟩, ⟨5, 1, 1⟩, ⟨2, 3, 1⟩, ⟨0, 2, 0⟩], [], [.vs1, .vs2], [.vd], .vec (.bin .ror .u32) false true⟩,
  ⟨[.vror, .w, .vx, .m], [.vror, .w, .vx, .m], 1, [⟨26, 6, 5⟩, ⟨12, 2, 2⟩, ⟨5, 1, 1⟩, ⟨2, 3, 1⟩, ⟨0, 2, 2⟩], [], [.vs1, .vs2], [.vd], .vec (.bin .ror .u32) true true⟩,
  ⟨[.vmvp, .vv], [.vmvp, .vv], 1, [⟨26, 6, 13⟩, ⟨5, 1, 0⟩, ⟨2, 3, 1⟩, ⟨0, 2, 0⟩], [], [.vs1, .vs2], [.vd], .vec (.mvp .u32) false false⟩,
  ⟨[.vmvp, .vv, .m], [.vmvp, .vv, .m], 1, [⟨26, 6, 13⟩, ⟨5, 1, 1⟩, ⟨2, 3, 1⟩, ⟨0, 2, 0⟩], [], [.vs1, .vs2], [.vd], .vec (.mvp .u32) false true⟩,
  ⟨[.vmvp, .b, .vx], [.vmvp, .b, .vx], 1, [⟨26, 6, 13⟩, ⟨12, 2, 0⟩, ⟨5, 1, 0⟩, ⟨2, 3, 1⟩, ⟨0, 2, 2⟩], [], [.vs1, .vs2], [.vd], .vec (.mvp .u8) true false⟩,
  ⟨[.vmvp, .b, .vx, .m], [.vmvp, .b, .vx, .m], 1, [⟨26, 6, 13⟩, ⟨12, 2, 0⟩, ⟨5, 1, 1⟩, ⟨2, 3, 1⟩, ⟨0, 2, 2⟩], [], [.vs1, .vs2], [.vd], .vec (.mvp .u8) true true⟩,
  ⟨[.vmvp, .h, .vx], [.vmvp, .h, .vx], 1, [⟨26, 6, 13⟩, ⟨12, 2, 1⟩, ⟨5, 1, 0⟩, ⟨2, 3, 1⟩, ⟨0, 2, 2⟩], [], [.vs1, .vs2], [.vd], .vec (.mvp .u16) true false⟩,
  ⟨[.vmvp, .h, .vx, .m], [.vmvp, .h, .vx, .m], 1, [⟨26, 6, 13⟩, ⟨12, 2, 1⟩, ⟨5, 1, 1⟩, ⟨2, 3, 1⟩, ⟨0, 2, 2⟩], [], [.vs1, .vs2], [.vd], .vec (.mvp .u16) true true⟩,
  ⟨[.vmvp, .w, .vx], [.vmvp, .w, .vx], 1, [⟨26, 6, 13⟩, ⟨12, 2, 2⟩, ⟨5, 1, 0⟩, ⟨2, 3, 1⟩, ⟨0, 2, 2⟩], [], [.vs1, .vs2], [.vd], .vec (.mvp .u32) true false⟩,
  ⟨[.vmvp, .w, .vx, .m], [.vmvp, .w, .vx, .m], 1, [⟨26, 6, 13⟩, ⟨12, 2, 2⟩, ⟨5, 1, 1⟩, ⟨2, 3, 1⟩, ⟨0, 2, 2⟩], [], [.vs1, .vs2], [.vd], .vec (.mvp .u32) true true⟩]

def group1 : List Row := g1_0 ++ g1_1 ++ g1_2 ++ g1_3 ++ g1_4 ++ g1_5 ++ g1_6 ++ g1_7 ++ g1_8

end Verif.Model.Gen
