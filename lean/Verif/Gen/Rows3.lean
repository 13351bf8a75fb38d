import Verif.Model.Isa

/-! Generated by tools/gen_rows.py from the instruction group `CoralNPUVectorMemoryInst` of
/repo/sim/coralnpu_memory.bin_fmt and the opcodes of the `.isa` files. -/

namespace Verif.Model.Gen

def g3_0 : List Row := [
  ⟨[.vld, .b, .x], [.vld, .b, .x], 3, [⟨26, 6, 0⟩, ⟨20, 6, 0⟩, ⟨12, 2, 0⟩, ⟨5, 1, 0⟩, ⟨2, 3, 7⟩, ⟨0, 2, 3⟩], [], [.vs1], [.vd], .vld .i8 false false false false false⟩,
  ⟨[.vld, .h, .x], [.vld, .h, .x], 3, [⟨26, 6, 0⟩, ⟨20, 6, 0⟩, ⟨12, 2, 1⟩, ⟨5, 1, 0⟩, ⟨2, 3, 7⟩, ⟨0, 2, 3⟩], [], [.vs1], [.vd], .vld .i16 false false false false false⟩,
  ⟨[.vld, .w, .x], [.vld, .w, .x], 3, [⟨26, 6, 0⟩, ⟨20, 6, 0⟩, ⟨12, 2, 2⟩, ⟨5, 1, 0⟩, ⟨2, 3, 7⟩, ⟨0, 2, 3⟩], [], [.vs1], [.vd], .vld .i32 false false false false false⟩,
  ⟨[.vld, .b, .p, .x], [.vld, .b, .p, .x], 3, [⟨26, 6, 4⟩, ⟨20, 6, 0⟩, ⟨12, 2, 0⟩, ⟨5, 1, 0⟩, ⟨2, 3, 7⟩, ⟨0, 2, 3⟩], [], [.vs1], [.vs1, .vd], .vld .i8 false false false false true⟩,
  ⟨[.vld, .h, .p, .x], [.vld, .h, .p, .x], 3, [⟨26, 6, 4⟩, ⟨20, 6, 0⟩, ⟨12, 2, 1⟩, ⟨5, 1, 0⟩, ⟨2, 3, 7⟩, ⟨0, 2, 3⟩], [], [.vs1], [.vs1, .vd], .vld .i16 false false false false true⟩,
  ⟨[.vld, .w, .p, .x], [.vld, .w, .p, .x], 3, [⟨26, 6, 4⟩, ⟨20, 6, 0⟩, ⟨12, 2, 2⟩, ⟨5, 1, 0⟩, ⟨2, 3, 7⟩, ⟨0, 2, 3⟩], [], [.vs1], [.vs1, .vd], .vld .i32 false false false false true⟩,
  ⟨[.vld, .b, .x, .m], [.vld, .b, .x, .m], 3, [⟨26, 6, 0⟩, ⟨20, 6, 0⟩, ⟨12, 2, 0⟩, ⟨5, 1, 1⟩, ⟨2, 3, 7⟩, ⟨0, 2, 3⟩], [], [.vs1], [.vd], .vld .i8 false false true false false⟩,
  ⟨[.vld, .h, .x, .m], [.vld, .h, .x, .m], 3, [⟨26, 6, 0⟩, ⟨20, 6, 0⟩, ⟨12, 2, 1⟩, ⟨5, 1, 1⟩, ⟨2, 3, 7⟩, ⟨0, 2, 3⟩], [], [.vs1], [.vd], .vld .i16 false false true false false⟩,
  ⟨[.vld, .w, .x, .m], [.vld, .w, .x, .m], 3, [⟨26, 6, 0⟩, ⟨20, 6, 0⟩, ⟨12, 2, 2⟩, ⟨5, 1, 1⟩, ⟨2, 3, 7⟩, ⟨0, 2, 3⟩], [], [.vs1], [.vd], .vld .i32 false false true false false⟩,
  ⟨[.vld, .b, .p, .x, .m], [.vld, .b, .p, .x, .m], 3, [⟨26, 6, 4⟩, ⟨20, 6, 0⟩, ⟨12, 2, 0⟩, ⟨5, 1, 1⟩, ⟨2, 3, 7⟩, ⟨0, 2, 3⟩], [], [.vs1], [.vs1, .vd], .vld .i8 false false true false true⟩,
  ⟨[.vld, .h, .p, .x, .m], [.vld, .h, .p, .x, .m], 3, [⟨26, 6, 4⟩, ⟨20, 6, 0⟩, ⟨12, 2, 1⟩, ⟨5, 1, 1⟩, ⟨2, 3, 7⟩, ⟨0, 2, 3⟩], [], [.vs1], [.vs1, .vd], .vld .i16 false false true false true⟩,
  ⟨[.vld, .w, .p, .x, .m], [.vld, .w, .p, .x, .m], 3, [⟨26, 6, 4⟩, ⟨20, 6, 0⟩, ⟨12, 2, 2⟩, ⟨5, 1, 1⟩, ⟨2, 3, 7⟩, ⟨0, 2, 3⟩], [], [.vs1], [.vs1, .vd], .vld .i32 false false true false true⟩,
  ⟨[.vld, .b, .p, .xx], [.vld, .b, .p, .xx], 3, [⟨26, 6, 4⟩, ⟨12, 2, 0⟩, ⟨5, 1, 0⟩, ⟨2, 3, 7⟩, ⟨0, 2, 3⟩], [⟨20, 6, 0⟩], [.vs1, .vs2], [.vs1, .vd], .vld .i8 false false false true true⟩,
  ⟨[.vld, .h, .p, .xx], [.vld, .h, .p, .xx], 3, [⟨26, 6, 4⟩, ⟨12, 2, 1⟩, ⟨5, 1, 0⟩, ⟨2, 3, 7⟩, ⟨0, 2, 3⟩], [⟨20, 6, 0⟩], [.vs1, .vs2], [.vs1, .vd], .vld .i16 false false false true true⟩,
  ⟨[.vld, .w, .p, .xx], [.vld, .w, .p, .xx], 3, [⟨26, 6, 4⟩, ⟨12, 2, 2⟩, ⟨5, 1, 0⟩, ⟨2, 3, 7⟩, ⟨0, 2, 3⟩], [⟨20, 6, 0⟩], [.vs1, .vs2], [.vs1, .vd], .vld .i32 false false false true true⟩,
  ⟨[.vld, .b, .p, .xx, .m], [.vld, .b, .p, .xx, .m], 3, [⟨26, 6, 4⟩, ⟨12, 2, 0⟩, ⟨5, 1, 1⟩, ⟨2, 3, 7⟩, ⟨0, 2, 3⟩], [⟨20, 6, 0⟩], [.vs1, .vs2], [.vs1, .vd], .vld .i8 false false true true true⟩,
  ⟨[.vld, .h, .p, .xx, .m], [.vld, .h, .p, .xx, .m], 3, [⟨26, 6, 4⟩, ⟨12, 2, 1⟩, ⟨5, 1, 1⟩, ⟨2, 3, 7⟩, ⟨0, 2, 3⟩], [⟨20, 6, 0⟩], [.vs1, .vs2], [.vs1, .vd], .vld .i16 false false true true true⟩,
  ⟨[.vld, .w, .p, .xx, .m], [.vld, .w, .p, .xx, .m], 3, [⟨26, 6, 4⟩, ⟨12, 2, 2⟩, ⟨5, 1, 1⟩, ⟨2, 3, 7⟩, ⟨0, 2, 3⟩], [⟨20, 6, 0⟩], [.vs1, .vs2], [.vs1, .vd], .vld .i32 false false true true true⟩,
  ⟨[.vld, .b, .l, .xx], [.vld, .b, .l, .xx], 3, [⟨26, 6, 1⟩, ⟨12, 2, 0⟩, ⟨5, 1, 0⟩, ⟨2, 3, 7⟩, ⟨0, 2, 3⟩], [⟨20, 6, 0⟩], [.vs1, .vs2], [.vd], .vld .i8 true false false true false⟩,
  ⟨[.vld, .h, .l, .xx], [.vld, .h, .l, .xx], 3, [⟨26, 6, 1⟩, ⟨12, 2, 1⟩, ⟨5, 1, 0⟩, ⟨2, 3, 7⟩, ⟨0, 2, 3⟩], [⟨20, 6, 0⟩], [.vs1, .vs2], [.vd], .vld .i16 true false false true false⟩,
  ⟨[.vld, .w, .l, .xx], [.vld, .w, .l, .xx], 3, [⟨26, 6, 1⟩, ⟨12, 2, 2⟩, ⟨5, 1, 0⟩, ⟨2, 3, 7⟩, ⟨0, 2, 3⟩], [⟨20, 6, 0⟩], [.vs1, .vs2], [.vd], .vld .i32 true false false true false⟩,
  ⟨[.vld, .b, .lp, .xx], [.vld, .b, .lp, .xx], 3, [⟨26, 6, 5⟩, ⟨12, 2, 0⟩, ⟨5, 1, 0⟩, ⟨2, 3, 7⟩, ⟨0, 2, 3⟩], [⟨20, 6, 0⟩], [.vs1, .vs2], [.vs1, .vd], .vld .i8 true false false true true⟩,
  ⟨[.vld, .h, .lp, .xx], [.vld, .h, .lp, .xx], 3, [⟨26, 6, 5⟩, ⟨12, 2, 1⟩, ⟨5, 1, 0⟩, ⟨2, 3, 7⟩, ⟨0, 2, 3⟩], [⟨20, 6, 0⟩], [.vs1, .vs2], [.vs1, .vd], .vld .i16 true false false true true⟩,
  ⟨[.vld, .w, .lp, .xx], [.vld, .w, .lp, .xx], 3, [⟨26, 6, 5⟩, ⟨12, 2, 2⟩, ⟨5, 1, 0⟩, ⟨2, 3, 7⟩, ⟨0, 2, 3⟩], [⟨20, 6, 0⟩], [.vs1, .vs2], [.vs1, .vd], .vld .i32 true false false true true⟩,
  ⟨[.vld, .b, .l, .xx, .m], [.vld, .b, .l, .xx, .m], 3, [⟨26, 6, 1⟩, ⟨12, 2, 0⟩, ⟨5, 1, 1⟩, ⟨2, 3, 7⟩, ⟨0, 2, 3⟩], [⟨20, 6, 0⟩], [.vs1, .vs2], [.vd], .vld .i8 true false true true false⟩,
  ⟨[.vld, .h, .l, .xx, .m], [.vld, .h, .l, .xx, .m], 3, [⟨26, 6, 1⟩, ⟨12, 2, 1⟩, ⟨5, 1, 1⟩, ⟨2, 3, 7⟩, ⟨0, 2, 3⟩], [⟨20, 6, 0⟩], [.vs1, .vs2], [.vd], .vld .i16 true false true true false⟩,
  ⟨[.vld, .w, .l, .xx, .m], [.vld, .w, .l, .xx, .m], 3, [⟨26, 6, 1⟩, ⟨12, 2, 2⟩, ⟨5, 1, 1⟩, ⟨2, 3, 7⟩, ⟨0, 2, 3⟩], [⟨20, 6, 0⟩], [.vs1, .vs2], [.vd], .vld .i32 true false true true false⟩,
  ⟨[.vld, .b, .lp, .xx, .m], [.vld, .b, .lp, .xx, .m], 3, [⟨26, 6, 5⟩, ⟨12, 2, 0⟩, ⟨5, 1, 1⟩, ⟨2, 3, 7⟩, ⟨0, 2, 3⟩], [⟨20, 6, 0⟩], [.vs1, .vs2], [.vs1, .vd], .vld .i8 true false true true true⟩,
  ⟨[.vld, .h, .lp, .xx, .m], [.vld, .h, .lp, .xx, .m], 3, [⟨26, 6, 5⟩, ⟨12, 2, 1⟩, ⟨5, 1, 1⟩, ⟨2, 3, 7⟩, ⟨0, 2, 3⟩], [⟨20, 6, 0⟩], [.vs1, .vs2], [.vs1, .vd], .vld .i16 true false true true true⟩,
  ⟨[.vld, .w, .lp, .xx, .m], [.vld, .w, .lp, .xx, .m], 3, [⟨26, 6, 5⟩, ⟨12, 2, 2⟩, ⟨5, 1, 1⟩, ⟨2, 3, 7⟩, ⟨0, 2, 3⟩], [⟨20, 6, 0⟩], [.vs1, .vs2], [.vs1, .vd], .vld .i32 true false true true true⟩,
  ⟨[.vld, .b, .s, .xx], [.vld, .b, .s, .xx], 3, [⟨26, 6, 2⟩, ⟨12, 2, 0⟩, ⟨5, 1, 0⟩, ⟨2, 3, 7⟩, ⟨0, 2, 3⟩], [⟨20, 6, 0⟩], [.vs1, .vs2], [.vd], .vld .i8 false true false true false⟩,
  ⟨[.vld, .h, .s, .xx], [.vld, .h, .s, .xx], 3, [⟨26, 6, 2⟩, ⟨12, 2, 1⟩, ⟨5, 1, 0⟩, ⟨2, 3, 7⟩, ⟨0, 2, 3⟩], [⟨20, 6, 0⟩], [.vs1, .vs2], [.vd], .vld .i16 false true false true false⟩,
  ⟨[.vld, .w, .s, .xx], [.vld, .w, .s, .xx], 3, [⟨26, 6, 2⟩, ⟨12, 2, 2⟩, ⟨5, 1, 0⟩, ⟨2, 3, 7⟩, ⟨0, 2, 3⟩], [⟨20, 6, 0⟩], [.vs1, .vs2], [.vd], .vld .i32 false true false true false⟩,
  ⟨[.vld, .b, .sp, .xx], [.vld, .b, .sp, .xx], 3, [⟨26, 6, 6⟩, ⟨12, 2, 0⟩, ⟨5, 1, 0⟩, ⟨2, 3, 7⟩, ⟨0, 2, 3⟩], [⟨20, 6, 0⟩], [.vs1, .vs2], [.vs1, .vd], .vld .i8 false true false true true⟩,
  ⟨[.vld, .h, .sp, .xx], [.vld, .h, .sp, .xx], 3, [⟨26, 6, 6⟩, ⟨12, 2, 1⟩, ⟨5, 1, 0⟩, ⟨2, 3, 7⟩, ⟨0, 2, 3⟩], [⟨20, 6, 0⟩], [.vs1, .vs2], [.vs1, .vd], .vld .i16 false true false true true⟩,
  ⟨[.vld, .w, .sp, .xx], [.vld, .w, .sp, .xx], 3, [⟨26, 6, 6⟩, ⟨12, 2, 2⟩, ⟨5, 1, 0⟩, ⟨2, 3, 7⟩, ⟨0, 2, 3⟩], [⟨20, 6, 0⟩], [.vs1, .vs2], [.vs1, .vd], .vld .i32 false true false true true⟩,
  ⟨[.vld, .b, .s, .xx, .m], [.vld, .b, .s, .xx, .m], 3, [⟨26, 6, 2⟩, ⟨12, 2, 0⟩, ⟨5, 1, 1⟩, ⟨2, 3, 7⟩, ⟨0, 2, 3⟩], [⟨20, 6, 0⟩], [.vs1, .vs2], [.vd], .vld .i8 false true true true false⟩,
  ⟨[.vld, .h, .s, .xx, .m], [.vld, .h, .s, .xx, .m], 3, [⟨26, 6, 2⟩, ⟨12, 2, 1⟩, ⟨5, 1, 1⟩, ⟨2, 3, 7⟩, ⟨0, 2, 3⟩], [⟨20, 6, 0⟩], [.vs1, .vs2], [.vd], .vld .i16 false true true true false⟩,
  ⟨[.vld, .w, .s, .xx, .m], [.vld, .w, .s, .xx, .m], 3, [⟨26, 6, 2⟩, ⟨12, 2, 2⟩, ⟨5, 1, 1⟩, ⟨2, 3, 7⟩, ⟨0, 2, 3⟩], [⟨20, 6, 0⟩], [.vs1, .vs2], [.vd], .vld .i32 false true true true false⟩,
  ⟨[.vld, .b, .sp, .xx, .m], [.vld, .b, .sp, .xx, .m], 3, [⟨26, 6, 6⟩, ⟨12, 2, 0⟩, ⟨5, 1, 1⟩, ⟨2, 3, 7⟩, ⟨0, 2, 3⟩], [⟨20, 6, 0⟩], [.vs1, .vs2], [.vs1, .vd], .vld .i8 false true true true true⟩,
  ⟨[.vld, .h, .sp, .xx, .m], [.vld, .h, .sp, .xx, .m], 3, [⟨26, 6, 6⟩, ⟨12, 2, 1⟩, ⟨5, 1, 1⟩, ⟨2, 3, 7⟩, ⟨0, 2, 3⟩], [⟨20, 6, 0⟩], [.vs1, .vs2], [.vs1, .vd], .vld .i16 false true true true true⟩,
  ⟨[.vld, .w, .sp, .xx, .m], [.vld, .w, .sp, .xx, .m], 3, [⟨26, 6, 6⟩, ⟨12, 2, 2⟩, ⟨5, 1, 1⟩, ⟨2, 3, 7⟩, ⟨0, 2, 3⟩], [⟨20, 6, 0⟩], [.vs1, .vs2], [.vs1, .vd], .vld .i32 false true true true true⟩,
  ⟨[.vld, .b, .tp, .xx], [.vld, .b, .tp, .xx], 3, [⟨26, 6, 7⟩, ⟨12, 2, 0⟩, ⟨5, 1, 0⟩, ⟨2, 3, 7⟩, ⟨0, 2, 3⟩], [⟨20, 6, 0⟩], [.vs1, .vs2], [.vs1, .vd], .vld .i8 true true false true true⟩,
  ⟨[.vld, .h, .tp, .xx], [.vld, .h, .tp, .xx], 3, [⟨26, 6, 7⟩, ⟨12, 2, 1⟩, ⟨5, 1, 0⟩, ⟨2, 3, 7⟩, ⟨0, 2, 3⟩], [⟨20, 6, 0⟩], [.vs1, .vs2], [.vs1, .vd], .vld .i16 true true false true true⟩,
  ⟨[.vld, .w, .tp, .xx], [.vld, .w, .tp, .xx], 3, [⟨26, 6, 7⟩, ⟨12, 2, 2⟩, ⟨5, 1, 0⟩, ⟨2, 3, 7⟩, ⟨0, 2, 3⟩], [⟨20, 6, 0⟩], [.vs1, .vs2], [.vs1, .vd], .vld .i32 true true false true true⟩,
  ⟨[.vld, .b, .tp, .xx, .m], [.vld, .b, .tp, .xx, .m], 3, [⟨26, 6, 7⟩, ⟨12, 2, 0⟩, ⟨5, 1, 1⟩, ⟨2, 3, 7⟩, ⟨0, 2, 3⟩], [⟨20, 6, 0⟩], [.vs1, .vs2], [.vs1, .vd], .vld .i8 true true true true true⟩,
  ⟨[.vld, .h, .tp, .xx, .m], [.vld, .h, .tp, .xx, .m], 3, [⟨26, 6, 7⟩, ⟨12, 2, 1⟩, ⟨5, 1, 1⟩, ⟨2, 3, 7⟩, ⟨0, 2, 3⟩], [⟨20, 6, 0⟩], [.vs1, .vs2], [.vs1, .vd], .vld .i16 true true true true true⟩,
  ⟨[.vld, .w, .tp, .xx, .m], [.vld, .w, .tp, .xx, .m], 3, [⟨26, 6, 7⟩, ⟨12, 2, 2⟩, ⟨5, 1, 1⟩, ⟨2, 3, 7⟩, ⟨0, 2, 3⟩], [⟨20, 6, 0⟩], [.vs1, .vs2], [.vs1, .vd], .vld .i32 true true true true true⟩,
  ⟨[.vst, .b, .x], [.vst, .b, .x], 3, [⟨26, 6, 8⟩, ⟨20, 6, 0⟩, ⟨12, 2, 0⟩, ⟨5, 1, 0⟩, ⟨2, 3, 7⟩, ⟨0, 2, 3⟩], [], [.vd, .vs1], [], .vst .i8 false false false false false⟩,
  ⟨[.vst, .h, .x], [.vst, .h, .x], 3, [⟨26, 6, 8⟩, ⟨20, 6, 0⟩, ⟨12, 2, 1⟩, ⟨5, 1, 0⟩, ⟨2, 3, 7⟩, ⟨0, 2, 3⟩], [], [.vd, .vs1], [], .vst .i16 false false false false false⟩,
  ⟨[.vst, .w, .x], [.vst, .w, .x], 3, [⟨26, 6, 8⟩, ⟨20, 6, 0⟩, ⟨12, 2, 2⟩, ⟨5, 1, 0⟩, ⟨2, 3, 7⟩, ⟨0, 2, 3⟩], [], [.vd, .vs1], [], .vst .i32 false false false false false⟩,
  ⟨[.vst, .b, .p, .x], [.vst, .b, .p, .x], 3, [⟨26, 6, 12⟩, ⟨20, 6, 0⟩, ⟨12, 2, 0⟩, ⟨5, 1, 0⟩, ⟨2, 3, 7⟩, ⟨0, 2, 3⟩], [], [.vd, .vs1], [.vs1], .vst .i8 false false false false true⟩,
  ⟨[.vst, .h, .p, .x], [.vst, .h, .p, .x], 3, [⟨26, 6, 12⟩, ⟨20, 6, 0⟩, ⟨12, 2, 1⟩, ⟨5, 1, 0⟩, ⟨2, 3, 7⟩, ⟨0, 2, 3⟩], [], [.vd, .vs1], [.vs1], .vst .i16 false false false false true⟩,
  ⟨[.vst, .w, .p, .x], [.vst, .w, .p, .x], 3, [⟨26, 6, 12⟩, ⟨20, 6, 0⟩, ⟨12, 2, 2⟩, ⟨5, 1, 0⟩, ⟨2, 3, 7⟩, ⟨0, 2, 3⟩], [], [.vd, .vs1], [.vs1], .vst .i32 false false false false true⟩,
  ⟨[.vst, .b, .x, .m], [.vst, .b, .x, .m], 3, [⟨26, 6, 8⟩, ⟨20, 6, 0⟩, ⟨12, 2, 0⟩, ⟨5, 1, 1⟩, ⟨2, 3, 7⟩, ⟨0, 2, 3⟩], [], [.vd, .vs1], [], .vst .i8 false false true false false⟩,
  ⟨[.vst, .h, .x, .m], [.vst, .h, .x, .m], 3, [⟨26, 6, 8⟩, ⟨20, 6, 0⟩, ⟨12, 2, 1⟩, ⟨5, 1, 1⟩, ⟨2, 3, 7⟩, ⟨0, 2, 3⟩], [], [.vd, .vs1], [], .vst .i16 false false true false false⟩,
  ⟨[.vst, .w, .x, .m], [.vst, .w, .x, .m], 3, [⟨26, 6, 8⟩, ⟨20, 6, 0⟩, ⟨12, 2, 2⟩, ⟨5, 1, 1⟩, ⟨2, 3, 7⟩, ⟨0, 2, 3⟩], [], [.vd, .vs1], [], .vst .i32 false false true false false⟩,
  ⟨[.vst, .b, .p, .x, .m], [.vst, .b, .p, .x, .m], 3, [⟨26, 6, 12⟩, ⟨20, 6, 0⟩, ⟨12, 2, 0⟩, ⟨5, 1, 1⟩, ⟨2, 3, 7⟩, ⟨0, 2, 3⟩], [], [.vd, .vs1], [.vs1], .vst .i8 false false true false true⟩,
  ⟨[.vst, .h, .p, .x, .m], [.vst, .h, .p, .x, .m], 3, [⟨26, 6, 12⟩, ⟨20, 6, 0⟩, ⟨12, 2, 1⟩, ⟨5, 1, 1⟩, ⟨2, 3, 7⟩, ⟨0, 2, 3⟩], [], [.vd, .vs1], [.vs1], .vst .i16 false false true false true⟩,
  ⟨[.vst, .w, .p, .x, .m], [.vst, .w, .p, .x, .m], 3, [⟨26, 6, 12⟩, ⟨20, 6, 0⟩, ⟨12, 2, 2⟩, ⟨5, 1, 1⟩, ⟨2, 3, 7⟩, ⟨0, 2, 3⟩], [], [.vd, .vs1], [.vs1], .vst .i32 false false true false true⟩]

def g3_1 : List Row := [
  ⟨[.vst, .b, .p, .xx], [.vst, .b, .p, .xx], 3, [⟨26, 6, 12⟩, ⟨12, 2, 0⟩, ⟨5, 1, 0⟩, ⟨2, 3, 7⟩, ⟨0, 2, 3⟩], [⟨20, 6, 0⟩], [.vd, .vs1, .vs2], [.vs1], .vst .i8 false false false true true⟩,
  ⟨[.vst, .h, .p, .xx], [.vst, .h, .p, .xx], 3, [⟨26, 6, 12⟩, ⟨12, 2, 1⟩, ⟨5, 1, 0⟩, ⟨2, 3, 7⟩, ⟨0, 2, 3⟩], [⟨20, 6, 0⟩], [.vd, .vs1, .vs2], [.vs1], .vst .i16 false false false true true⟩,
  ⟨[.vst, .w, .p, .xx], [.vst, .w, .p, .xx], 3, [⟨26, 6, 12⟩, ⟨12, 2, 2⟩, ⟨5, 1, 0⟩, ⟨2, 3, 7⟩, ⟨0, 2, 3⟩], [⟨20, 6, 0⟩], [.vd, .vs1, .vs2], [.vs1], .vst .i32 false false false true true⟩,
  ⟨[.vst, .b, .p, .xx, .m], [.vst, .b, .p, .xx, .m], 3, [⟨26, 6, 12⟩, ⟨12, 2, 0⟩, ⟨5, 1, 1⟩, ⟨2, 3, 7⟩, ⟨0, 2, 3⟩], [⟨20, 6, 0⟩], [.vd, .vs1, .vs2], [.vs1], .vst .i8 false false true true true⟩,
  ⟨[.vst, .h, .p, .xx, .m], [.vst, .h, .p, .xx, .m], 3, [⟨26, 6, 12⟩, ⟨12, 2, 1⟩, ⟨5, 1, 1⟩, ⟨2, 3, 7⟩, ⟨0, 2, 3⟩], [⟨20, 6, 0⟩], [.vd, .vs1, .vs2], [.vs1], .vst .i16 false false true true true⟩,
  ⟨[.vst, .w, .p, .xx, .m], [.vld, .w, .p, .xx, .m], 3, [⟨26, 6, 12⟩, ⟨12, 2, 2⟩, ⟨5, 1, 1⟩, ⟨2, 3, 7⟩, ⟨0, 2, 3⟩], [⟨20, 6, 0⟩], [.vd, .vs1, .vs2], [.vs1], .vst .i32 false false true true true⟩,
  ⟨[.vst, .b, .l, .xx], [.vst, .b, .l, .xx], 3, [⟨26, 6, 9⟩, ⟨12, 2, 0⟩, ⟨5, 1, 0⟩, ⟨2, 3, 7⟩, ⟨0, 2, 3⟩], [⟨20, 6, 0⟩], [.vd, .vs1, .vs2], [], .vst .i8 true false false true false⟩,
  ⟨[.vst, .h, .l, .xx], [.vst, .h, .l, .xx], 3, [⟨26, 6, 9⟩, ⟨12, 2, 1⟩, ⟨5, 1, 0⟩, ⟨2, 3, 7⟩, ⟨0, 2, 3⟩], [⟨20, 6, 0⟩], [.vd, .vs1, .vs2], [], .vst .i16 true false false true false⟩,
  ⟨[.vst, .w, .l, .xx], [.vst, .w, .l, .xx], 3, [⟨26, 6, 9⟩, ⟨12, 2, 2⟩, ⟨5, 1, 0⟩, ⟨2, 3, 7⟩, ⟨0, 2, 3⟩], [⟨20, 6, 0⟩], [.vd, .vs1, .vs2], [], .vst .i32 true false false true false⟩,
  ⟨[.vst, .b, .lp, .xx], [.vst, .b, .lp, .xx], 3, [⟨26, 6, 13⟩, ⟨12, 2, 0⟩, ⟨5, 1, 0⟩, ⟨2, 3, 7⟩, ⟨0, 2, 3⟩], [⟨20, 6, 0⟩], [.vd, .vs1, .vs2], [.vs1], .vst .i8 true false false true true⟩,
  ⟨[.vst, .h, .lp, .xx], [.vst, .h, .lp, .xx], 3, [⟨26, 6, 13⟩, ⟨12, 2, 1⟩, ⟨5, 1, 0⟩, ⟨2, 3, 7⟩, ⟨0, 2, 3⟩], [⟨20, 6, 0⟩], [.vd, .vs1, .vs2], [.vs1], .vst .i16 true false false true true⟩,
  ⟨[.vst, .w, .lp, .xx], [.vst, .w, .lp, .xx], 3, [⟨26, 6, 13⟩, ⟨12, 2, 2⟩, ⟨5, 1, 0⟩, ⟨2, 3, 7⟩, ⟨0, 2, 3⟩], [⟨20, 6, 0⟩], [.vd, .vs1, .vs2], [.vs1], .vst .i32 true false false true true⟩,
  ⟨[.vst, .b, .l, .xx, .m], [.vst, .b, .l, .xx, .m], 3, [⟨26, 6, 9⟩, ⟨12, 2, 0⟩, ⟨5, 1, 1⟩, ⟨2, 3, 7⟩, ⟨0, 2, 3⟩], [⟨20, 6, 0⟩], [.vd, .vs1, .vs2], [], .vst .i8 true false true true false⟩,
  ⟨[.vst, .h, .l, .xx, .m], [.vst, .h, .l, .xx, .m], 3, [⟨26, 6, 9⟩, ⟨12, 2, 1⟩, ⟨5, 1, 1⟩, ⟨2, 3, 7⟩, ⟨0, 2, 3⟩], [⟨20, 6, 0⟩], [.vd, .vs1, .vs2], [], .vst .i16 true false true true false⟩,
  ⟨[.vst, .w, .l, .xx, .m], [.vst, .w, .l, .xx, .m], 3, [⟨26, 6, 9⟩, ⟨12, 2, 2⟩, ⟨5, 1, 1⟩, ⟨2, 3, 7⟩, ⟨0, 2, 3⟩], [⟨20, 6, 0⟩], [.vd, .vs1, .vs2], [], .vst .i32 true false true true false⟩,
  ⟨[.vst, .b, .lp, .xx, .m], [.vst, .b, .lp, .xx, .m], 3, [⟨26, 6, 13⟩, ⟨12, 2, 0⟩, ⟨5, 1, 1⟩, ⟨2, 3, 7⟩, ⟨0, 2, 3⟩], [⟨20, 6, 0⟩], [.vd, .vs1, .vs2], [.vs1], .vst .i8 true false true true true⟩,
  ⟨[.vst, .h, .lp, .xx, .m], [.vst, .h, .lp, .xx, .m], 3, [⟨26, 6, 13⟩, ⟨12, 2, 1⟩, ⟨5, 1, 1⟩, ⟨2, 3, 7⟩, ⟨0, 2, 3⟩], [⟨20, 6, 0⟩], [.vd, .vs1, .vs2], [.vs1], .vst .i16 true false true true true⟩,
  ⟨[.vst, .w, .lp, .xx, .m], [.vst, .w, .lp, .xx, .m], 3, [⟨26, 6, 13⟩, ⟨12, 2, 2⟩, ⟨5, 1, 1⟩, ⟨2, 3, 7⟩, ⟨0, 2, 3⟩], [⟨20, 6, 0⟩], [.vd, .vs1, .vs2], [.vs1], .vst .i32 true false true true true⟩,
  ⟨[.vst, .b, .s, .xx], [.vst, .b, .s, .xx], 3, [⟨26, 6, 10⟩, ⟨12, 2, 0⟩, ⟨5, 1, 0⟩, ⟨2, 3, 7⟩, ⟨0, 2, 3⟩], [⟨20, 6, 0⟩], [.vd, .vs1, .vs2], [], .vst .i8 false true false true false⟩,
  ⟨[.vst, .h, .s, .xx], [.vst, .h, .s, .xx], 3, [⟨26, 6, 10⟩, ⟨12, 2, 1⟩, ⟨5, 1, 0⟩, ⟨2, 3, 7⟩, ⟨0, 2, 3⟩], [⟨20, 6, 0⟩], [.vd, .vs1, .vs2], [], .vst .i16 false true false true false⟩,
  ⟨[.vst, .w, .s, .xx], [.vst, .w, .s, .xx], 3, [⟨26, 6, 10⟩, ⟨12, 2, 2⟩, ⟨5, 1, 0⟩, ⟨2, 3, 7⟩, ⟨0, 2, 3⟩], [⟨20, 6, 0⟩], [.vd, .vs1, .vs2], [], .vst .i32 false true false true false⟩,
  ⟨[.vst, .b, .sp, .xx], [.vst, .b, .sp, .xx], 3, [⟨26, 6, 14⟩, ⟨12, 2, 0⟩, ⟨5, 1, 0⟩, ⟨2, 3, 7⟩, ⟨0, 2, 3⟩], [⟨20, 6, 0⟩], [.vd, .vs1, .vs2], [.vs1], .vst .i8 false true false true true⟩,
  ⟨[.vst, .h, .sp, .xx], [.vst, .h, .sp, .xx], 3, [⟨26, 6, 14⟩, ⟨12, 2, 1⟩, ⟨5, 1, 0⟩, ⟨2, 3, 7⟩, ⟨0, 2, 3⟩], [⟨20, 6, 0⟩], [.vd, .vs1, .vs2], [.vs1], .vst .i16 false true false true true⟩,
  ⟨[.vst, .w, .sp, .xx], [.vst, .w, .sp, .xx], 3, [⟨26, 6, 14⟩, ⟨12, 2, 2⟩, ⟨5, 1, 0⟩, ⟨2, 3, 7⟩, ⟨0, 2, 3⟩], [⟨20, 6, 0⟩], [.vd, .vs1, .vs2], [.vs1], .vst .i32 false true false true true⟩,
  ⟨[.vst, .b, .s, .xx, .m], [.vst, .b, .s, .xx, .m], 3, [⟨26, 6, 10⟩, ⟨12, 2, 0⟩, ⟨5, 1, 1⟩, ⟨2, 3, 7⟩, ⟨0, 2, 3⟩], [⟨20, 6, 0⟩], [.vd, .vs1, .vs2], [], .vst .i8 false true true true false⟩,
  ⟨[.vst, .h, .s, .xx, .m], [.vst, .h, .s, .xx, .m], 3, [⟨26, 6, 10⟩, ⟨12, 2, 1⟩, ⟨5, 1, 1⟩, ⟨2, 3, 7⟩, ⟨0, 2, 3⟩], [⟨20, 6, 0⟩], [.vd, .vs1, .vs2], [], .vst .i16 false true true true false⟩,
  ⟨[.vst, .w, .s, .xx, .m], [.vst, .w, .s, .xx, .m], 3, [⟨26, 6, 10⟩, ⟨12, 2, 2⟩, ⟨5, 1, 1⟩, ⟨2, 3, 7⟩, ⟨0, 2, 3⟩], [⟨20, 6, 0⟩], [.vd, .vs1, .vs2], [], .vst .i32 false true true true false⟩,
  ⟨[.vst, .b, .sp, .xx, .m], [.vst, .b, .sp, .xx, .m], 3, [⟨26, 6, 14⟩, ⟨12, 2, 0⟩, ⟨5, 1, 1⟩, ⟨2, 3, 7⟩, ⟨0, 2, 3⟩], [⟨20, 6, 0⟩], [.vd, .vs1, .vs2], [.vs1], .vst .i8 false true true true true⟩,
  ⟨[.vst, .h, .sp, .xx, .m], [.vst, .h, .sp, .xx, .m], 3, [⟨26, 6, 14⟩, ⟨12, 2, 1⟩, ⟨5, 1, 1⟩, ⟨2, 3, 7⟩, ⟨0, 2, 3⟩], [⟨20, 6, 0⟩], [.vd, .vs1, .vs2], [.vs1], .vst .i16 false true true true true⟩,
  ⟨[.vst, .w, .sp, .xx, .m], [.vst, .w, .sp, .xx, .m], 3, [⟨26, 6, 14⟩, ⟨12, 2, 2⟩, ⟨5, 1, 1⟩, ⟨2, 3, 7⟩, ⟨0, 2, 3⟩], [⟨20, 6, 0⟩], [.vd, .vs1, .vs2], [.vs1], .vst .i32 false true true true true⟩,
  ⟨[.vst, .b, .tp, .xx], [.vst, .b, .tp, .xx], 3, [⟨26, 6, 15⟩, ⟨12, 2, 0⟩, ⟨5, 1, 0⟩, ⟨2, 3, 7⟩, ⟨0, 2, 3⟩], [⟨20, 6, 0⟩], [.vd, .vs1, .vs2], [.vs1], .vst .i8 true true false true true⟩,
  ⟨[.vst, .h, .tp, .xx], [.vst, .h, .tp, .xx], 3, [⟨26, 6, 15⟩, ⟨12, 2, 1⟩, ⟨5, 1, 0⟩, ⟨2, 3, 7⟩, ⟨0, 2, 3⟩], [⟨20, 6, 0⟩], [.vd, .vs1, .vs2], [.vs1], .vst .i16 true true false true true⟩,
  ⟨[.vst, .w, .tp, .xx], [.vst, .w, .tp, .xx], 3, [⟨26, 6, 15⟩, ⟨12, 2, 2⟩, ⟨5, 1, 0⟩, ⟨2, 3, 7⟩, ⟨0, 2, 3⟩], [⟨20, 6, 0⟩], [.vd, .vs1, .vs2], [.vs1], .vst .i32 true true false true true⟩,
  ⟨[.vst, .b, .tp, .xx, .m], [.vst, .b, .tp, .xx, .m], 3, [⟨26, 6, 15⟩, ⟨12, 2, 0⟩, ⟨5, 1, 1⟩, ⟨2, 3, 7⟩, ⟨0, 2, 3⟩], [⟨20, 6, 0⟩], [.vd, .vs1, .vs2], [.vs1], .vst .i8 true true true true true⟩,
  ⟨[.vst, .h, .tp, .xx, .m], [.vst, .h, .tp, .xx, .m], 3, [⟨26, 6, 15⟩, ⟨12, 2, 1⟩, ⟨5, 1, 1⟩, ⟨2, 3, 7⟩, ⟨0, 2, 3⟩], [⟨20, 6, 0⟩], [.vd, .vs1, .vs2], [.vs1], .vst .i16 true true true true true⟩,
  ⟨[.vst, .w, .tp, .xx, .m], [.vst, .w, .tp, .xx, .m], 3, [⟨26, 6, 15⟩, ⟨12, 2, 2⟩, ⟨5, 1, 1⟩, ⟨2, 3, 7⟩, ⟨0, 2, 3⟩], [⟨20, 6, 0⟩], [.vd, .vs1, .vs2], [.vs1], .vst .i32 true true true true true⟩,
  ⟨[.vstq, .b, .s, .xx], [.vstq, .b, .s, .xx], 3, [⟨26, 6, 26⟩, ⟨12, 2, 0⟩, ⟨5, 1, 0⟩, ⟨2, 3, 7⟩, ⟨0, 2, 3⟩], [⟨20, 6, 0⟩], [.vd, .vs1, .vs2], [], .vstq .i8 false false⟩,
  ⟨[.vstq, .h, .s, .xx], [.vstq, .h, .s, .xx], 3, [⟨26, 6, 26⟩, ⟨12, 2, 1⟩, ⟨5, 1, 0⟩, ⟨2, 3, 7⟩, ⟨0, 2, 3⟩], [⟨20, 6, 0⟩], [.vd, .vs1, .vs2], [], .vstq .i16 false false⟩,
  ⟨[.vstq, .w, .s, .xx], [.vstq, .w, .s, .xx], 3, [⟨26, 6, 26⟩, ⟨12, 2, 2⟩, ⟨5, 1, 0⟩, ⟨2, 3, 7⟩, ⟨0, 2, 3⟩], [⟨20, 6, 0⟩], [.vd, .vs1, .vs2], [], .vstq .i32 false false⟩,
  ⟨[.vstq, .b, .sp, .xx], [.vstq, .b, .s, .xx], 3, [⟨26, 6, 30⟩, ⟨12, 2, 0⟩, ⟨5, 1, 0⟩, ⟨2, 3, 7⟩, ⟨0, 2, 3⟩], [⟨20, 6, 0⟩], [.vd, .vs1, .vs2], [.vs1], .vstq .i8 false true⟩,
  ⟨[.vstq, .h, .sp, .xx], [.vstq, .h, .s, .xx], 3, [⟨26, 6, 30⟩, ⟨12, 2, 1⟩, ⟨5, 1, 0⟩, ⟨2, 3, 7⟩, ⟨0, 2, 3⟩], [⟨20, 6, 0⟩], [.vd, .vs1, .vs2], [.vs1], .vstq .i16 false true⟩,
  ⟨[.vstq, .w, .sp, .xx], [.vstq, .w, .s, .xx], 3, [⟨26, 6, 30⟩, ⟨12, 2, 2⟩, ⟨5, 1, 0⟩, ⟨2, 3, 7⟩, ⟨0, 2, 3⟩], [⟨20, 6, 0⟩], [.vd, .vs1, .vs2], [.vs1], .vstq .i32 false true⟩,
  ⟨[.vstq, .b, .s, .xx, .m], [.vstq, .b, .s, .xx, .m], 3, [⟨26, 6, 26⟩, ⟨12, 2, 0⟩, ⟨5, 1, 1⟩, ⟨2, 3, 7⟩, ⟨0, 2, 3⟩], [⟨20, 6, 0⟩], [.vd, .vs1, .vs2], [], .vstq .i8 true false⟩,
  ⟨[.vstq, .h, .s, .xx, .m], [.vstq, .h, .s, .xx, .m], 3, [⟨26, 6, 26⟩, ⟨12, 2, 1⟩, ⟨5, 1, 1⟩, ⟨2, 3, 7⟩, ⟨0, 2, 3⟩], [⟨20, 6, 0⟩], [.vd, .vs1, .vs2], [], .vstq .i16 true false⟩,
  ⟨[.vstq, .w, .s, .xx, .m], [.vstq, .w, .s, .xx, .m], 3, [⟨26, 6, 26⟩, ⟨12, 2, 2⟩, ⟨5, 1, 1⟩, ⟨2, 3, 7⟩, ⟨0, 2, 3⟩], [⟨20, 6, 0⟩], [.vd, .vs1, .vs2], [], .vstq .i32 true false⟩,
  ⟨[.vstq, .b, .sp, .xx, .m], [.vstq, .b, .s, .xx, .m], 3, [⟨26, 6, 30⟩, ⟨12, 2, 0⟩, ⟨5, 1, 1⟩, ⟨2, 3, 7⟩, ⟨0, 2, 3⟩], [⟨20, 6, 0⟩], [.vd, .vs1, .vs2], [.vs1], .vstq .i8 true true⟩,
  ⟨[.vstq, .h, .sp, .xx, .m], [.vstq, .h, .s, .xx, .m], 3, [⟨26, 6, 30⟩, ⟨12, 2, 1⟩, ⟨5, 1, 1⟩, ⟨2, 3, 7⟩, ⟨0, 2, 3⟩], [⟨20, 6, 0⟩], [.vd, .vs1, .vs2], [.vs1], .vstq .i16 true true⟩,
  ⟨[.vstq, .w, .sp, .xx, .m], [.vstq, .w, .s, .xx, .m], 3, [⟨26, 6, 30⟩, ⟨12, 2, 2⟩, ⟨5, 1, 1⟩, ⟨2, 3, 7⟩, ⟨0, 2, 3⟩], [⟨20, 6, 0⟩], [.vd, .vs1, .vs2], [.vs1], .vstq .i32 true true⟩,
  ⟨[.vdup, .b, .x], [.vdup, .b, .x], 3, [⟨26, 6, 16⟩, ⟨14, 6, 0⟩, ⟨12, 2, 0⟩, ⟨5, 1, 0⟩, ⟨2, 3, 7⟩, ⟨0, 2, 3⟩], [], [.vs2], [.vd], .vdup .i8 false⟩,
  ⟨[.vdup, .h, .x], [.vdup, .h, .x], 3, [⟨26, 6, 16⟩, ⟨14, 6, 0⟩, ⟨12, 2, 1⟩, ⟨5, 1, 0⟩, ⟨2, 3, 7⟩, ⟨0, 2, 3⟩], [], [.vs2], [.vd], .vdup .i16 false⟩,
  ⟨[.vdup, .w, .x], [.vdup, .w, .x], 3, [⟨26, 6, 16⟩, ⟨14, 6, 0⟩, ⟨12, 2, 2⟩, ⟨5, 1, 0⟩, ⟨2, 3, 7⟩, ⟨0, 2, 3⟩], [], [.vs2], [.vd], .vdup .i32 false⟩,
  ⟨[.vdup, .b, .x, .m], [.vdup, .b, .x, .m], 3, [⟨26, 6, 16⟩, ⟨14, 6, 0⟩, ⟨12, 2, 0⟩, ⟨5, 1, 1⟩, ⟨2, 3, 7⟩, ⟨0, 2, 3⟩], [], [.vs2], [.vd], .vdup .i8 true⟩,
  ⟨[.vdup, .h, .x, .m], [.vdup, .h, .x, .m], 3, [⟨26, 6, 16⟩, ⟨14, 6, 0⟩, ⟨12, 2, 1⟩, ⟨5, 1, 1⟩, ⟨2, 3, 7⟩, ⟨0, 2, 3⟩], [], [.vs2], [.vd], .vdup .i16 true⟩,
  ⟨[.vdup, .w, .x, .m], [.vdup, .w, .x, .m], 3, [⟨26, 6, 16⟩, ⟨14, 6, 0⟩, ⟨12, 2, 2⟩, ⟨5, 1, 1⟩, ⟨2, 3, 7⟩, ⟨0, 2, 3⟩], [], [.vs2], [.vd], .vdup .i32 true⟩,
  ⟨[.vcget], [.vcget], 3, [⟨26, 6, 20⟩, ⟨20, 6, 0⟩, ⟨14, 6, 0⟩, ⟨6, 6, 48⟩, ⟨2, 3, 7⟩, ⟨0, 2, 3⟩], [], [], [.vd], .vcget⟩,
  ⟨[.acset], [.acset, .v], 3, [⟨26, 6, 16⟩, ⟨20, 6, 0⟩, ⟨5, 1, 0⟩, ⟨6, 6, 48⟩], [], [.vs1], [.vd], .acset false⟩,
  ⟨[.actr], [.actr, .v], 3, [⟨26, 6, 17⟩, ⟨20, 6, 0⟩, ⟨14, 4, 0⟩, ⟨5, 1, 0⟩, ⟨6, 6, 48⟩], [], [.vs1], [.vd], .acset true⟩,
  ⟨[.adwinit], [.adwinit, .v], 3, [⟨26, 6, 18⟩, ⟨20, 6, 0⟩, ⟨14, 2, 0⟩, ⟨12, 2, 0⟩, ⟨5, 1, 0⟩, ⟨6, 2, 0⟩], [], [.vs1], [.vd], .adwinit⟩]

def group3 : List Row := g3_0 ++ g3_1

end Verif.Model.Gen
