import Verif.Model.Isa

/-! Generated by tools/gen_rows.py from the instruction group `CoralNPUVectorShiftInst` of
/repo/sim/coralnpu_shift.bin_fmt and the opcodes of the `.isa` files. -/

namespace Verif.Model.Gen

def g5_0 : List Row := [
  ⟨[.vsll, .b, .vv], [.vsll, .b, .vv], 5, [⟨26, 6, 1⟩, ⟨12, 2, 0⟩, ⟨5, 1, 0⟩, ⟨2, 3, 2⟩, ⟨0, 2, 0⟩], [], [.vs1, .vs2], [.vd], .vec (.bin .sll .u8) false false⟩,
  ⟨[.vsll, .b, .vx], [.vsll, .b, .vx], 5, [⟨26, 6, 1⟩, ⟨12, 2, 0⟩, ⟨5, 1, 0⟩, ⟨2, 3, 2⟩, ⟨0, 2, 2⟩], [], [.vs1, .vs2], [.vd], .vec (.bin .sll .u8) true false⟩,
  ⟨[.vsll, .b, .vv, .m], [.vsll, .b, .vv, .m], 5, [⟨26, 6, 1⟩, ⟨12, 2, 0⟩, ⟨5, 1, 1⟩, ⟨2, 3, 2⟩, ⟨0, 2, 0⟩], [], [.vs1, .vs2], [.vd], .vec (.bin .sll .u8) false true⟩,
  ⟨[.vsll, .b, .vx, .m], [.vsll, .b, .vx, .m], 5, [⟨26, 6, 1⟩, ⟨12, 2, 0⟩, ⟨5, 1, 1⟩, ⟨2, 3, 2⟩, ⟨0, 2, 2⟩], [], [.vs1, .vs2], [.vd], .vec (.bin .sll .u8) true true⟩,
  ⟨[.vsll, .h, .vv], [.vsll, .h, .vv], 5, [⟨26, 6, 1⟩, ⟨12, 2, 1⟩, ⟨5, 1, 0⟩, ⟨2, 3, 2⟩, ⟨0, 2, 0⟩], [], [.vs1, .vs2], [.vd], .vec (.bin .sll .u16) false false⟩,
  ⟨[.vsll, .h, .vx], [.vsll, .h, .vx], 5, [⟨26, 6, 1⟩, ⟨12, 2, 1⟩, ⟨5, 1, 0⟩, ⟨2, 3, 2⟩, ⟨0, 2, 2⟩], [], [.vs1, .vs2], [.vd], .vec (.bin .sll .u16) true false⟩,
  ⟨[.vsll, .h, .vv, .m], [.vsll, .h, .vv, .m], 5, [⟨26, 6, 1⟩, ⟨12, 2, 1⟩, ⟨5, 1, 1⟩, ⟨2, 3, 2⟩, ⟨0, 2, 0⟩], [], [.vs1, .vs2], [.vd], .vec (.bin .sll .u16) false true⟩,
  ⟨[.vsll, .h, .vx, .m], [.vsll, .h, .vx, .m], 5, [⟨26, 6, 1⟩, ⟨12, 2, 1⟩, ⟨5, 1, 1⟩, ⟨2, 3, 2⟩, ⟨0, 2, 2⟩], [], [.vs1, .vs2], [.vd], .vec (.bin .sll .u16) true true⟩,
  ⟨[.vsll, .w, .vv], [.vsll, .w, .vv], 5, [⟨26, 6, 1⟩, ⟨12, 2, 2⟩, ⟨5, 1, 0⟩, ⟨2, 3, 2⟩, ⟨0, 2, 0⟩], [], [.vs1, .vs2], [.vd], .vec (.bin .sll .u32) false false⟩,
  ⟨[.vsll, .w, .vx], [.vsll, .w, .vx], 5, [⟨26, 6, 1⟩, ⟨12, 2, 2⟩, ⟨5, 1, 0⟩, ⟨2, 3, 2⟩, ⟨0, 2, 2⟩], [], [.vs1, .vs2], [.vd], .vec (.bin .sll .u32) true false⟩,
  ⟨[.vsll, .w, .vv, .m], [.vsll, .w, .vv, .m], 5, [⟨26, 6, 1⟩, ⟨12, 2, 2⟩, ⟨5, 1, 1⟩, ⟨2, 3, 2⟩, ⟨0, 2, 0⟩], [], [.vs1, .vs2], [.vd], .vec (.bin .sll .u32) false true⟩,
  ⟨[.vsll, .w, .vx, .m], [.vsll, .w, .vx, .m], 5, [⟨26, 6, 1⟩, ⟨12, 2, 2⟩, ⟨5, 1, 1⟩, ⟨2, 3, 2⟩, ⟨0, 2, 2⟩], [], [.vs1, .vs2], [.vd], .vec (.bin .sll .u32) true true⟩,
  ⟨[.vsra, .b, .vv], [.vsra, .b, .vv], 5, [⟨26, 6, 2⟩, ⟨12, 2, 0⟩, ⟨5, 1, 0⟩, ⟨2, 3, 2⟩, ⟨0, 2, 0⟩], [], [.vs1, .vs2], [.vd], .vec (.bin .sra .i8) false false⟩,
  ⟨[.vsra, .b, .vx], [.vsra, .b, .vx], 5, [⟨26, 6, 2⟩, ⟨12, 2, 0⟩, ⟨5, 1, 0⟩, ⟨2, 3, 2⟩, ⟨0, 2, 2⟩], [], [.vs1, .vs2], [.vd], .vec (.bin .sra .i8) true false⟩,
  ⟨[.vsra, .b, .vv, .m], [.vsra, .b, .vv, .m], 5, [⟨26, 6, 2⟩, ⟨12, 2, 0⟩, ⟨5, 1, 1⟩, ⟨2, 3, 2⟩, ⟨0, 2, 0⟩], [], [.vs1, .vs2], [.vd], .vec (.bin .sra .i8) false true⟩,
  ⟨[.vsra, .b, .vx, .m], [.vsra, .b, .vx, .m], 5, [⟨26, 6, 2⟩, ⟨12, 2, 0⟩, ⟨5, 1, 1⟩, ⟨2, 3, 2⟩, ⟨0, 2, 2⟩], [], [.vs1, .vs2], [.vd], .vec (.bin .sra .i8) true true⟩,
  ⟨[.vsra, .h, .vv], [.vsra, .h, .vv], 5, [⟨26, 6, 2⟩, ⟨12, 2, 1⟩, ⟨5, 1, 0⟩, ⟨2, 3, 2⟩, ⟨0, 2, 0⟩], [], [.vs1, .vs2], [.vd], .vec (.bin .sra .i16) false false⟩,
  ⟨[.vsra, .h, .vx], [.vsra, .h, .vx], 5, [⟨26, 6, 2⟩, ⟨12, 2, 1⟩, ⟨5, 1, 0⟩, ⟨2, 3, 2⟩, ⟨0, 2, 2⟩], [], [.vs1, .vs2], [.vd], .vec (.bin .sra .i16) true false⟩,
  ⟨[.vsra, .h, .vv, .m], [.vsra, .h, .vv, .m], 5, [⟨26, 6, 2⟩, ⟨12, 2, 1⟩, ⟨5, 1, 1⟩, ⟨2, 3, 2⟩, ⟨0, 2, 0⟩], [], [.vs1, .vs2], [.vd], .vec (.bin .sra .i16) false true⟩,
  ⟨[.vsra, .h, .vx, .m], [.vsra, .h, .vx, .m], 5, [⟨26, 6, 2⟩, ⟨12, 2, 1⟩, ⟨5, 1, 1⟩, ⟨2, 3, 2⟩, ⟨0, 2, 2⟩], [], [.vs1, .vs2], [.vd], .vec (.bin .sra .i16) true true⟩,
  ⟨[.vsra, .w, .vv], [.vsra, .w, .vv], 5, [⟨26, 6, 2⟩, ⟨12, 2, 2⟩, ⟨5, 1, 0⟩, ⟨2, 3, 2⟩, ⟨0, 2, 0⟩], [], [.vs1, .vs2], [.vd], .vec (.bin .sra .i32) false false⟩,
  ⟨[.vsra, .w, .vx], [.vsra, .w, .vx], 5, [⟨26, 6, 2⟩, ⟨12, 2, 2⟩, ⟨5, 1, 0⟩, ⟨2, 3, 2⟩, ⟨0, 2, 2⟩], [], [.vs1, .vs2], [.vd], .vec (.bin .sra .i32) true false⟩,
  ⟨[.vsra, .w, .vv, .m], [.vsra, .w, .vv, .m], 5, [⟨26, 6, 2⟩, ⟨12, 2, 2⟩, ⟨5, 1, 1⟩, ⟨2, 3, 2⟩, ⟨0, 2, 0⟩], [], [.vs1, .vs2], [.vd], .vec (.bin .sra .i32) false true⟩,
  ⟨[.vsra, .w, .vx, .m], [.vsra, .w, .vx, .m], 5, [⟨26, 6, 2⟩, ⟨12, 2, 2⟩, ⟨5, 1, 1⟩, ⟨2, 3, 2⟩, ⟨0, 2, 2⟩], [], [.vs1, .vs2], [.vd], .vec (.bin .sra .i32) true true⟩,
  ⟨[.vsrl, .b, .vv], [.vsrl, .b, .vv], 5, [⟨26, 6, 3⟩, ⟨12, 2, 0⟩, ⟨5, 1, 0⟩, ⟨2, 3, 2⟩, ⟨0, 2, 0⟩], [], [.vs1, .vs2], [.vd], .vec (.bin .srl .u8) false false⟩,
  ⟨[.vsrl, .b, .vx], [.vsrl, .b, .vx], 5, [⟨26, 6, 3⟩, ⟨12, 2, 0⟩, ⟨5, 1, 0⟩, ⟨2, 3, 2⟩, ⟨0, 2, 2⟩], [], [.vs1, .vs2], [.vd], .vec (.bin .srl .u8) true false⟩,
  ⟨[.vsrl, .b, .vv, .m], [.vsrl, .b, .vv, .m], 5, [⟨26, 6, 3⟩, ⟨12, 2, 0⟩, ⟨5, 1, 1⟩, ⟨2, 3, 2⟩, ⟨0, 2, 0⟩], [], [.vs1, .vs2], [.vd], .vec (.bin .srl .u8) false true⟩,
  ⟨[.vsrl, .b, .vx, .m], [.vsrl, .b, .vx, .m], 5, [⟨26, 6, 3⟩, ⟨12, 2, 0⟩, ⟨5, 1, 1⟩, ⟨2, 3, 2⟩, ⟨0, 2, 2⟩], [], [.vs1, .vs2], [.vd], .vec (.bin .srl .u8) true true⟩,
  ⟨[.vsrl, .h, .vv], [.vsrl, .h, .vv], 5, [⟨26, 6, 3⟩, ⟨12, 2, 1⟩, ⟨5, 1, 0⟩, ⟨2, 3, 2⟩, ⟨0, 2, 0⟩], [], [.vs1, .vs2], [.vd], .vec (.bin .srl .u16) false false⟩,
  ⟨[.vsrl, .h, .vx], [.vsrl, .h, .vx], 5, [⟨26, 6, 3⟩, ⟨12, 2, 1⟩, ⟨5, 1, 0⟩, ⟨2, 3, 2⟩, ⟨0, 2, 2⟩], [], [.vs1, .vs2], [.vd], .vec (.bin .srl .u16) true false⟩,
  ⟨[.vsrl, .h, .vv, .m], [.vsrl, .h, .vv, .m], 5, [⟨26, 6, 3⟩, ⟨12, 2, 1⟩, ⟨5, 1, 1⟩, ⟨2, 3, 2⟩, ⟨0, 2, 0⟩], [], [.vs1, .vs2], [.vd], .vec (.bin .srl .u16) false true⟩,
  ⟨[.vsrl, .h, .vx, .m], [.vsrl, .h, .vx, .m], 5, [⟨26, 6, 3⟩, ⟨12, 2, 1⟩, ⟨5, 1, 1⟩, ⟨2, 3, 2⟩, ⟨0, 2, 2⟩], [], [.vs1, .vs2], [.vd], .vec (.bin .srl .u16) true true⟩,
  ⟨[.vsrl, .w, .vv], [.vsrl, .w, .vv], 5, [⟨26, 6, 3⟩, ⟨12, 2, 2⟩, ⟨5, 1, 0⟩, ⟨2, 3, 2⟩, ⟨0, 2, 0⟩], [], [.vs1, .vs2], [.vd], .vec (.bin .srl .u32) false false⟩,
  ⟨[.vsrl, .w, .vx], [.vsrl, .w, .vx], 5, [⟨26, 6, 3⟩, ⟨12, 2, 2⟩, ⟨5, 1, 0⟩, ⟨2, 3, 2⟩, ⟨0, 2, 2⟩], [], [.vs1, .vs2], [.vd], .vec (.bin .srl .u32) true false⟩,
  ⟨[.vsrl, .w, .vv, .m], [.vsrl, .w, .vv, .m], 5, [⟨26, 6, 3⟩, ⟨12, 2, 2⟩, ⟨5, 1, 1⟩, ⟨2, 3, 2⟩, ⟨0, 2, 0⟩], [], [.vs1, .vs2], [.vd], .vec (.bin .srl .u32) false true⟩,
  ⟨[.vsrl, .w, .vx, .m], [.vsrl, .w, .vx, .m], 5, [⟨26, 6, 3⟩, ⟨12, 2, 2⟩, ⟨5, 1, 1⟩, ⟨2, 3, 2⟩, ⟨0, 2, 2⟩], [], [.vs1, .vs2], [.vd], .vec (.bin .srl .u32) true true⟩,
  ⟨[.vsha, .b, .vv], [.vsha, .b, .vv], 5, [⟨26, 6, 8⟩, ⟨12, 2, 0⟩, ⟨5, 1, 0⟩, ⟨2, 3, 2⟩, ⟨0, 2, 0⟩], [], [.vs1, .vs2], [.vd], .vec (.bin (.shift false) .i8) false false⟩,
  ⟨[.vsha, .b, .vx], [.vsha, .b, .vx], 5, [⟨26, 6, 8⟩, ⟨12, 2, 0⟩, ⟨5, 1, 0⟩, ⟨2, 3, 2⟩, ⟨0, 2, 2⟩], [], [.vs1, .vs2], [.vd], .vec (.bin (.shift false) .i8) true false⟩,
  ⟨[.vsha, .b, .vv, .m], [.vsha, .b, .vv, .m], 5, [⟨26, 6, 8⟩, ⟨12, 2, 0⟩, ⟨5, 1, 1⟩, ⟨2, 3, 2⟩, ⟨0, 2, 0⟩], [], [.vs1, .vs2], [.vd], .vec (.bin (.shift false) .i8) false true⟩,
  ⟨[.vsha, .b, .vx, .m], [.vsha, .b, .vx, .m], 5, [⟨26, 6, 8⟩, ⟨12, 2, 0⟩, ⟨5, 1, 1⟩, ⟨2, 3, 2⟩, ⟨0, 2, 2⟩], [], [.vs1, .vs2], [.vd], .vec (.bin (.shift false) .i8) true true⟩,
  ⟨[.vsha, .h, .vv], [.vsha, .h, .vv], 5, [⟨26, 6, 8⟩, ⟨12, 2, 1⟩, ⟨5, 1, 0⟩, ⟨2, 3, 2⟩, ⟨0, 2, 0⟩], [], [.vs1, .vs2], [.vd], .vec (.bin (.shift false) .i16) false false⟩,
  ⟨[.vsha, .h, .vx], [.vsha, .h, .vx], 5, [⟨26, 6, 8⟩, ⟨12, 2, 1⟩, ⟨5, 1, 0⟩, ⟨2, 3, 2⟩, ⟨0, 2, 2⟩], [], [.vs1, .vs2], [.vd], .vec (.bin (.shift false) .i16) true false⟩,
  ⟨[.vsha, .h, .vv, .m], [.vsha, .h, .vv, .m], 5, [⟨26, 6, 8⟩, ⟨12, 2, 1⟩, ⟨5, 1, 1⟩, ⟨2, 3, 2⟩, ⟨0, 2, 0⟩], [], [.vs1, .vs2], [.vd], .vec (.bin (.shift false) .i16) false true⟩,
  ⟨[.vsha, .h, .vx, .m], [.vsha, .h, .vx, .m], 5, [⟨26, 6, 8⟩, ⟨12, 2, 1⟩, ⟨5, 1, 1⟩, ⟨2, 3, 2⟩, ⟨0, 2, 2⟩], [], [.vs1, .vs2], [.vd], .vec (.bin (.shift false) .i16) true true⟩,
  ⟨[.vsha, .w, .vv], [.vsha, .w, .vv], 5, [⟨26, 6, 8⟩, ⟨12, 2, 2⟩, ⟨5, 1, 0⟩, ⟨2, 3, 2⟩, ⟨0, 2, 0⟩], [], [.vs1, .vs2], [.vd], .vec (.bin (.shift false) .i32) false false⟩,
  ⟨[.vsha, .w, .vx], [.vsha, .w, .vx], 5, [⟨26, 6, 8⟩, ⟨12, 2, 2⟩, ⟨5, 1, 0⟩, ⟨2, 3, 2⟩, ⟨0, 2, 2⟩], [], [.vs1, .vs2], [.vd], .vec (.bin (.shift false) .i32) true false⟩,
  ⟨[.vsha, .w, .vv, .m], [.vsha, .w, .vv, .m], 5, [⟨26, 6, 8⟩, ⟨12, 2, 2⟩, ⟨5, 1, 1⟩, ⟨2, 3, 2⟩, ⟨0, 2, 0⟩], [], [.vs1, .vs2], [.vd], .vec (.bin (.shift false) .i32) false true⟩,
  ⟨[.vsha, .w, .vx, .m], [.vsha, .w, .vx, .m], 5, [⟨26, 6, 8⟩, ⟨12, 2, 2⟩, ⟨5, 1, 1⟩, ⟨2, 3, 2⟩, ⟨0, 2, 2⟩], [], [.vs1, .vs2], [.vd], .vec (.bin (.shift false) .i32) true true⟩,
  ⟨[.vsha, .b, .r, .vv], [.vsha, .b, .r, .vv], 5, [⟨26, 6, 10⟩, ⟨12, 2, 0⟩, ⟨5, 1, 0⟩, ⟨2, 3, 2⟩, ⟨0, 2, 0⟩], [], [.vs1, .vs2], [.vd], .vec (.bin (.shift true) .i8) false false⟩,
  ⟨[.vsha, .b, .r, .vx], [.vsha, .b, .r, .vx], 5, [⟨26, 6, 10⟩, ⟨12, 2, 0⟩, ⟨5, 1, 0⟩, ⟨2, 3, 2⟩, ⟨0, 2, 2⟩], [], [.vs1, .vs2], [.vd], .vec (.bin (.shift true) .i8) true false⟩,
  ⟨[.vsha, .b, .r, .vv, .m], [.vsha, .b, .r, .vv, .m], 5, [⟨26, 6, 10⟩, ⟨12, 2, 0⟩, ⟨5, 1, 1⟩, ⟨2, 3, 2⟩, ⟨0, 2, 0⟩], [], [.vs1, .vs2], [.vd], .vec (.bin (.shift true) .i8) false true⟩,
  ⟨[.vsha, .b, .r, .vx, .m], [.vsha, .b, .r, .vx, .m], 5, [⟨26, 6, 10⟩, ⟨12, 2, 0⟩, ⟨5, 1, 1⟩, ⟨2, 3, 2⟩, ⟨0, 2, 2⟩], [], [.vs1, .vs2], [.vd], .vec (.bin (.shift true) .i8) true true⟩,
  ⟨[.vsha, .h, .r, .vv], [.vsha, .h, .r, .vv], 5, [⟨26, 6, 10⟩, ⟨12, 2, 1⟩, ⟨5, 1, 0⟩, ⟨2, 3, 2⟩, ⟨0, 2, 0⟩], [], [.vs1, .vs2], [.vd], .vec (.bin (.shift true) .i16) false false⟩,
  ⟨[.vsha, .h, .r, .vx], [.vsha, .h, .r, .vx], 5, [⟨26, 6, 10⟩, ⟨12, 2, 1⟩, ⟨5, 1, 0⟩, ⟨2, 3, 2⟩, ⟨0, 2, 2⟩], [], [.vs1, .vs2], [.vd], .vec (.bin (.shift true) .i16) true false⟩,
  ⟨[.vsha, .h, .r, .vv, .m], [.vsha, .h, .r, .vv, .m], 5, [⟨26, 6, 10⟩, ⟨12, 2, 1⟩, ⟨5, 1, 1⟩, ⟨2, 3, 2⟩, ⟨0, 2, 0⟩], [], [.vs1, .vs2], [.vd], .vec (.bin (.shift true) .i16) false true⟩,
  ⟨[.vsha, .h, .r, .vx, .m], [.vsha, .h, .r, .vx, .m], 5, [⟨26, 6, 10⟩, ⟨12, 2, 1⟩, ⟨5, 1, 1⟩, ⟨2, 3, 2⟩, ⟨0, 2, 2⟩], [], [.vs1, .vs2], [.vd], .vec (.bin (.shift true) .i16) true true⟩,
  ⟨[.vsha, .w, .r, .vv], [.vsha, .w, .r, .vv], 5, [⟨26, 6, 10⟩, ⟨12, 2, 2⟩, ⟨5, 1, 0⟩, ⟨2, 3, 2⟩, ⟨0, 2, 0⟩], [], [.vs1, .vs2], [.vd], .vec (.bin (.shift true) .i32) false false⟩,
  ⟨[.vsha, .w, .r, .vx], [.vsha, .w, .r, .vx], 5, [⟨26, 6, 10⟩, ⟨12, 2, 2⟩, ⟨5, 1, 0⟩, ⟨2, 3, 2⟩, ⟨0, 2, 2⟩], [], [.vs1, .vs2], [.vd], .vec (.bin (.shift true) .i32) true false⟩,
  ⟨[.vsha, .w, .r, .vv, .m], [.vsha, .w, .r, .vv, .m], 5, [⟨26, 6, 10⟩, ⟨12, 2, 2⟩, ⟨5, 1, 1⟩, ⟨2, 3, 2⟩, ⟨0, 2, 0⟩], [], [.vs1, .vs2], [.vd], .vec (.bin (.shift true) .i32) false true⟩,
  ⟨[.vsha, .w, .r, .vx, .m], [.vsha, .w, .r, .vx, .m], 5, [⟨26, 6, 10⟩, ⟨12, 2, 2⟩, ⟨5, 1, 1⟩, ⟨2, 3, 2⟩, ⟨0, 2, 2⟩], [], [.vs1, .vs2], [.vd], .vec (.bin (.shift true) .i32) true true⟩]

def g5_1 : List Row := [
  ⟨[.vshl, .b, .vv], [.vshl, .b, .vv], 5, [⟨26, 6, 9⟩, ⟨12, 2, 0⟩, ⟨5, 1, 0⟩, ⟨2, 3, 2⟩, ⟨0, 2, 0⟩], [], [.vs1, .vs2], [.vd], .vec (.bin (.shift false) .u8) false false⟩,
  ⟨[.vshl, .b, .vx], [.vshl, .b, .vx], 5, [⟨26, 6, 9⟩, ⟨12, 2, 0⟩, ⟨5, 1, 0⟩, ⟨2, 3, 2⟩, ⟨0, 2, 2⟩], [], [.vs1, .vs2], [.vd], .vec (.bin (.shift false) .u8) true false⟩,
  ⟨[.vshl, .b, .vv, .m], [.vshl, .b, .vv, .m], 5, [⟨26, 6, 9⟩, ⟨12, 2, 0⟩, ⟨5, 1, 1⟩, ⟨2, 3, 2⟩, ⟨0, 2, 0⟩], [], [.vs1, .vs2], [.vd], .vec (.bin (.shift false) .u8) false true⟩,
  ⟨[.vshl, .b, .vx, .m], [.vshl, .b, .vx, .m], 5, [⟨26, 6, 9⟩, ⟨12, 2, 0⟩, ⟨5, 1, 1⟩, ⟨2, 3, 2⟩, ⟨0, 2, 2⟩], [], [.vs1, .vs2], [.vd], .vec (.bin (.shift false) .u8) true true⟩,
  ⟨[.vshl, .h, .vv], [.vshl, .h, .vv], 5, [⟨26, 6, 9⟩, ⟨12, 2, 1⟩, ⟨5, 1, 0⟩, ⟨2, 3, 2⟩, ⟨0, 2, 0⟩], [], [.vs1, .vs2], [.vd], .vec (.bin (.shift false) .u16) false false⟩,
  ⟨[.vshl, .h, .vx], [.vshl, .h, .vx], 5, [⟨26, 6, 9⟩, ⟨12, 2, 1⟩, ⟨5, 1, 0⟩, ⟨2, 3, 2⟩, ⟨0, 2, 2⟩], [], [.vs1, .vs2], [.vd], .vec (.bin (.shift false) .u16) true false⟩,
  ⟨[.vshl, .h, .vv, .m], [.vshl, .h, .vv, .m], 5, [⟨26, 6, 9⟩, ⟨12, 2, 1⟩, ⟨5, 1, 1⟩, ⟨2, 3, 2⟩, ⟨0, 2, 0⟩], [], [.vs1, .vs2], [.vd], .vec (.bin (.shift false) .u16) false true⟩,
  ⟨[.vshl, .h, .vx, .m], [.vshl, .h, .vx, .m], 5, [⟨26, 6, 9⟩, ⟨12, 2, 1⟩, ⟨5, 1, 1⟩, ⟨2, 3, 2⟩, ⟨0, 2, 2⟩], [], [.vs1, .vs2], [.vd], .vec (.bin (.shift false) .u16) true true⟩,
  ⟨[.vshl, .w, .vv], [.vshl, .w, .vv], 5, [⟨26, 6, 9⟩, ⟨12, 2, 2⟩, ⟨5, 1, 0⟩, ⟨2, 3, 2⟩, ⟨0, 2, 0⟩], [], [.vs1, .vs2], [.vd], .vec (.bin (.shift false) .u32) false false⟩,
  ⟨[.vshl, .w, .vx], [.vshl, .w, .vx], 5, [⟨26, 6, 9⟩, ⟨12, 2, 2⟩, ⟨5, 1, 0⟩, ⟨2, 3, 2⟩, ⟨0, 2, 2⟩], [], [.vs1, .vs2], [.vd], .vec (.bin (.shift false) .u32) true false⟩,
  ⟨[.vshl, .w, .vv, .m], [.vshl, .w, .vv, .m], 5, [⟨26, 6, 9⟩, ⟨12, 2, 2⟩, ⟨5, 1, 1⟩, ⟨2, 3, 2⟩, ⟨0, 2, 0⟩], [], [.vs1, .vs2], [.vd], .vec (.bin (.shift false) .u32) false true⟩,
  ⟨[.vshl, .w, .vx, .m], [.vshl, .w, .vx, .m], 5, [⟨26, 6, 9⟩, ⟨12, 2, 2⟩, ⟨5, 1, 1⟩, ⟨2, 3, 2⟩, ⟨0, 2, 2⟩], [], [.vs1, .vs2], [.vd], .vec (.bin (.shift false) .u32) true true⟩,
  ⟨[.vshl, .b, .r, .vv], [.vshl, .b, .r, .vv], 5, [⟨26, 6, 11⟩, ⟨12, 2, 0⟩, ⟨5, 1, 0⟩, ⟨2, 3, 2⟩, ⟨0, 2, 0⟩], [], [.vs1, .vs2], [.vd], .vec (.bin (.shift true) .u8) false false⟩,
  ⟨[.vshl, .b, .r, .vx], [.vshl, .b, .r, .vx], 5, [⟨26, 6, 11⟩, ⟨12, 2, 0⟩, ⟨5, 1, 0⟩, ⟨2, 3, 2⟩, ⟨0, 2, 2⟩], [], [.vs1, .vs2], [.vd], .vec (.bin (.shift true) .u8) true false⟩,
  ⟨[.vshl, .b, .r, .vv, .m], [.vshl, .b, .r, .vv, .m], 5, [⟨26, 6, 11⟩, ⟨12, 2, 0⟩, ⟨5, 1, 1⟩, ⟨2, 3, 2⟩, ⟨0, 2, 0⟩], [], [.vs1, .vs2], [.vd], .vec (.bin (.shift true) .u8) false true⟩,
  ⟨[.vshl, .b, .r, .vx, .m], [.vshl, .b, .r, .vx, .m], 5, [⟨26, 6, 11⟩, ⟨12, 2, 0⟩, ⟨5, 1, 1⟩, ⟨2, 3, 2⟩, ⟨0, 2, 2⟩], [], [.vs1, .vs2], [.vd], .vec (.bin (.shift true) .u8) true true⟩,
  ⟨[.vshl, .h, .r, .vv], [.vshl, .h, .r, .vv], 5, [⟨26, 6, 11⟩, ⟨12, 2, 1⟩, ⟨5, 1, 0⟩, ⟨2, 3, 2⟩, ⟨0, 2, 0⟩], [], [.vs1, .vs2], [.vd], .vec (.bin (.shift true) .u16) false false⟩,
  ⟨[.vshl, .h, .r, .vx], [.vshl, .h, .r, .vx], 5, [⟨26, 6, 11⟩, ⟨12, 2, 1⟩, ⟨5, 1, 0⟩, ⟨2, 3, 2⟩, ⟨0, 2, 2⟩], [], [.vs1, .vs2], [.vd], .vec (.bin (.shift true) .u16) true false⟩,
  ⟨[.vshl, .h, .r, .vv, .m], [.vshl, .h, .r, .vv, .m], 5, [⟨26, 6, 11⟩, ⟨12, 2, 1⟩, ⟨5, 1, 1⟩, ⟨2, 3, 2⟩, ⟨0, 2, 0⟩], [], [.vs1, .vs2], [.vd], .vec (.bin (.shift true) .u16) false true⟩,
  ⟨[.vshl, .h, .r, .vx, .m], [.vshl, .h, .r, .vx, .m], 5, [⟨26, 6, 11⟩, ⟨12, 2, 1⟩, ⟨5, 1, 1⟩, ⟨2, 3, 2⟩, ⟨0, 2, 2⟩], [], [.vs1, .vs2], [.vd], .vec (.bin (.shift true) .u16) true true⟩,
  ⟨[.vshl, .w, .r, .vv], [.vshl, .w, .r, .vv], 5, [⟨26, 6, 11⟩, ⟨12, 2, 2⟩, ⟨5, 1, 0⟩, ⟨2, 3, 2⟩, ⟨0, 2, 0⟩], [], [.vs1, .vs2], [.vd], .vec (.bin (.shift true) .u32) false false⟩,
  ⟨[.vshl, .w, .r, .vx], [.vshl, .w, .r, .vx], 5, [⟨26, 6, 11⟩, ⟨12, 2, 2⟩, ⟨5, 1, 0⟩, ⟨2, 3, 2⟩, ⟨0, 2, 2⟩], [], [.vs1, .vs2], [.vd], .vec (.bin (.shift true) .u32) true false⟩,
  ⟨[.vshl, .w, .r, .vv, .m], [.vshl, .w, .r, .vv, .m], 5, [⟨26, 6, 11⟩, ⟨12, 2, 2⟩, ⟨5, 1, 1⟩, ⟨2, 3, 2⟩, ⟨0, 2, 0⟩], [], [.vs1, .vs2], [.vd], .vec (.bin (.shift true) .u32) false true⟩,
  ⟨[.vshl, .w, .r, .vx, .m], [.vshl, .w, .r, .vx, .m], 5, [⟨26, 6, 11⟩, ⟨12, 2, 2⟩, ⟨5, 1, 1⟩, ⟨2, 3, 2⟩, ⟨0, 2, 2⟩], [], [.vs1, .vs2], [.vd], .vec (.bin (.shift true) .u32) true true⟩,
  ⟨[.vnot, .v], [.vnot, .v], 5, [⟨26, 6, 3⟩, ⟨20, 6, 0⟩, ⟨5, 1, 0⟩, ⟨2, 3, 1⟩, ⟨0, 2, 2⟩], [], [.vs1], [.vd], .vec (.un .not .i32) false false⟩,
  ⟨[.vnot, .v, .m], [.vnot, .v, .m], 5, [⟨26, 6, 3⟩, ⟨20, 6, 0⟩, ⟨5, 1, 1⟩, ⟨2, 3, 1⟩, ⟨0, 2, 2⟩], [], [.vs1], [.vd], .vec (.un .not .i32) false true⟩,
  ⟨[.vclb, .b, .v], [.vclb, .b, .v], 5, [⟨26, 6, 8⟩, ⟨12, 2, 0⟩, ⟨20, 6, 0⟩, ⟨5, 1, 0⟩, ⟨2, 3, 1⟩, ⟨0, 2, 2⟩], [], [.vs1], [.vd], .vec (.un .clb .u8) false false⟩,
  ⟨[.vclb, .b, .v, .m], [.vclb, .b, .v, .m], 5, [⟨26, 6, 8⟩, ⟨12, 2, 0⟩, ⟨20, 6, 0⟩, ⟨5, 1, 1⟩, ⟨2, 3, 1⟩, ⟨0, 2, 2⟩], [], [.vs1], [.vd], .vec (.un .clb .u8) false true⟩,
  ⟨[.vclb, .h, .v], [.vclb, .h, .v], 5, [⟨26, 6, 8⟩, ⟨12, 2, 1⟩, ⟨20, 6, 0⟩, ⟨5, 1, 0⟩, ⟨2, 3, 1⟩, ⟨0, 2, 2⟩], [], [.vs1], [.vd], .vec (.un .clb .u16) false false⟩,
  ⟨[.vclb, .h, .v, .m], [.vclb, .h, .v, .m], 5, [⟨26, 6, 8⟩, ⟨12, 2, 1⟩, ⟨20, 6, 0⟩, ⟨5, 1, 1⟩, ⟨2, 3, 1⟩, ⟨0, 2, 2⟩], [], [.vs1], [.vd], .vec (.un .clb .u16) false true⟩,
  ⟨[.vclb, .w, .v], [.vclb, .w, .v], 5, [⟨26, 6, 8⟩, ⟨12, 2, 2⟩, ⟨20, 6, 0⟩, ⟨5, 1, 0⟩, ⟨2, 3, 1⟩, ⟨0, 2, 2⟩], [], [.vs1], [.vd], .vec (.un .clb .u32) false false⟩,
  ⟨[.vclb, .w, .v, .m], [.vclb, .w, .v, .m], 5, [⟨26, 6, 8⟩, ⟨12, 2, 2⟩, ⟨20, 6, 0⟩, ⟨5, 1, 1⟩, ⟨2, 3, 1⟩, ⟨0, 2, 2⟩], [], [.vs1], [.vd], .vec (.un .clb .u32) false true⟩,
  ⟨[.vclz, .b, .v], [.vclz, .b, .v], 5, [⟨26, 6, 9⟩, ⟨12, 2, 0⟩, ⟨20, 6, 0⟩, ⟨5, 1, 0⟩, ⟨2, 3, 1⟩, ⟨0, 2, 2⟩], [], [.vs1], [.vd], .vec (.un .clz .u8) false false⟩,
  ⟨[.vclz, .b, .v, .m], [.vclz, .b, .v, .m], 5, [⟨26, 6, 9⟩, ⟨12, 2, 0⟩, ⟨20, 6, 0⟩, ⟨5, 1, 1⟩, ⟨2, 3, 1⟩, ⟨0, 2, 2⟩], [], [.vs1], [.vd], .vec (.un .clz .u8) false true⟩,
  ⟨[.vclz, .h, .v], [.vclz, .h, .v], 5, [⟨26, 6, 9⟩, ⟨12, 2, 1⟩, ⟨20, 6, 0⟩, ⟨5, 1, 0⟩, ⟨2, 3, 1⟩, ⟨0, 2, 2⟩], [], [.vs1], [.vd], .vec (.un .clz .u16) false false⟩,
  ⟨[.vclz, .h, .v, .m], [.vclz, .h, .v, .m], 5, [⟨26, 6, 9⟩, ⟨12, 2, 1⟩, ⟨20, 6, 0⟩, ⟨5, 1, 1⟩, ⟨2, 3, 1⟩, ⟨0, 2, 2⟩], [], [.vs1], [.vd], .vec (.un .clz .u16) false true⟩,
  ⟨[.vclz, .w, .v], [.vclz, .w, .v], 5, [⟨26, 6, 9⟩, ⟨12, 2, 2⟩, ⟨20, 6, 0⟩, ⟨5, 1, 0⟩, ⟨2, 3, 1⟩, ⟨0, 2, 2⟩], [], [.vs1], [.vd], .vec (.un .clz .u32) false false⟩,
  ⟨[.vclz, .w, .v, .m], [.vclz, .w, .v, .m], 5, [⟨26, 6, 9⟩, ⟨12, 2, 2⟩, ⟨20, 6, 0⟩, ⟨5, 1, 1⟩, ⟨2, 3, 1⟩, ⟨0, 2, 2⟩], [], [.vs1], [.vd], .vec (.un .clz .u32) false true⟩,
  ⟨[.vcpop, .b, .v], [.vcpop, .b, .v], 5, [⟨26, 6, 10⟩, ⟨12, 2, 0⟩, ⟨20, 6, 0⟩, ⟨5, 1, 0⟩, ⟨2, 3, 1⟩, ⟨0, 2, 2⟩], [], [.vs1], [.vd], .vec (.un .cpop .u8) false false⟩,
  ⟨[.vcpop, .b, .v, .m], [.vcpop, .b, .v, .m], 5, [⟨26, 6, 10⟩, ⟨12, 2, 0⟩, ⟨20, 6, 0⟩, ⟨5, 1, 1⟩, ⟨2, 3, 1⟩, ⟨0, 2, 2⟩], [], [.vs1], [.vd], .vec (.un .cpop .u8) false true⟩,
  ⟨[.vcpop, .h, .v], [.vcpop, .h, .v], 5, [⟨26, 6, 10⟩, ⟨12, 2, 1⟩, ⟨20, 6, 0⟩, ⟨5, 1, 0⟩, ⟨2, 3, 1⟩, ⟨0, 2, 2⟩], [], [.vs1], [.vd], .vec (.un .cpop .u16) false false⟩,
  ⟨[.vcpop, .h, .v, .m], [.vcpop, .h, .v, .m], 5, [⟨26, 6, 10⟩, ⟨12, 2, 1⟩, ⟨20, 6, 0⟩, ⟨5, 1, 1⟩, ⟨2, 3, 1⟩, ⟨0, 2, 2⟩], [], [.vs1], [.vd], .vec (.un .cpop .u16) false true⟩,
  ⟨[.vcpop, .w, .v], [.vcpop, .w, .v], 5, [⟨26, 6, 10⟩, ⟨12, 2, 2⟩, ⟨20, 6, 0⟩, ⟨5, 1, 0⟩, ⟨2, 3, 1⟩, ⟨0, 2, 2⟩], [], [.vs1], [.vd], .vec (.un .cpop .u32) false false⟩,
  ⟨[.vcpop, .w, .v, .m], [.vcpop, .w, .v, .m], 5, [⟨26, 6, 10⟩, ⟨12, 2, 2⟩, ⟨20, 6, 0⟩, ⟨5, 1, 1⟩, ⟨2, 3, 1⟩, ⟨0, 2, 2⟩], [], [.vs1], [.vd], .vec (.un .cpop .u32) false true⟩,
  ⟨[.vmv, .v], [.vmv, .v], 5, [⟨26, 6, 12⟩, ⟨20, 6, 0⟩, ⟨5, 1, 0⟩, ⟨2, 3, 1⟩, ⟨0, 2, 2⟩], [], [.vs1], [.vd], .vec (.un .mv .i32) false false⟩,
  ⟨[.vmv, .v, .m], [.vmv, .v, .m], 5, [⟨26, 6, 12⟩, ⟨20, 6, 0⟩, ⟨5, 1, 1⟩, ⟨2, 3, 1⟩, ⟨0, 2, 2⟩], [], [.vs1], [.vd], .vec (.un .mv .i32) false true⟩,
  ⟨[.vsrans, .b, .vv], [.vsrans, .b, .vv], 5, [⟨26, 6, 16⟩, ⟨12, 2, 0⟩, ⟨5, 1, 0⟩, ⟨2, 3, 2⟩, ⟨0, 2, 0⟩], [], [.vs1, .vs2], [.vd], .vec (.srans false .i8 .i16) false false⟩,
  ⟨[.vsrans, .b, .vx], [.vsrans, .b, .vx], 5, [⟨26, 6, 16⟩, ⟨12, 2, 0⟩, ⟨5, 1, 0⟩, ⟨2, 3, 2⟩, ⟨0, 2, 2⟩], [], [.vs1, .vs2], [.vd], .vec (.srans false .i8 .i16) true false⟩,
  ⟨[.vsrans, .b, .vv, .m], [.vsrans, .b, .vv, .m], 5, [⟨26, 6, 16⟩, ⟨12, 2, 0⟩, ⟨5, 1, 1⟩, ⟨2, 3, 2⟩, ⟨0, 2, 0⟩], [], [.vs1, .vs2], [.vd], .vec (.srans false .i8 .i16) false true⟩,
  ⟨[.vsrans, .b, .vx, .m], [.vsrans, .b, .vx, .m], 5, [⟨26, 6, 16⟩, ⟨12, 2, 0⟩, ⟨5, 1, 1⟩, ⟨2, 3, 2⟩, ⟨0, 2, 2⟩], [], [.vs1, .vs2], [.vd], .vec (.srans false .i8 .i16) true true⟩,
  ⟨[.vsrans, .h, .vv], [.vsrans, .h, .vv], 5, [⟨26, 6, 16⟩, ⟨12, 2, 1⟩, ⟨5, 1, 0⟩, ⟨2, 3, 2⟩, ⟨0, 2, 0⟩], [], [.vs1, .vs2], [.vd], .vec (.srans false .i16 .i32) false false⟩,
  ⟨[.vsrans, .h, .vx], [.vsrans, .h, .vx], 5, [⟨26, 6, 16⟩, ⟨12, 2, 1⟩, ⟨5, 1, 0⟩, ⟨2, 3, 2⟩, ⟨0, 2, 2⟩], [], [.vs1, .vs2], [.vd], .vec (.srans false .i16 .i32) true false⟩,
  ⟨[.vsrans, .h, .vv, .m], [.vsrans, .h, .vv, .m], 5, [⟨26, 6, 16⟩, ⟨12, 2, 1⟩, ⟨5, 1, 1⟩, ⟨2, 3, 2⟩, ⟨0, 2, 0⟩], [], [.vs1, .vs2], [.vd], .vec (.srans false .i16 .i32) false true⟩,
  ⟨[.vsrans, .h, .vx, .m], [.vsrans, .h, .vx, .m], 5, [⟨26, 6, 16⟩, ⟨12, 2, 1⟩, ⟨5, 1, 1⟩, ⟨2, 3, 2⟩, ⟨0, 2, 2⟩], [], [.vs1, .vs2], [.vd], .vec (.srans false .i16 .i32) true true⟩,
  ⟨[.vsrans, .b, .r, .vv], [.vsrans, .b, .r, .vv], 5, [⟨26, 6, 18⟩, ⟨12, 2, 0⟩, ⟨5, 1, 0⟩, ⟨2, 3, 2⟩, ⟨0, 2, 0⟩], [], [.vs1, .vs2], [.vd], .vec (.srans true .i8 .i16) false false⟩,
  ⟨[.vsrans, .b, .r, .vx], [.vsrans, .b, .r, .vx], 5, [⟨26, 6, 18⟩, ⟨12, 2, 0⟩, ⟨5, 1, 0⟩, ⟨2, 3, 2⟩, ⟨0, 2, 2⟩], [], [.vs1, .vs2], [.vd], .vec (.srans true .i8 .i16) true false⟩,
  ⟨[.vsrans, .b, .r, .vv, .m], [.vsrans, .b, .r, .vv, .m], 5, [⟨26, 6, 18⟩, ⟨12, 2, 0⟩, ⟨5, 1, 1⟩, ⟨2, 3, 2⟩, ⟨0, 2, 0⟩], [], [.vs1, .vs2], [.vd], .vec (.srans true .i8 .i16) false true⟩,
  ⟨[.vsrans, .b, .r, .vx, .m], [.vsrans, .b, .r, .vx, .m], 5, [⟨26, 6, 18⟩, ⟨12, 2, 0⟩, ⟨5, 1, 1⟩, ⟨2, 3, 2⟩, ⟨0, 2, 2⟩], [], [.vs1, .vs2], [.vd], .vec (.srans true .i8 .i16) true true⟩,
  ⟨[.vsrans, .h, .r, .vv], [.vsrans, .h, .r, .vv], 5, [⟨26, 6, 18⟩, ⟨12, 2, 1⟩, ⟨5, 1, 0⟩, ⟨2, 3, 2⟩, ⟨0, 2, 0⟩], [], [.vs1, .vs2], [.vd], .vec (.srans true .i16 .i32) false false⟩,
  ⟨[.vsrans, .h, .r, .vx], [.vsrans, .h, .r, .vx], 5, [⟨26, 6, 18⟩, ⟨12, 2, 1⟩, ⟨5, 1, 0⟩, ⟨2, 3, 2⟩, ⟨0, 2, 2⟩], [], [.vs1, .vs2], [.vd], .vec (.srans true .i16 .i32) true false⟩]

def g5_2 : List Row := [
  ⟨[.vsrans, .h, .r, .vv, .m], [.vsrans, .h, .r, .vv, .m], 5, [⟨26, 6, 18⟩, ⟨12, 2, 1⟩, ⟨5, 1, 1⟩, ⟨2, 3, 2⟩, ⟨0, 2, 0⟩], [], [.vs1, .vs2], [.vd], .vec (.srans true .i16 .i32) false true⟩,
  ⟨[.vsrans, .h, .r, .vx, .m], [.vsrans, .h, .r, .vx, .m], 5, [⟨26, 6, 18⟩, ⟨12, 2, 1⟩, ⟨5, 1, 1⟩, ⟨2, 3, 2⟩, ⟨0, 2, 2⟩], [], [.vs1, .vs2], [.vd], .vec (.srans true .i16 .i32) true true⟩,
  ⟨[.vsransu, .b, .vv], [.vsransu, .b, .vv], 5, [⟨26, 6, 17⟩, ⟨12, 2, 0⟩, ⟨5, 1, 0⟩, ⟨2, 3, 2⟩, ⟨0, 2, 0⟩], [], [.vs1, .vs2], [.vd], .vec (.srans false .u8 .u16) false false⟩,
  ⟨[.vsransu, .b, .vx], [.vsransu, .b, .vx], 5, [⟨26, 6, 17⟩, ⟨12, 2, 0⟩, ⟨5, 1, 0⟩, ⟨2, 3, 2⟩, ⟨0, 2, 2⟩], [], [.vs1, .vs2], [.vd], .vec (.srans false .u8 .u16) true false⟩,
  ⟨[.vsransu, .b, .vv, .m], [.vsransu, .b, .vv, .m], 5, [⟨26, 6, 17⟩, ⟨12, 2, 0⟩, ⟨5, 1, 1⟩, ⟨2, 3, 2⟩, ⟨0, 2, 0⟩], [], [.vs1, .vs2], [.vd], .vec (.srans false .u8 .u16) false true⟩,
  ⟨[.vsransu, .b, .vx, .m], [.vsransu, .b, .vx, .m], 5, [⟨26, 6, 17⟩, ⟨12, 2, 0⟩, ⟨5, 1, 1⟩, ⟨2, 3, 2⟩, ⟨0, 2, 2⟩], [], [.vs1, .vs2], [.vd], .vec (.srans false .u8 .u16) true true⟩,
  ⟨[.vsransu, .h, .vv], [.vsransu, .h, .vv], 5, [⟨26, 6, 17⟩, ⟨12, 2, 1⟩, ⟨5, 1, 0⟩, ⟨2, 3, 2⟩, ⟨0, 2, 0⟩], [], [.vs1, .vs2], [.vd], .vec (.srans false .u16 .u32) false false⟩,
  ⟨[.vsransu, .h, .vx], [.vsransu, .h, .vx], 5, [⟨26, 6, 17⟩, ⟨12, 2, 1⟩, ⟨5, 1, 0⟩, ⟨2, 3, 2⟩, ⟨0, 2, 2⟩], [], [.vs1, .vs2], [.vd], .vec (.srans false .u16 .u32) true false⟩,
  ⟨[.vsransu, .h, .vv, .m], [.vsransu, .h, .vv, .m], 5, [⟨26, 6, 17⟩, ⟨12, 2, 1⟩, ⟨5, 1, 1⟩, ⟨2, 3, 2⟩, ⟨0, 2, 0⟩], [], [.vs1, .vs2], [.vd], .vec (.srans false .u16 .u32) false true⟩,
  ⟨[.vsransu, .h, .vx, .m], [.vsransu, .h, .vx, .m], 5, [⟨26, 6, 17⟩, ⟨12, 2, 1⟩, ⟨5, 1, 1⟩, ⟨2, 3, 2⟩, ⟨0, 2, 2⟩], [], [.vs1, .vs2], [.vd], .vec (.srans false .u16 .u32) true true⟩,
  ⟨[.vsransu, .b, .r, .vv], [.vsransu, .b, .r, .vv], 5, [⟨26, 6, 19⟩, ⟨12, 2, 0⟩, ⟨5, 1, 0⟩, ⟨2, 3, 2⟩, ⟨0, 2, 0⟩], [], [.vs1, .vs2], [.vd], .vec (.srans true .u8 .u16) false false⟩,
  ⟨[.vsransu, .b, .r, .vx], [.vsransu, .b, .r, .vx], 5, [⟨26, 6, 19⟩, ⟨12, 2, 0⟩, ⟨5, 1, 0⟩, ⟨2, 3, 2⟩, ⟨0, 2, 2⟩], [], [.vs1, .vs2], [.vd], .vec (.srans true .u8 .u16) true false⟩,
  ⟨[.vsransu, .b, .r, .vv, .m], [.vsransu, .b, .r, .vv, .m], 5, [⟨26, 6, 19⟩, ⟨12, 2, 0⟩, ⟨5, 1, 1⟩, ⟨2, 3, 2⟩, ⟨0, 2, 0⟩], [], [.vs1, .vs2], [.vd], .vec (.srans true .u8 .u16) false true⟩,
  ⟨[.vsransu, .b, .r, .vx, .m], [.vsransu, .b, .r, .vx, .m], 5, [⟨26, 6, 19⟩, ⟨12, 2, 0⟩, ⟨5, 1, 1⟩, ⟨2, 3, 2⟩, ⟨0, 2, 2⟩], [], [.vs1, .vs2], [.vd], .vec (.srans true .u8 .u16) true true⟩,
  ⟨[.vsransu, .h, .r, .vv], [.vsransu, .h, .r, .vv], 5, [⟨26, 6, 19⟩, ⟨12, 2, 1⟩, ⟨5, 1, 0⟩, ⟨2, 3, 2⟩, ⟨0, 2, 0⟩], [], [.vs1, .vs2], [.vd], .vec (.srans true .u16 .u32) false false⟩,
  ⟨[.vsransu, .h, .r, .vx], [.vsransu, .h, .r, .vx], 5, [⟨26, 6, 19⟩, ⟨12, 2, 1⟩, ⟨5, 1, 0⟩, ⟨2, 3, 2⟩, ⟨0, 2, 2⟩], [], [.vs1, .vs2], [.vd], .vec (.srans true .u16 .u32) true false⟩,
  ⟨[.vsransu, .h, .r, .vv, .m], [.vsransu, .h, .r, .vv, .m], 5, [⟨26, 6, 19⟩, ⟨12, 2, 1⟩, ⟨5, 1, 1⟩, ⟨2, 3, 2⟩, ⟨0, 2, 0⟩], [], [.vs1, .vs2], [.vd], .vec (.srans true .u16 .u32) false true⟩,
  ⟨[.vsransu, .h, .r, .vx, .m], [.vsransu, .h, .r, .vx, .m], 5, [⟨26, 6, 19⟩, ⟨12, 2, 1⟩, ⟨5, 1, 1⟩, ⟨2, 3, 2⟩, ⟨0, 2, 2⟩], [], [.vs1, .vs2], [.vd], .vec (.srans true .u16 .u32) true true⟩,
  ⟨[.vsraqs, .b, .vv], [.vsraqs, .b, .vv], 5, [⟨26, 6, 24⟩, ⟨12, 2, 0⟩, ⟨5, 1, 0⟩, ⟨2, 3, 2⟩, ⟨0, 2, 0⟩], [], [.vs1, .vs2], [.vd], .vec (.srans false .i8 .i32) false false⟩,
  ⟨[.vsraqs, .b, .vx], [.vsraqs, .b, .vx], 5, [⟨26, 6, 24⟩, ⟨12, 2, 0⟩, ⟨5, 1, 0⟩, ⟨2, 3, 2⟩, ⟨0, 2, 2⟩], [], [.vs1, .vs2], [.vd], .vec (.srans false .i8 .i32) true false⟩,
  ⟨[.vsraqs, .b, .vv, .m], [.vsraqs, .b, .vv, .m], 5, [⟨26, 6, 24⟩, ⟨12, 2, 0⟩, ⟨5, 1, 1⟩, ⟨2, 3, 2⟩, ⟨0, 2, 0⟩], [], [.vs1, .vs2], [.vd], .vec (.srans false .i8 .i32) false true⟩,
  ⟨[.vsraqs, .b, .vx, .m], [.vsraqs, .b, .vx, .m], 5, [⟨26, 6, 24⟩, ⟨12, 2, 0⟩, ⟨5, 1, 1⟩, ⟨2, 3, 2⟩, ⟨0, 2, 2⟩], [], [.vs1, .vs2], [.vd], .vec (.srans false .i8 .i32) true true⟩,
  ⟨[.vsraqs, .b, .r, .vv], [.vsraqs, .b, .r, .vv], 5, [⟨26, 6, 26⟩, ⟨12, 2, 0⟩, ⟨5, 1, 0⟩, ⟨2, 3, 2⟩, ⟨0, 2, 0⟩], [], [.vs1, .vs2], [.vd], .vec (.srans true .i8 .i32) false false⟩,
  ⟨[.vsraqs, .b, .r, .vx], [.vsraqs, .b, .r, .vx], 5, [⟨26, 6, 26⟩, ⟨12, 2, 0⟩, ⟨5, 1, 0⟩, ⟨2, 3, 2⟩, ⟨0, 2, 2⟩], [], [.vs1, .vs2], [.vd], .vec (.srans true .i8 .i32) true false⟩,
  ⟨[.vsraqs, .b, .r, .vv, .m], [.vsraqs, .b, .r, .vv, .m], 5, [⟨26, 6, 26⟩, ⟨12, 2, 0⟩, ⟨5, 1, 1⟩, ⟨2, 3, 2⟩, ⟨0, 2, 0⟩], [], [.vs1, .vs2], [.vd], .vec (.srans true .i8 .i32) false true⟩,
  ⟨[.vsraqs, .b, .r, .vx, .m], [.vsraqs, .b, .r, .vx, .m], 5, [⟨26, 6, 26⟩, ⟨12, 2, 0⟩, ⟨5, 1, 1⟩, ⟨2, 3, 2⟩, ⟨0, 2, 2⟩], [], [.vs1, .vs2], [.vd], .vec (.srans true .i8 .i32) true true⟩,
  ⟨[.vsraqsu, .b, .vv], [.vsraqsu, .b, .vv], 5, [⟨26, 6, 25⟩, ⟨12, 2, 0⟩, ⟨5, 1, 0⟩, ⟨2, 3, 2⟩, ⟨0, 2, 0⟩], [], [.vs1, .vs2], [.vd], .vec (.srans false .u8 .u32) false false⟩,
  ⟨[.vsraqsu, .b, .vx], [.vsraqsu, .b, .vx], 5, [⟨26, 6, 25⟩, ⟨12, 2, 0⟩, ⟨5, 1, 0⟩, ⟨2, 3, 2⟩, ⟨0, 2, 2⟩], [], [.vs1, .vs2], [.vd], .vec (.srans false .u8 .u32) true false⟩,
  ⟨[.vsraqsu, .b, .vv, .m], [.vsraqsu, .b, .vv, .m], 5, [⟨26, 6, 25⟩, ⟨12, 2, 0⟩, ⟨5, 1, 1⟩, ⟨2, 3, 2⟩, ⟨0, 2, 0⟩], [], [.vs1, .vs2], [.vd], .vec (.srans false .u8 .u32) false true⟩,
  ⟨[.vsraqsu, .b, .vx, .m], [.vsraqsu, .b, .vx, .m], 5, [⟨26, 6, 25⟩, ⟨12, 2, 0⟩, ⟨5, 1, 1⟩, ⟨2, 3, 2⟩, ⟨0, 2, 2⟩], [], [.vs1, .vs2], [.vd], .vec (.srans false .u8 .u32) true true⟩,
  ⟨[.vsraqsu, .b, .r, .vv], [.vsraqsu, .b, .r, .vv], 5, [⟨26, 6, 27⟩, ⟨12, 2, 0⟩, ⟨5, 1, 0⟩, ⟨2, 3, 2⟩, ⟨0, 2, 0⟩], [], [.vs1, .vs2], [.vd], .vec (.srans true .u8 .u32) false false⟩,
  ⟨[.vsraqsu, .b, .r, .vx], [.vsraqsu, .b, .r, .vx], 5, [⟨26, 6, 27⟩, ⟨12, 2, 0⟩, ⟨5, 1, 0⟩, ⟨2, 3, 2⟩, ⟨0, 2, 2⟩], [], [.vs1, .vs2], [.vd], .vec (.srans true .u8 .u32) true false⟩,
  ⟨[.vsraqsu, .b, .r, .vv, .m], [.vsraqsu, .b, .r, .vv, .m], 5, [⟨26, 6, 27⟩, ⟨12, 2, 0⟩, ⟨5, 1, 1⟩, ⟨2, 3, 2⟩, ⟨0, 2, 0⟩], [], [.vs1, .vs2], [.vd], .vec (.srans true .u8 .u32) false true⟩,
  ⟨[.vsraqsu, .b, .r, .vx, .m], [.vsraqsu, .b, .r, .vx, .m], 5, [⟨26, 6, 27⟩, ⟨12, 2, 0⟩, ⟨5, 1, 1⟩, ⟨2, 3, 2⟩, ⟨0, 2, 2⟩], [], [.vs1, .vs2], [.vd], .vec (.srans true .u8 .u32) true true⟩,
  ⟨[.vsliden, .b, .n1, .vv], [.vsliden, .b, .n1, .vv], 5, [⟨26, 6, 0⟩, ⟨12, 2, 0⟩, ⟨5, 1, 0⟩, ⟨2, 3, 6⟩, ⟨0, 2, 0⟩], [], [.vs1, .vs2], [.vd], .vec (.sliden false 1 .i8) false false⟩,
  ⟨[.vsliden, .b, .n2, .vv], [.vsliden, .b, .n2, .vv], 5, [⟨26, 6, 1⟩, ⟨12, 2, 0⟩, ⟨5, 1, 0⟩, ⟨2, 3, 6⟩, ⟨0, 2, 0⟩], [], [.vs1, .vs2], [.vd], .vec (.sliden false 2 .i8) false false⟩,
  ⟨[.vsliden, .b, .n3, .vv], [.vsliden, .b, .n3, .vv], 5, [⟨26, 6, 2⟩, ⟨12, 2, 0⟩, ⟨5, 1, 0⟩, ⟨2, 3, 6⟩, ⟨0, 2, 0⟩], [], [.vs1, .vs2], [.vd], .vec (.sliden false 3 .i8) false false⟩,
  ⟨[.vsliden, .b, .n4, .vv], [.vsliden, .b, .n4, .vv], 5, [⟨26, 6, 3⟩, ⟨12, 2, 0⟩, ⟨5, 1, 0⟩, ⟨2, 3, 6⟩, ⟨0, 2, 0⟩], [], [.vs1, .vs2], [.vd], .vec (.sliden false 4 .i8) false false⟩,
  ⟨[.vsliden, .h, .n1, .vv], [.vsliden, .h, .n1, .vv], 5, [⟨26, 6, 0⟩, ⟨12, 2, 1⟩, ⟨5, 1, 0⟩, ⟨2, 3, 6⟩, ⟨0, 2, 0⟩], [], [.vs1, .vs2], [.vd], .vec (.sliden false 1 .i16) false false⟩,
  ⟨[.vsliden, .h, .n2, .vv], [.vsliden, .h, .n2, .vv], 5, [⟨26, 6, 1⟩, ⟨12, 2, 1⟩, ⟨5, 1, 0⟩, ⟨2, 3, 6⟩, ⟨0, 2, 0⟩], [], [.vs1, .vs2], [.vd], .vec (.sliden false 2 .i16) false false⟩,
  ⟨[.vsliden, .h, .n3, .vv], [.vsliden, .h, .n3, .vv], 5, [⟨26, 6, 2⟩, ⟨12, 2, 1⟩, ⟨5, 1, 0⟩, ⟨2, 3, 6⟩, ⟨0, 2, 0⟩], [], [.vs1, .vs2], [.vd], .vec (.sliden false 3 .i16) false false⟩,
  ⟨[.vsliden, .h, .n4, .vv], [.vsliden, .h, .n4, .vv], 5, [⟨26, 6, 3⟩, ⟨12, 2, 1⟩, ⟨5, 1, 0⟩, ⟨2, 3, 6⟩, ⟨0, 2, 0⟩], [], [.vs1, .vs2], [.vd], .vec (.sliden false 4 .i16) false false⟩,
  ⟨[.vsliden, .w, .n1, .vv], [.vsliden, .w, .n1, .vv], 5, [⟨26, 6, 0⟩, ⟨12, 2, 2⟩, ⟨5, 1, 0⟩, ⟨2, 3, 6⟩, ⟨0, 2, 0⟩], [], [.vs1, .vs2], [.vd], .vec (.sliden false 1 .i32) false false⟩,
  ⟨[.vsliden, .w, .n2, .vv], [.vsliden, .w, .n2, .vv], 5, [⟨26, 6, 1⟩, ⟨12, 2, 2⟩, ⟨5, 1, 0⟩, ⟨2, 3, 6⟩, ⟨0, 2, 0⟩], [], [.vs1, .vs2], [.vd], .vec (.sliden false 2 .i32) false false⟩,
  ⟨[.vsliden, .w, .n3, .vv], [.vsliden, .w, .n3, .vv], 5, [⟨26, 6, 2⟩, ⟨12, 2, 2⟩, ⟨5, 1, 0⟩, ⟨2, 3, 6⟩, ⟨0, 2, 0⟩], [], [.vs1, .vs2], [.vd], .vec (.sliden false 3 .i32) false false⟩,
  ⟨[.vsliden, .w, .n4, .vv], [.vsliden, .w, .n4, .vv], 5, [⟨26, 6, 3⟩, ⟨12, 2, 2⟩, ⟨5, 1, 0⟩, ⟨2, 3, 6⟩, ⟨0, 2, 0⟩], [], [.vs1, .vs2], [.vd], .vec (.sliden false 4 .i32) false false⟩,
  ⟨[.vslidevn, .b, .n1, .vv, .m], [.vslidevn, .b, .n1, .vv, .m], 5, [⟨26, 6, 0⟩, ⟨12, 2, 0⟩, ⟨5, 1, 1⟩, ⟨2, 3, 6⟩, ⟨0, 2, 0⟩], [], [.vs1, .vs2], [.vd], .vec (.sliden false 1 .i8) false true⟩,
  ⟨[.vslidevn, .b, .n2, .vv, .m], [.vslidevn, .b, .n2, .vv, .m], 5, [⟨26, 6, 1⟩, ⟨12, 2, 0⟩, ⟨5, 1, 1⟩, ⟨2, 3, 6⟩, ⟨0, 2, 0⟩], [], [.vs1, .vs2], [.vd], .vec (.sliden false 2 .i8) false true⟩,
  ⟨[.vslidevn, .b, .n3, .vv, .m], [.vslidevn, .b, .n3, .vv, .m], 5, [⟨26, 6, 2⟩, ⟨12, 2, 0⟩, ⟨5, 1, 1⟩, ⟨2, 3, 6⟩, ⟨0, 2, 0⟩], [], [.vs1, .vs2], [.vd], .vec (.sliden false 3 .i8) false true⟩,
  ⟨[.vslidevn, .b, .n4, .vv, .m], [.vslidevn, .b, .n4, .vv, .m], 5, [⟨26, 6, 3⟩, ⟨12, 2, 0⟩, ⟨5, 1, 1⟩, ⟨2, 3, 6⟩, ⟨0, 2, 0⟩], [], [.vs1, .vs2], [.vd], .vec (.sliden false 4 .i8) false true⟩,
  ⟨[.vslidevn, .h, .n1, .vv, .m], [.vslidevn, .h, .n1, .vv, .m], 5, [⟨26, 6, 0⟩, ⟨12, 2, 1⟩, ⟨5, 1, 1⟩, ⟨2, 3, 6⟩, ⟨0, 2, 0⟩], [], [.vs1, .vs2], [.vd], .vec (.sliden false 1 .i16) false true⟩,
  ⟨[.vslidevn, .h, .n2, .vv, .m], [.vslidevn, .h, .n2, .vv, .m], 5, [⟨26, 6, 1⟩, ⟨12, 2, 1⟩, ⟨5, 1, 1⟩, ⟨2, 3, 6⟩, ⟨0, 2, 0⟩], [], [.vs1, .vs2], [.vd], .vec (.sliden false 2 .i16) false true⟩,
  ⟨[.vslidevn, .h, .n3, .vv, .m], [.vslidevn, .h, .n3, .vv, .m], 5, [⟨26, 6, 2⟩, ⟨12, 2, 1⟩, ⟨5, 1, 1⟩, ⟨2, 3, 6⟩, ⟨0, 2, 0⟩], [], [.vs1, .vs2], [.vd], .vec (.sliden false 3 .i16) false true⟩,
  ⟨[.vslidevn, .h, .n4, .vv, .m], [.vslidevn, .h, .n4, .vv, .m], 5, [⟨26, 6, 3⟩, ⟨12, 2, 1⟩, ⟨5, 1, 1⟩, ⟨2, 3, 6⟩, ⟨0, 2, 0⟩], [], [.vs1, .vs2], [.vd], .vec (.sliden false 4 .i16) false true⟩,
  ⟨[.vslidevn, .w, .n1, .vv, .m], [.vslidevn, .w, .n1, .vv, .m], 5, [⟨26, 6, 0⟩, ⟨12, 2, 2⟩, ⟨5, 1, 1⟩, ⟨2, 3, 6⟩, ⟨0, 2, 0⟩], [], [.vs1, .vs2], [.vd], .vec (.sliden false 1 .i32) false true⟩,
  ⟨[.vslidevn, .w, .n2, .vv, .m], [.vslidevn, .w, .n2, .vv, .m], 5, [⟨26, 6, 1⟩, ⟨12, 2, 2⟩, ⟨5, 1, 1⟩, ⟨2, 3, 6⟩, ⟨0, 2, 0⟩], [], [.vs1, .vs2], [.vd], .vec (.sliden false 2 .i32) false true⟩,
  ⟨[.vslidevn, .w, .n3, .vv, .m], [.vslidevn, .w, .n3, .vv, .m], 5, [⟨26, 6, 2⟩, ⟨12, 2, 2⟩, ⟨5, 1, 1⟩, ⟨2, 3, 6⟩, ⟨0, 2, 0⟩], [], [.vs1, .vs2], [.vd], .vec (.sliden false 3 .i32) false true⟩,
  ⟨[.vslidevn, .w, .n4, .vv, .m], [.vslidevn, .w, .n4, .vv, .m], 5, [⟨26, 6, 3⟩, ⟨12, 2, 2⟩, ⟨5, 1, 1⟩, ⟨2, 3, 6⟩, ⟨0, 2, 0⟩], [], [.vs1, .vs2], [.vd], .vec (.sliden false 4 .i32) false true⟩,
  ⟨[.vslidehn, .b, .n1, .vv, .m], [.vslidehn, .b, .n1, .vv, .m], 5, [⟨26, 6, 4⟩, ⟨12, 2, 0⟩, ⟨5, 1, 1⟩, ⟨2, 3, 6⟩, ⟨0, 2, 0⟩], [], [.vs1, .vs2], [.vd], .vec (.sliden true 1 .i8) false true⟩,
  ⟨[.vslidehn, .b, .n2, .vv, .m], [.vslidehn, .b, .n2, .vv, .m], 5, [⟨26, 6, 5⟩, ⟨12, 2, 0⟩, ⟨5, 1, 1⟩, ⟨2, 3, 6⟩, ⟨0, 2, 0⟩], [], [.vs1, .vs2], [.vd], .vec (.sliden true 2 .i8) false true⟩]

def g5_3 : List Row := [
  ⟨[.vslidehn, .b, .n3, .vv, .m], [.vslidehn, .b, .n3, .vv, .m], 5, [⟨26, 6, 6⟩, ⟨12, 2, 0⟩, ⟨5, 1, 1⟩, ⟨2, 3, 6⟩, ⟨0, 2, 0⟩], [], [.vs1, .vs2], [.vd], .vec (.sliden true 3 .i8) false true⟩,
  ⟨[.vslidehn, .b, .n4, .vv, .m], [.vslidehn, .b, .n4, .vv, .m], 5, [⟨26, 6, 7⟩, ⟨12, 2, 0⟩, ⟨5, 1, 1⟩, ⟨2, 3, 6⟩, ⟨0, 2, 0⟩], [], [.vs1, .vs2], [.vd], .vec (.sliden true 4 .i8) false true⟩,
  ⟨[.vslidehn, .h, .n1, .vv, .m], [.vslidehn, .h, .n1, .vv, .m], 5, [⟨26, 6, 4⟩, ⟨12, 2, 1⟩, ⟨5, 1, 1⟩, ⟨2, 3, 6⟩, ⟨0, 2, 0⟩], [], [.vs1, .vs2], [.vd], .vec (.sliden true 1 .i16) false true⟩,
  ⟨[.vslidehn, .h, .n2, .vv, .m], [.vslidehn, .h, .n2, .vv, .m], 5, [⟨26, 6, 5⟩, ⟨12, 2, 1⟩, ⟨5, 1, 1⟩, ⟨2, 3, 6⟩, ⟨0, 2, 0⟩], [], [.vs1, .vs2], [.vd], .vec (.sliden true 2 .i16) false true⟩,
  ⟨[.vslidehn, .h, .n3, .vv, .m], [.vslidehn, .h, .n3, .vv, .m], 5, [⟨26, 6, 6⟩, ⟨12, 2, 1⟩, ⟨5, 1, 1⟩, ⟨2, 3, 6⟩, ⟨0, 2, 0⟩], [], [.vs1, .vs2], [.vd], .vec (.sliden true 3 .i16) false true⟩,
  ⟨[.vslidehn, .h, .n4, .vv, .m], [.vslidehn, .h, .n4, .vv, .m], 5, [⟨26, 6, 7⟩, ⟨12, 2, 1⟩, ⟨5, 1, 1⟩, ⟨2, 3, 6⟩, ⟨0, 2, 0⟩], [], [.vs1, .vs2], [.vd], .vec (.sliden true 4 .i16) false true⟩,
  ⟨[.vslidehn, .w, .n1, .vv, .m], [.vslidehn, .w, .n1, .vv, .m], 5, [⟨26, 6, 4⟩, ⟨12, 2, 2⟩, ⟨5, 1, 1⟩, ⟨2, 3, 6⟩, ⟨0, 2, 0⟩], [], [.vs1, .vs2], [.vd], .vec (.sliden true 1 .i32) false true⟩,
  ⟨[.vslidehn, .w, .n2, .vv, .m], [.vslidehn, .w, .n2, .vv, .m], 5, [⟨26, 6, 5⟩, ⟨12, 2, 2⟩, ⟨5, 1, 1⟩, ⟨2, 3, 6⟩, ⟨0, 2, 0⟩], [], [.vs1, .vs2], [.vd], .vec (.sliden true 2 .i32) false true⟩,
  ⟨[.vslidehn, .w, .n3, .vv, .m], [.vslidehn, .w, .n3, .vv, .m], 5, [⟨26, 6, 6⟩, ⟨12, 2, 2⟩, ⟨5, 1, 1⟩, ⟨2, 3, 6⟩, ⟨0, 2, 0⟩], [], [.vs1, .vs2], [.vd], .vec (.sliden true 3 .i32) false true⟩,
  ⟨[.vslidehn, .w, .n4, .vv, .m], [.vslidehn, .w, .n4, .vv, .m], 5, [⟨26, 6, 7⟩, ⟨12, 2, 2⟩, ⟨5, 1, 1⟩, ⟨2, 3, 6⟩, ⟨0, 2, 0⟩], [], [.vs1, .vs2], [.vd], .vec (.sliden true 4 .i32) false true⟩,
  ⟨[.vslidep, .b, .n1, .vv], [.vslidep, .b, .n1, .vv], 5, [⟨26, 6, 8⟩, ⟨12, 2, 0⟩, ⟨5, 1, 0⟩, ⟨2, 3, 6⟩, ⟨0, 2, 0⟩], [], [.vs1, .vs2], [.vd], .vec (.slidep false 1 .i8) false false⟩,
  ⟨[.vslidep, .b, .n2, .vv], [.vslidep, .b, .n2, .vv], 5, [⟨26, 6, 9⟩, ⟨12, 2, 0⟩, ⟨5, 1, 0⟩, ⟨2, 3, 6⟩, ⟨0, 2, 0⟩], [], [.vs1, .vs2], [.vd], .vec (.slidep false 2 .i8) false false⟩,
  ⟨[.vslidep, .b, .n3, .vv], [.vslidep, .b, .n3, .vv], 5, [⟨26, 6, 10⟩, ⟨12, 2, 0⟩, ⟨5, 1, 0⟩, ⟨2, 3, 6⟩, ⟨0, 2, 0⟩], [], [.vs1, .vs2], [.vd], .vec (.slidep false 3 .i8) false false⟩,
  ⟨[.vslidep, .b, .n4, .vv], [.vslidep, .b, .n4, .vv], 5, [⟨26, 6, 11⟩, ⟨12, 2, 0⟩, ⟨5, 1, 0⟩, ⟨2, 3, 6⟩, ⟨0, 2, 0⟩], [], [.vs1, .vs2], [.vd], .vec (.slidep false 4 .i8) false false⟩,
  ⟨[.vslidep, .h, .n1, .vv], [.vslidep, .h, .n1, .vv], 5, [⟨26, 6, 8⟩, ⟨12, 2, 1⟩, ⟨5, 1, 0⟩, ⟨2, 3, 6⟩, ⟨0, 2, 0⟩], [], [.vs1, .vs2], [.vd], .vec (.slidep false 1 .i16) false false⟩,
  ⟨[.vslidep, .h, .n2, .vv], [.vslidep, .h, .n2, .vv], 5, [⟨26, 6, 9⟩, ⟨12, 2, 1⟩, ⟨5, 1, 0⟩, ⟨2, 3, 6⟩, ⟨0, 2, 0⟩], [], [.vs1, .vs2], [.vd], .vec (.slidep false 2 .i16) false false⟩,
  ⟨[.vslidep, .h, .n3, .vv], [.vslidep, .h, .n3, .vv], 5, [⟨26, 6, 10⟩, ⟨12, 2, 1⟩, ⟨5, 1, 0⟩, ⟨2, 3, 6⟩, ⟨0, 2, 0⟩], [], [.vs1, .vs2], [.vd], .vec (.slidep false 3 .i16) false false⟩,
  ⟨[.vslidep, .h, .n4, .vv], [.vslidep, .h, .n4, .vv], 5, [⟨26, 6, 11⟩, ⟨12, 2, 1⟩, ⟨5, 1, 0⟩, ⟨2, 3, 6⟩, ⟨0, 2, 0⟩], [], [.vs1, .vs2], [.vd], .vec (.slidep false 4 .i16) false false⟩,
  ⟨[.vslidep, .w, .n1, .vv], [.vslidep, .w, .n1, .vv], 5, [⟨26, 6, 8⟩, ⟨12, 2, 2⟩, ⟨5, 1, 0⟩, ⟨2, 3, 6⟩, ⟨0, 2, 0⟩], [], [.vs1, .vs2], [.vd], .vec (.slidep false 1 .i32) false false⟩,
  ⟨[.vslidep, .w, .n2, .vv], [.vslidep, .w, .n2, .vv], 5, [⟨26, 6, 9⟩, ⟨12, 2, 2⟩, ⟨5, 1, 0⟩, ⟨2, 3, 6⟩, ⟨0, 2, 0⟩], [], [.vs1, .vs2], [.vd], .vec (.slidep false 2 .i32) false false⟩,
  ⟨[.vslidep, .w, .n3, .vv], [.vslidep, .w, .n3, .vv], 5, [⟨26, 6, 10⟩, ⟨12, 2, 2⟩, ⟨5, 1, 0⟩, ⟨2, 3, 6⟩, ⟨0, 2, 0⟩], [], [.vs1, .vs2], [.vd], .vec (.slidep false 3 .i32) false false⟩,
  ⟨[.vslidep, .w, .n4, .vv], [.vslidep, .w, .n4, .vv], 5, [⟨26, 6, 11⟩, ⟨12, 2, 2⟩, ⟨5, 1, 0⟩, ⟨2, 3, 6⟩, ⟨0, 2, 0⟩], [], [.vs1, .vs2], [.vd], .vec (.slidep false 4 .i32) false false⟩,
  ⟨[.vslidevp, .b, .n1, .vv, .m], [.vslidevp, .b, .n1, .vv, .m], 5, [⟨26, 6, 8⟩, ⟨12, 2, 0⟩, ⟨5, 1, 1⟩, ⟨2, 3, 6⟩, ⟨0, 2, 0⟩], [], [.vs1, .vs2], [.vd], .vec (.slidep false 1 .i8) false true⟩,
  ⟨[.vslidevp, .b, .n2, .vv, .m], [.vslidevp, .b, .n2, .vv, .m], 5, [⟨26, 6, 9⟩, ⟨12, 2, 0⟩, ⟨5, 1, 1⟩, ⟨2, 3, 6⟩, ⟨0, 2, 0⟩], [], [.vs1, .vs2], [.vd], .vec (.slidep false 2 .i8) false true⟩,
  ⟨[.vslidevp, .b, .n3, .vv, .m], [.vslidevp, .b, .n3, .vv, .m], 5, [⟨26, 6, 10⟩, ⟨12, 2, 0⟩, ⟨5, 1, 1⟩, ⟨2, 3, 6⟩, ⟨0, 2, 0⟩], [], [.vs1, .vs2], [.vd], .vec (.slidep false 3 .i8) false true⟩,
  ⟨[.vslidevp, .b, .n4, .vv, .m], [.vslidevp, .b, .n4, .vv, .m], 5, [⟨26, 6, 11⟩, ⟨12, 2, 0⟩, ⟨5, 1, 1⟩, ⟨2, 3, 6⟩, ⟨0, 2, 0⟩], [], [.vs1, .vs2], [.vd], .vec (.slidep false 4 .i8) false true⟩,
  ⟨[.vslidevp, .h, .n1, .vv, .m], [.vslidevp, .h, .n1, .vv, .m], 5, [⟨26, 6, 8⟩, ⟨12, 2, 1⟩, ⟨5, 1, 1⟩, ⟨2, 3, 6⟩, ⟨0, 2, 0⟩], [], [.vs1, .vs2], [.vd], .vec (.slidep false 1 .i16) false true⟩,
  ⟨[.vslidevp, .h, .n2, .vv, .m], [.vslidevp, .h, .n2, .vv, .m], 5, [⟨26, 6, 9⟩, ⟨12, 2, 1⟩, ⟨5, 1, 1⟩, ⟨2, 3, 6⟩, ⟨0, 2, 0⟩], [], [.vs1, .vs2], [.vd], .vec (.slidep false 2 .i16) false true⟩,
  ⟨[.vslidevp, .h, .n3, .vv, .m], [.vslidevp, .h, .n3, .vv, .m], 5, [⟨26, 6, 10⟩, ⟨12, 2, 1⟩, ⟨5, 1, 1⟩, ⟨2, 3, 6⟩, ⟨0, 2, 0⟩], [], [.vs1, .vs2], [.vd], .vec (.slidep false 3 .i16) false true⟩,
  ⟨[.vslidevp, .h, .n4, .vv, .m], [.vslidevp, .h, .n4, .vv, .m], 5, [⟨26, 6, 11⟩, ⟨12, 2, 1⟩, ⟨5, 1, 1⟩, ⟨2, 3, 6⟩, ⟨0, 2, 0⟩], [], [.vs1, .vs2], [.vd], .vec (.slidep false 4 .i16) false true⟩,
  ⟨[.vslidevp, .w, .n1, .vv, .m], [.vslidevp, .w, .n1, .vv, .m], 5, [⟨26, 6, 8⟩, ⟨12, 2, 2⟩, ⟨5, 1, 1⟩, ⟨2, 3, 6⟩, ⟨0, 2, 0⟩], [], [.vs1, .vs2], [.vd], .vec (.slidep false 1 .i32) false true⟩,
  ⟨[.vslidevp, .w, .n2, .vv, .m], [.vslidevp, .w, .n2, .vv, .m], 5, [⟨26, 6, 9⟩, ⟨12, 2, 2⟩, ⟨5, 1, 1⟩, ⟨2, 3, 6⟩, ⟨0, 2, 0⟩], [], [.vs1, .vs2], [.vd], .vec (.slidep false 2 .i32) false true⟩,
  ⟨[.vslidevp, .w, .n3, .vv, .m], [.vslidevp, .w, .n3, .vv, .m], 5, [⟨26, 6, 10⟩, ⟨12, 2, 2⟩, ⟨5, 1, 1⟩, ⟨2, 3, 6⟩, ⟨0, 2, 0⟩], [], [.vs1, .vs2], [.vd], .vec (.slidep false 3 .i32) false true⟩,
  ⟨[.vslidevp, .w, .n4, .vv, .m], [.vslidevp, .w, .n4, .vv, .m], 5, [⟨26, 6, 11⟩, ⟨12, 2, 2⟩, ⟨5, 1, 1⟩, ⟨2, 3, 6⟩, ⟨0, 2, 0⟩], [], [.vs1, .vs2], [.vd], .vec (.slidep false 4 .i32) false true⟩,
  ⟨[.vslidehp, .b, .n1, .vv, .m], [.vslidehp, .b, .n1, .vv, .m], 5, [⟨26, 6, 12⟩, ⟨12, 2, 0⟩, ⟨5, 1, 1⟩, ⟨2, 3, 6⟩, ⟨0, 2, 0⟩], [], [.vs1, .vs2], [.vd], .vec (.slidep true 1 .i8) false true⟩,
  ⟨[.vslidehp, .b, .n2, .vv, .m], [.vslidehp, .b, .n2, .vv, .m], 5, [⟨26, 6, 13⟩, ⟨12, 2, 0⟩, ⟨5, 1, 1⟩, ⟨2, 3, 6⟩, ⟨0, 2, 0⟩], [], [.vs1, .vs2], [.vd], .vec (.slidep true 2 .i8) false true⟩,
  ⟨[.vslidehp, .b, .n3, .vv, .m], [.vslidehp, .b, .n3, .vv, .m], 5, [⟨26, 6, 14⟩, ⟨12, 2, 0⟩, ⟨5, 1, 1⟩, ⟨2, 3, 6⟩, ⟨0, 2, 0⟩], [], [.vs1, .vs2], [.vd], .vec (.slidep true 3 .i8) false true⟩,
  ⟨[.vslidehp, .b, .n4, .vv, .m], [.vslidehp, .b, .n4, .vv, .m], 5, [⟨26, 6, 15⟩, ⟨12, 2, 0⟩, ⟨5, 1, 1⟩, ⟨2, 3, 6⟩, ⟨0, 2, 0⟩], [], [.vs1, .vs2], [.vd], .vec (.slidep true 4 .i8) false true⟩,
  ⟨[.vslidehp, .h, .n1, .vv, .m], [.vslidehp, .h, .n1, .vv, .m], 5, [⟨26, 6, 12⟩, ⟨12, 2, 1⟩, ⟨5, 1, 1⟩, ⟨2, 3, 6⟩, ⟨0, 2, 0⟩], [], [.vs1, .vs2], [.vd], .vec (.slidep true 1 .i16) false true⟩,
  ⟨[.vslidehp, .h, .n2, .vv, .m], [.vslidehp, .h, .n2, .vv, .m], 5, [⟨26, 6, 13⟩, ⟨12, 2, 1⟩, ⟨5, 1, 1⟩, ⟨2, 3, 6⟩, ⟨0, 2, 0⟩], [], [.vs1, .vs2], [.vd], .vec (.slidep true 2 .i16) false true⟩,
  ⟨[.vslidehp, .h, .n3, .vv, .m], [.vslidehp, .h, .n3, .vv, .m], 5, [⟨26, 6, 14⟩, ⟨12, 2, 1⟩, ⟨5, 1, 1⟩, ⟨2, 3, 6⟩, ⟨0, 2, 0⟩], [], [.vs1, .vs2], [.vd], .vec (.slidep true 3 .i16) false true⟩,
  ⟨[.vslidehp, .h, .n4, .vv, .m], [.vslidehp, .h, .n4, .vv, .m], 5, [⟨26, 6, 15⟩, ⟨12, 2, 1⟩, ⟨5, 1, 1⟩, ⟨2, 3, 6⟩, ⟨0, 2, 0⟩], [], [.vs1, .vs2], [.vd], .vec (.slidep true 4 .i16) false true⟩,
  ⟨[.vslidehp, .w, .n1, .vv, .m], [.vslidehp, .w, .n1, .vv, .m], 5, [⟨26, 6, 12⟩, ⟨12, 2, 2⟩, ⟨5, 1, 1⟩, ⟨2, 3, 6⟩, ⟨0, 2, 0⟩], [], [.vs1, .vs2], [.vd], .vec (.slidep true 1 .i32) false true⟩,
  ⟨[.vslidehp, .w, .n2, .vv, .m], [.vslidehp, .w, .n2, .vv, .m], 5, [⟨26, 6, 13⟩, ⟨12, 2, 2⟩, ⟨5, 1, 1⟩, ⟨2, 3, 6⟩, ⟨0, 2, 0⟩], [], [.vs1, .vs2], [.vd], .vec (.slidep true 2 .i32) false true⟩,
  ⟨[.vslidehp, .w, .n3, .vv, .m], [.vslidehp, .w, .n3, .vv, .m], 5, [⟨26, 6, 14⟩, ⟨12, 2, 2⟩, ⟨5, 1, 1⟩, ⟨2, 3, 6⟩, ⟨0, 2, 0⟩], [], [.vs1, .vs2], [.vd], .vec (.slidep true 3 .i32) false true⟩,
  ⟨[.vslidehp, .w, .n4, .vv, .m], [.vslidehp, .w, .n4, .vv, .m], 5, [⟨26, 6, 15⟩, ⟨12, 2, 2⟩, ⟨5, 1, 1⟩, ⟨2, 3, 6⟩, ⟨0, 2, 0⟩], [], [.vs1, .vs2], [.vd], .vec (.slidep true 4 .i32) false true⟩,
  ⟨[.vsel, .b, .vv], [.vsel, .b, .vv], 5, [⟨26, 6, 16⟩, ⟨12, 2, 0⟩, ⟨5, 1, 0⟩, ⟨2, 3, 6⟩, ⟨0, 2, 0⟩], [], [.vs1, .vs2, .vd], [.vd], .vec (.ter .sel .i8) false false⟩,
  ⟨[.vsel, .b, .vx], [.vsel, .b, .vx], 5, [⟨26, 6, 16⟩, ⟨12, 2, 0⟩, ⟨5, 1, 0⟩, ⟨2, 3, 6⟩, ⟨0, 2, 2⟩], [], [.vs1, .vs2, .vd], [.vd], .vec (.ter .sel .i8) true false⟩,
  ⟨[.vsel, .b, .vv, .m], [.vsel, .b, .vv, .m], 5, [⟨26, 6, 16⟩, ⟨12, 2, 0⟩, ⟨5, 1, 1⟩, ⟨2, 3, 6⟩, ⟨0, 2, 0⟩], [], [.vs1, .vs2, .vd], [.vd], .vec (.ter .sel .i8) false true⟩,
  ⟨[.vsel, .b, .vx, .m], [.vsel, .b, .vx, .m], 5, [⟨26, 6, 16⟩, ⟨12, 2, 0⟩, ⟨5, 1, 1⟩, ⟨2, 3, 6⟩, ⟨0, 2, 2⟩], [], [.vs1, .vs2, .vd], [.vd], .vec (.ter .sel .i8) true true⟩,
  ⟨[.vsel, .h, .vv], [.vsel, .h, .vv], 5, [⟨26, 6, 16⟩, ⟨12, 2, 1⟩, ⟨5, 1, 0⟩, ⟨2, 3, 6⟩, ⟨0, 2, 0⟩], [], [.vs1, .vs2, .vd], [.vd], .vec (.ter .sel .i16) false false⟩,
  ⟨[.vsel, .h, .vx], [.vsel, .h, .vx], 5, [⟨26, 6, 16⟩, ⟨12, 2, 1⟩, ⟨5, 1, 0⟩, ⟨2, 3, 6⟩, ⟨0, 2, 2⟩], [], [.vs1, .vs2, .vd], [.vd], .vec (.ter .sel .i16) true false⟩,
  ⟨[.vsel, .h, .vv, .m], [.vsel, .h, .vv, .m], 5, [⟨26, 6, 16⟩, ⟨12, 2, 1⟩, ⟨5, 1, 1⟩, ⟨2, 3, 6⟩, ⟨0, 2, 0⟩], [], [.vs1, .vs2, .vd], [.vd], .vec (.ter .sel .i16) false true⟩,
  ⟨[.vsel, .h, .vx, .m], [.vsel, .h, .vx, .m], 5, [⟨26, 6, 16⟩, ⟨12, 2, 1⟩, ⟨5, 1, 1⟩, ⟨2, 3, 6⟩, ⟨0, 2, 2⟩], [], [.vs1, .vs2, .vd], [.vd], .vec (.ter .sel .i16) true true⟩,
  ⟨[.vsel, .w, .vv], [.vsel, .w, .vv], 5, [⟨26, 6, 16⟩, ⟨12, 2, 2⟩, ⟨5, 1, 0⟩, ⟨2, 3, 6⟩, ⟨0, 2, 0⟩], [], [.vs1, .vs2, .vd], [.vd], .vec (.ter .sel .i32) false false⟩,
  ⟨[.vsel, .w, .vx], [.vsel, .w, .vx], 5, [⟨26, 6, 16⟩, ⟨12, 2, 2⟩, ⟨5, 1, 0⟩, ⟨2, 3, 6⟩, ⟨0, 2, 2⟩], [], [.vs1, .vs2, .vd], [.vd], .vec (.ter .sel .i32) true false⟩,
  ⟨[.vsel, .w, .vv, .m], [.vsel, .w, .vv, .m], 5, [⟨26, 6, 16⟩, ⟨12, 2, 2⟩, ⟨5, 1, 1⟩, ⟨2, 3, 6⟩, ⟨0, 2, 0⟩], [], [.vs1, .vs2, .vd], [.vd], .vec (.ter .sel .i32) false true⟩,
  ⟨[.vsel, .w, .vx, .m], [.vsel, .w, .vx, .m], 5, [⟨26, 6, 16⟩, ⟨12, 2, 2⟩, ⟨5, 1, 1⟩, ⟨2, 3, 6⟩, ⟨0, 2, 2⟩], [], [.vs1, .vs2, .vd], [.vd], .vec (.ter .sel .i32) true true⟩,
  ⟨[.vevn, .b, .vv], [.vevn, .b, .vv], 5, [⟨26, 6, 24⟩, ⟨12, 2, 0⟩, ⟨5, 1, 0⟩, ⟨2, 3, 6⟩, ⟨0, 2, 0⟩], [], [.vs1, .vs2], [.vd], .vec (.evn .i8) false false⟩,
  ⟨[.vevn, .b, .vx], [.vevn, .b, .vx], 5, [⟨26, 6, 24⟩, ⟨12, 2, 0⟩, ⟨5, 1, 0⟩, ⟨2, 3, 6⟩, ⟨0, 2, 2⟩], [], [.vs1, .vs2], [.vd], .vec (.evn .i8) true false⟩]

def g5_4 : List Row := [
  ⟨[.vevn, .b, .vv, .m], [.vevn, .b, .vv, .m], 5, [⟨26, 6, 24⟩, ⟨12, 2, 0⟩, ⟨5, 1, 1⟩, ⟨2, 3, 6⟩, ⟨0, 2, 0⟩], [], [.vs1, .vs2], [.vd], .vec (.evn .i8) false true⟩,
  ⟨[.vevn, .b, .vx, .m], [.vevn, .b, .vx, .m], 5, [⟨26, 6, 24⟩, ⟨12, 2, 0⟩, ⟨5, 1, 1⟩, ⟨2, 3, 6⟩, ⟨0, 2, 2⟩], [], [.vs1, .vs2], [.vd], .vec (.evn .i8) true true⟩,
  ⟨[.vevn, .h, .vv], [.vevn, .h, .vv], 5, [⟨26, 6, 24⟩, ⟨12, 2, 1⟩, ⟨5, 1, 0⟩, ⟨2, 3, 6⟩, ⟨0, 2, 0⟩], [], [.vs1, .vs2], [.vd], .vec (.evn .i16) false false⟩,
  ⟨[.vevn, .h, .vx], [.vevn, .h, .vx], 5, [⟨26, 6, 24⟩, ⟨12, 2, 1⟩, ⟨5, 1, 0⟩, ⟨2, 3, 6⟩, ⟨0, 2, 2⟩], [], [.vs1, .vs2], [.vd], .vec (.evn .i16) true false⟩,
  ⟨[.vevn, .h, .vv, .m], [.vevn, .h, .vv, .m], 5, [⟨26, 6, 24⟩, ⟨12, 2, 1⟩, ⟨5, 1, 1⟩, ⟨2, 3, 6⟩, ⟨0, 2, 0⟩], [], [.vs1, .vs2], [.vd], .vec (.evn .i16) false true⟩,
  ⟨[.vevn, .h, .vx, .m], [.vevn, .h, .vx, .m], 5, [⟨26, 6, 24⟩, ⟨12, 2, 1⟩, ⟨5, 1, 1⟩, ⟨2, 3, 6⟩, ⟨0, 2, 2⟩], [], [.vs1, .vs2], [.vd], .vec (.evn .i16) true true⟩,
  ⟨[.vevn, .w, .vv], [.vevn, .w, .vv], 5, [⟨26, 6, 24⟩, ⟨12, 2, 2⟩, ⟨5, 1, 0⟩, ⟨2, 3, 6⟩, ⟨0, 2, 0⟩], [], [.vs1, .vs2], [.vd], .vec (.evn .i32) false false⟩,
  ⟨[.vevn, .w, .vx], [.vevn, .w, .vx], 5, [⟨26, 6, 24⟩, ⟨12, 2, 2⟩, ⟨5, 1, 0⟩, ⟨2, 3, 6⟩, ⟨0, 2, 2⟩], [], [.vs1, .vs2], [.vd], .vec (.evn .i32) true false⟩,
  ⟨[.vevn, .w, .vv, .m], [.vevn, .w, .vv, .m], 5, [⟨26, 6, 24⟩, ⟨12, 2, 2⟩, ⟨5, 1, 1⟩, ⟨2, 3, 6⟩, ⟨0, 2, 0⟩], [], [.vs1, .vs2], [.vd], .vec (.evn .i32) false true⟩,
  ⟨[.vevn, .w, .vx, .m], [.vevn, .w, .vx, .m], 5, [⟨26, 6, 24⟩, ⟨12, 2, 2⟩, ⟨5, 1, 1⟩, ⟨2, 3, 6⟩, ⟨0, 2, 2⟩], [], [.vs1, .vs2], [.vd], .vec (.evn .i32) true true⟩,
  ⟨[.vodd, .b, .vv], [.vodd, .b, .vv], 5, [⟨26, 6, 25⟩, ⟨12, 2, 0⟩, ⟨5, 1, 0⟩, ⟨2, 3, 6⟩, ⟨0, 2, 0⟩], [], [.vs1, .vs2], [.vd], .vec (.odd .i8) false false⟩,
  ⟨[.vodd, .b, .vx], [.vodd, .b, .vx], 5, [⟨26, 6, 25⟩, ⟨12, 2, 0⟩, ⟨5, 1, 0⟩, ⟨2, 3, 6⟩, ⟨0, 2, 2⟩], [], [.vs1, .vs2], [.vd], .vec (.odd .i8) true false⟩,
  ⟨[.vodd, .b, .vv, .m], [.vodd, .b, .vv, .m], 5, [⟨26, 6, 25⟩, ⟨12, 2, 0⟩, ⟨5, 1, 1⟩, ⟨2, 3, 6⟩, ⟨0, 2, 0⟩], [], [.vs1, .vs2], [.vd], .vec (.odd .i8) false true⟩,
  ⟨[.vodd, .b, .vx, .m], [.vodd, .b, .vx, .m], 5, [⟨26, 6, 25⟩, ⟨12, 2, 0⟩, ⟨5, 1, 1⟩, ⟨2, 3, 6⟩, ⟨0, 2, 2⟩], [], [.vs1, .vs2], [.vd], .vec (.odd .i8) true true⟩,
  ⟨[.vodd, .h, .vv], [.vodd, .h, .vv], 5, [⟨26, 6, 25⟩, ⟨12, 2, 1⟩, ⟨5, 1, 0⟩, ⟨2, 3, 6⟩, ⟨0, 2, 0⟩], [], [.vs1, .vs2], [.vd], .vec (.odd .i16) false false⟩,
  ⟨[.vodd, .h, .vx], [.vodd, .h, .vx], 5, [⟨26, 6, 25⟩, ⟨12, 2, 1⟩, ⟨5, 1, 0⟩, ⟨2, 3, 6⟩, ⟨0, 2, 2⟩], [], [.vs1, .vs2], [.vd], .vec (.odd .i16) true false⟩,
  ⟨[.vodd, .h, .vv, .m], [.vodd, .h, .vv, .m], 5, [⟨26, 6, 25⟩, ⟨12, 2, 1⟩, ⟨5, 1, 1⟩, ⟨2, 3, 6⟩, ⟨0, 2, 0⟩], [], [.vs1, .vs2], [.vd], .vec (.odd .i16) false true⟩,
  ⟨[.vodd, .h, .vx, .m], [.vodd, .h, .vx, .m], 5, [⟨26, 6, 25⟩, ⟨12, 2, 1⟩, ⟨5, 1, 1⟩, ⟨2, 3, 6⟩, ⟨0, 2, 2⟩], [], [.vs1, .vs2], [.vd], .vec (.odd .i16) true true⟩,
  ⟨[.vodd, .w, .vv], [.vodd, .w, .vv], 5, [⟨26, 6, 25⟩, ⟨12, 2, 2⟩, ⟨5, 1, 0⟩, ⟨2, 3, 6⟩, ⟨0, 2, 0⟩], [], [.vs1, .vs2], [.vd], .vec (.odd .i32) false false⟩,
  ⟨[.vodd, .w, .vx], [.vodd, .w, .vx], 5, [⟨26, 6, 25⟩, ⟨12, 2, 2⟩, ⟨5, 1, 0⟩, ⟨2, 3, 6⟩, ⟨0, 2, 2⟩], [], [.vs1, .vs2], [.vd], .vec (.odd .i32) true false⟩,
  ⟨[.vodd, .w, .vv, .m], [.vodd, .w, .vv, .m], 5, [⟨26, 6, 25⟩, ⟨12, 2, 2⟩, ⟨5, 1, 1⟩, ⟨2, 3, 6⟩, ⟨0, 2, 0⟩], [], [.vs1, .vs2], [.vd], .vec (.odd .i32) false true⟩,
  ⟨[.vodd, .w, .vx, .m], [.vodd, .w, .vx, .m], 5, [⟨26, 6, 25⟩, ⟨12, 2, 2⟩, ⟨5, 1, 1⟩, ⟨2, 3, 6⟩, ⟨0, 2, 2⟩], [], [.vs1, .vs2], [.vd], .vec (.odd .i32) true true⟩,
  ⟨[.vevnodd, .b, .vv], [.vevnodd, .b, .vv], 5, [⟨26, 6, 26⟩, ⟨12, 2, 0⟩, ⟨5, 1, 0⟩, ⟨2, 3, 6⟩, ⟨0, 2, 0⟩], [], [.vs1, .vs2], [.vd], .vec (.evnodd .i8) false false⟩,
  ⟨[.vevnodd, .b, .vx], [.vevnodd, .b, .vx], 5, [⟨26, 6, 26⟩, ⟨12, 2, 0⟩, ⟨5, 1, 0⟩, ⟨2, 3, 6⟩, ⟨0, 2, 2⟩], [], [.vs1, .vs2], [.vd], .vec (.evnodd .i8) true false⟩,
  ⟨[.vevnodd, .b, .vv, .m], [.vevnodd, .b, .vv, .m], 5, [⟨26, 6, 26⟩, ⟨12, 2, 0⟩, ⟨5, 1, 1⟩, ⟨2, 3, 6⟩, ⟨0, 2, 0⟩], [], [.vs1, .vs2], [.vd], .vec (.evnodd .i8) false true⟩,
  ⟨[.vevnodd, .b, .vx, .m], [.vevnodd, .b, .vx, .m], 5, [⟨26, 6, 26⟩, ⟨12, 2, 0⟩, ⟨5, 1, 1⟩, ⟨2, 3, 6⟩, ⟨0, 2, 2⟩], [], [.vs1, .vs2], [.vd], .vec (.evnodd .i8) true true⟩,
  ⟨[.vevnodd, .h, .vv], [.vevnodd, .h, .vv], 5, [⟨26, 6, 26⟩, ⟨12, 2, 1⟩, ⟨5, 1, 0⟩, ⟨2, 3, 6⟩, ⟨0, 2, 0⟩], [], [.vs1, .vs2], [.vd], .vec (.evnodd .i16) false false⟩,
  ⟨[.vevnodd, .h, .vx], [.vevnodd, .h, .vx], 5, [⟨26, 6, 26⟩, ⟨12, 2, 1⟩, ⟨5, 1, 0⟩, ⟨2, 3, 6⟩, ⟨0, 2, 2⟩], [], [.vs1, .vs2], [.vd], .vec (.evnodd .i16) true false⟩,
  ⟨[.vevnodd, .h, .vv, .m], [.vevnodd, .h, .vv, .m], 5, [⟨26, 6, 26⟩, ⟨12, 2, 1⟩, ⟨5, 1, 1⟩, ⟨2, 3, 6⟩, ⟨0, 2, 0⟩], [], [.vs1, .vs2], [.vd], .vec (.evnodd .i16) false true⟩,
  ⟨[.vevnodd, .h, .vx, .m], [.vevnodd, .h, .vx, .m], 5, [⟨26, 6, 26⟩, ⟨12, 2, 1⟩, ⟨5, 1, 1⟩, ⟨2, 3, 6⟩, ⟨0, 2, 2⟩], [], [.vs1, .vs2], [.vd], .vec (.evnodd .i16) true true⟩,
  ⟨[.vevnodd, .w, .vv], [.vevnodd, .w, .vv], 5, [⟨26, 6, 26⟩, ⟨12, 2, 2⟩, ⟨5, 1, 0⟩, ⟨2, 3, 6⟩, ⟨0, 2, 0⟩], [], [.vs1, .vs2], [.vd], .vec (.evnodd .i32) false false⟩,
  ⟨[.vevnodd, .w, .vx], [.vevnodd, .w, .vx], 5, [⟨26, 6, 26⟩, ⟨12, 2, 2⟩, ⟨5, 1, 0⟩, ⟨2, 3, 6⟩, ⟨0, 2, 2⟩], [], [.vs1, .vs2], [.vd], .vec (.evnodd .i32) true false⟩,
  ⟨[.vevnodd, .w, .vv, .m], [.vevnodd, .w, .vv, .m], 5, [⟨26, 6, 26⟩, ⟨12, 2, 2⟩, ⟨5, 1, 1⟩, ⟨2, 3, 6⟩, ⟨0, 2, 0⟩], [], [.vs1, .vs2], [.vd], .vec (.evnodd .i32) false true⟩,
  ⟨[.vevnodd, .w, .vx, .m], [.vevnodd, .w, .vx, .m], 5, [⟨26, 6, 26⟩, ⟨12, 2, 2⟩, ⟨5, 1, 1⟩, ⟨2, 3, 6⟩, ⟨0, 2, 2⟩], [], [.vs1, .vs2], [.vd], .vec (.evnodd .i32) true true⟩,
  ⟨[.vzip, .b, .vv], [.vzip, .b, .vv], 5, [⟨26, 6, 28⟩, ⟨12, 2, 0⟩, ⟨5, 1, 0⟩, ⟨2, 3, 6⟩, ⟨0, 2, 0⟩], [], [.vs1, .vs2], [.vd], .vec (.zip .i8) false false⟩,
  ⟨[.vzip, .b, .vx], [.vzip, .b, .vx], 5, [⟨26, 6, 28⟩, ⟨12, 2, 0⟩, ⟨5, 1, 0⟩, ⟨2, 3, 6⟩, ⟨0, 2, 2⟩], [], [.vs1, .vs2], [.vd], .vec (.zip .i8) true false⟩,
  ⟨[.vzip, .b, .vv, .m], [.vzip, .b, .vv, .m], 5, [⟨26, 6, 28⟩, ⟨12, 2, 0⟩, ⟨5, 1, 1⟩, ⟨2, 3, 6⟩, ⟨0, 2, 0⟩], [], [.vs1, .vs2], [.vd], .vec (.zip .i8) false true⟩,
  ⟨[.vzip, .b, .vx, .m], [.vzip, .b, .vx, .m], 5, [⟨26, 6, 28⟩, ⟨12, 2, 0⟩, ⟨5, 1, 1⟩, ⟨2, 3, 6⟩, ⟨0, 2, 2⟩], [], [.vs1, .vs2], [.vd], .vec (.zip .i8) true true⟩,
  ⟨[.vzip, .h, .vv], [.vzip, .h, .vv], 5, [⟨26, 6, 28⟩, ⟨12, 2, 1⟩, ⟨5, 1, 0⟩, ⟨2, 3, 6⟩, ⟨0, 2, 0⟩], [], [.vs1, .vs2], [.vd], .vec (.zip .i16) false false⟩,
  ⟨[.vzip, .h, .vx], [.vzip, .h, .vx], 5, [⟨26, 6, 28⟩, ⟨12, 2, 1⟩, ⟨5, 1, 0⟩, ⟨2, 3, 6⟩, ⟨0, 2, 2⟩], [], [.vs1, .vs2], [.vd], .vec (.zip .i16) true false⟩,
  ⟨[.vzip, .h, .vv, .m], [.vzip, .h, .vv, .m], 5, [⟨26, 6, 28⟩, ⟨12, 2, 1⟩, ⟨5, 1, 1⟩, ⟨2, 3, 6⟩, ⟨0, 2, 0⟩], [], [.vs1, .vs2], [.vd], .vec (.zip .i16) false true⟩,
  ⟨[.vzip, .h, .vx, .m], [.vzip, .h, .vx, .m], 5, [⟨26, 6, 28⟩, ⟨12, 2, 1⟩, ⟨5, 1, 1⟩, ⟨2, 3, 6⟩, ⟨0, 2, 2⟩], [], [.vs1, .vs2], [.vd], .vec (.zip .i16) true true⟩,
  ⟨[.vzip, .w, .vv], [.vzip, .w, .vv], 5, [⟨26, 6, 28⟩, ⟨12, 2, 2⟩, ⟨5, 1, 0⟩, ⟨2, 3, 6⟩, ⟨0, 2, 0⟩], [], [.vs1, .vs2], [.vd], .vec (.zip .i32) false false⟩,
  ⟨[.vzip, .w, .vx], [.vzip, .w, .vx], 5, [⟨26, 6, 28⟩, ⟨12, 2, 2⟩, ⟨5, 1, 0⟩, ⟨2, 3, 6⟩, ⟨0, 2, 2⟩], [], [.vs1, .vs2], [.vd], .vec (.zip .i32) true false⟩,
  ⟨[.vzip, .w, .vv, .m], [.vzip, .w, .vv, .m], 5, [⟨26, 6, 28⟩, ⟨12, 2, 2⟩, ⟨5, 1, 1⟩, ⟨2, 3, 6⟩, ⟨0, 2, 0⟩], [], [.vs1, .vs2], [.vd], .vec (.zip .i32) false true⟩,
  ⟨[.vzip, .w, .vx, .m], [.vzip, .w, .vx, .m], 5, [⟨26, 6, 28⟩, ⟨12, 2, 2⟩, ⟨5, 1, 1⟩, ⟨2, 3, 6⟩, ⟨0, 2, 2⟩], [], [.vs1, .vs2], [.vd], .vec (.zip .i32) true true⟩]

def group5 : List Row := g5_0 ++ g5_1 ++ g5_2 ++ g5_3 ++ g5_4

end Verif.Model.Gen
