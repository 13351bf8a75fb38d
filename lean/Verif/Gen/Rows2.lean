import Verif.Model.Isa

/-! Generated by tools/gen_rows.py from the instruction group `CoralNPUVectorConvInst` of
/repo/sim/coralnpu_conv.bin_fmt and the opcodes of the `.isa` files. -/

namespace Verif.Model.Gen

def g2_0 : List Row := [
  ⟨[.aconv, .vxv], [.aconv, .vxv], 2, [⟨12, 2, 2⟩, ⟨3, 2, 0⟩, ⟨6, 6, 48⟩, ⟨14, 4, 0⟩, ⟨26, 3, 0⟩, ⟨5, 1, 0⟩, ⟨0, 3, 5⟩], [⟨20, 6, 0⟩], [.vs1, .vs2, .vs3], [.vd], .aconv⟩,
  ⟨[.adwconv, .vxv], [.adwconv, .vxv], 2, [⟨12, 2, 2⟩, ⟨3, 2, 2⟩, ⟨6, 2, 0⟩, ⟨25, 1, 1⟩, ⟨5, 1, 0⟩, ⟨0, 3, 5⟩], [], [.vs1, .rs2, .vs3], [.vd], .dwconv false⟩,
  ⟨[.vdwconv, .vxv], [.adwconv, .vxv], 2, [⟨12, 2, 2⟩, ⟨3, 2, 2⟩, ⟨6, 2, 0⟩, ⟨25, 1, 0⟩, ⟨5, 1, 0⟩, ⟨0, 3, 5⟩], [], [.vs1, .rs2, .vs3], [.vd], .dwconv true⟩]

def group2 : List Row := g2_0

end Verif.Model.Gen
