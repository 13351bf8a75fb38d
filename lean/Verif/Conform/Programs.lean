import Verif.Conform.Exec
import Verif.Conform.Images

/-!
# Programs of `/repo/sim/test/coralnpu_top_test.cc`

The programs of `RunCoralNPUVectorProgram`, `RunCoralNPUPerfCountersProgram` and `RunHelloMpauseProgram` (also `RunBinProgram` of
`/repo/sim/renode/test/coralnpu_renode_test.cc`), executed to the end: they reach `mpause`, and the first one prints what the test expects. The first fills an array with pseudo-random words, moves it with
`vld.w.x` and `vst.w.x` and compares; the second starts with `vdup.w.x.m` to all registers, `acset` and `adwinit` and checks that `mcycle` and
`minstret` carry into their high halves, and would reach `ebreak` if they did not. The numbers of instructions are not in the tests.
-/

namespace Verif.Conform.Exec

def text (s : String) : List (BitVec 8) := s.toList.map fun c => BitVec.ofNat 8 c.toNat

theorem conform_vldVst :
    run ⟨0x3200, 0x3ffd00, 0x300, false⟩ 0x300 4000 (start vldvst) rest = some (.mpause, 0xe0, 3072, text "vld_vst test passed!\n") := by
  decide +kernel

theorem conform_perfCounters :
    run ⟨0x2400, 0x3fef00, 0x1100, false⟩ 0 400 (start perfCounters) rest = some (.mpause, 0x14c, 393, []) := by decide +kernel

theorem conform_helloMpause :
    run ⟨0xe00, 0x3fef00, 0x1100, false⟩ 0 12000 (start helloMpause) rest = some (.mpause, 0xe0, 11386, []) := by decide +kernel

/-- The words of `main` in `hello_world_rv32imf.elf`, which `HelloWorldMain` of `/repo/sim/test/coralnpu_decoder_test.cc` decodes. -/
def mainWords : List Nat :=
  [0xfe010113, 0x112e23, 0x812c23, 0x2010413, 0x247b7, 0x2f078793, 0xfef42623, 0x700613, 0xfec42583,
   0x247b7, 0x30078513, 0x1d4000ef, 0x793, 0x78513, 0x1c12083, 0x1812403, 0x2010113, 0x8067]

/-- Each is found in the decode table. -/
theorem conform_helloWorldMain : mainWords.all (fun w => (row w).isSome) = true := by decide +kernel

end Verif.Conform.Exec
