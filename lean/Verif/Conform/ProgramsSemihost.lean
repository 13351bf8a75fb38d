import Verif.Conform.Programs
import Verif.Conform.ImagesSemihost

/-!
# Semihosting programs of `/repo/sim/test/coralnpu_top_test.cc`

The programs of `RunHelloProgramSemihost`, `RunRV32IProgram` and `RunRV32MProgram`, executed to the end: they exit through semihosting and print
what the tests expect. The numbers of instructions are not in the tests.
-/

namespace Verif.Conform.Exec

theorem conform_helloWorld :
    run ⟨0x27200, 0xfffff000, 0x1000, true⟩ 0 4000 (startAt 0x10170 helloWorld) rest =
      some (.exit, 130964, 2929, text "Hello, World! 7\n") := by decide +kernel

theorem conform_rv32i :
    run ⟨0x27200, 0xfffff000, 0x1000, true⟩ 0 4000 (startAt 0x10170 rv32i) rest = some (.exit, 131092, 3434, text "5+5=10;5-5=0\n") := by
  decide +kernel

theorem conform_rv32m :
    run ⟨0x27200, 0xfffff000, 0x1000, true⟩ 0 4000 (startAt 0x10170 rv32m) rest = some (.exit, 131108, 3436, text "5*5=25;5/5=1\n") := by
  decide +kernel

end Verif.Conform.Exec
