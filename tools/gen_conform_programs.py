#!/usr/bin/env python3
"""Write the loadable segments of test programs of /repo as numbers (little endian) to Verif/Conform/Images.lean."""
import struct
FILES = {'vldvst': 'coralnpu_vldvst.elf', 'perfCounters': 'coralnpu_perf_counters.elf', 'helloMpause': 'hello_world_mpause.elf'}
out = []
for name, file in FILES.items():
    e = open('/repo/sim/test/testfiles/' + file, 'rb').read()
    ph, n, entry = struct.unpack_from('<I', e, 28)[0], struct.unpack_from('<H', e, 44)[0], struct.unpack_from('<I', e, 24)[0]
    loads = [p for p in (struct.unpack_from('<8I', e, ph + 32 * i) for i in range(n)) if p[0] == 1]
    assert len(loads) == 1 and entry == 0
    _, off, _, pa, fsz, _, _, _ = loads[0]
    assert pa == 0
    seg = e[off:off + fsz]
    if name == 'helloMpause':
        assert seg == open('/repo/sim/test/testfiles/hello_world_mpause.bin', 'rb').read()
    out.append(f'/-- `{file}`: {fsz} bytes. -/\ndef {name} : Nat :=\n  {hex(int.from_bytes(seg, "little"))}\n')
SEMI = {'rv32i': 'rv32i.elf', 'rv32m': 'rv32m.elf', 'helloWorld': 'hello_world_rv32imf.elf'}
semi = []
for name, file in SEMI.items():
    e = open('/repo/sim/test/testfiles/' + file, 'rb').read()
    ph, n, entry = struct.unpack_from('<I', e, 28)[0], struct.unpack_from('<H', e, 44)[0], struct.unpack_from('<I', e, 24)[0]
    loads = [p for p in (struct.unpack_from('<8I', e, ph + 32 * i) for i in range(n)) if p[0] == 1]
    assert entry == 0x10170 and loads[0][3] == 0x10000
    seg = bytearray(loads[-1][3] + loads[-1][4] - 0x10000)
    for _, off, _, pa, fsz, _, _, _ in loads:
        seg[pa - 0x10000:pa - 0x10000 + fsz] = e[off:off + fsz]
    semi.append(f'/-- `{file}`: {len(seg)} bytes. -/\ndef {name} : Nat :=\n  {hex(int.from_bytes(seg, "little"))}\n')
with open('lean/Verif/Conform/ImagesSemihost.lean', 'w') as f:
    f.write('''/-!
The loadable segments of programs in `/repo/sim/test/testfiles` that use semihosting, each for address 0x10000 with entry point 0x10170, as
little-endian numbers with zeros between the segments. Generated by `tools/gen_conform_programs.py`.
-/

namespace Verif.Conform.Exec

''' + '\n'.join(semi) + '\nend Verif.Conform.Exec\n')
with open('lean/Verif/Conform/Images.lean', 'w') as f:
    f.write('''/-!
The loadable segments of programs in `/repo/sim/test/testfiles`, each for address 0 with entry point 0, as little-endian numbers. Generated by
`tools/gen_conform_programs.py`, which also checks that `hello_world_mpause.bin` is the segment of `hello_world_mpause.elf`.
-/

namespace Verif.Conform.Exec

''' + '\n'.join(out) + '\nend Verif.Conform.Exec\n')
