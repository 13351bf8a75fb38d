#!/usr/bin/env python3
"""Write the loadable segment of /repo's coralnpu_ebreak.elf as a number (little endian) to Verif/Conform/EbreakImage.lean."""
import struct, sys
e = open('/repo/sim/test/testfiles/coralnpu_ebreak.elf', 'rb').read()
ph, n, entry = struct.unpack_from('<I', e, 28)[0], struct.unpack_from('<H', e, 44)[0], struct.unpack_from('<I', e, 24)[0]
loads = [p for p in (struct.unpack_from('<8I', e, ph + 32 * i) for i in range(n)) if p[0] == 1]
assert len(loads) == 1
_, off, _, pa, fsz, _, _, _ = loads[0]
assert pa == 0
with open('lean/Verif/Conform/EbreakImage.lean', 'w') as f:
    f.write(f'''/-!
The loadable segment of `/repo/sim/test/testfiles/coralnpu_ebreak.elf`: {fsz} bytes for address 0, as a little-endian number. Generated by
`tools/gen_conform_ebreak.py`.
-/

namespace Verif.Conform.Renode

def entry : Nat := {entry}

def image : Nat :=
  {hex(int.from_bytes(e[off:off + fsz], 'little'))}

end Verif.Conform.Renode
''')
