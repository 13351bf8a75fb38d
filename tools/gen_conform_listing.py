"""Prints lean/Verif/Conform/ListingCases.lean: the words and mnemonics of the listing
/repo/sim/test/testfiles/coralnpu_v2_rvv_add_intrinsic.disassm."""
import re

print('''/-!
# The listing of the RVV test program

Generated by `tools/gen_conform_listing.py` from `/repo/sim/test/testfiles/coralnpu_v2_rvv_add_intrinsic.disassm`: word and
mnemonic of every line.
-/

namespace Verif.Conform.V2

def listing : List (BitVec 32 × String) := [''')
rows = []
for l in open('/repo/sim/test/testfiles/coralnpu_v2_rvv_add_intrinsic.disassm'):
    m = re.match(r'\s*([0-9a-f]+):\t([0-9a-f]{8})\s+\t(\S+)', l)
    if m:
        rows.append(f'  (0x{m[2]}, "{m[3]}")')
print(',\n'.join(rows) + ']')
print('\nend Verif.Conform.V2')
