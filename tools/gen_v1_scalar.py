#!/usr/bin/env python3
"""Generates Verif/Gen/V1Scalar.lean: the instruction group CoralNPUInst with operands, functions and text."""
import os, sys
sys.path.insert(0, os.path.dirname(os.path.abspath(__file__)))
from isa_tables import parse_bin, parse_isa
from gen_v2 import L, OUT, parts, q


def main():
    table = parse_isa()
    lines, keys = [], []
    for name, eq, ne in parse_bin()['CoralNPUInst']:
        info = table[name]
        F = lambda l: L(f'⟨{p}, {w}, {v}⟩' for p, w, v in l)
        ps = L(f'({L(map(q, a))}, {L(map(q, b))})' for a, b in parts(info['ops']))
        lines.append(f'⟨{q(name)}, {F(eq)}, {F(ne)}, [], [], {q(info["disasm"])}, '
                     f'{L(map(q, info["args"]))}, {ps}, {L(map(q, info["sem"]))}⟩')
        ones = zeros = 0
        for p, w, v in eq:
            ones |= v << p
            zeros |= ((1 << w) - 1 ^ v) << p
        keys.append(ones | zeros << 32)
    with open(OUT + 'V1Scalar.lean', 'w') as f:
        f.write('import Verif.Model.V2Isa\n\n'
                '/-! Generated by tools/gen_v1_scalar.py from the instruction group `CoralNPUInst` of\n'
                '/repo/sim/coralnpu_base.bin_fmt and the opcodes of coralnpu_base.isa and coralnpu_memory.isa. `keys` are the\n'
                'bits fixed by each row, checked in `Verif.Proofs.V1Scalar`. -/\n\n'
                'namespace Verif.Model.V1Scalar\nopen Verif.Model\n\n')
        names = []
        for c in range(0, len(lines), 40):
            names.append(f'rows{c // 40}')
            f.write(f'def rows{c // 40} : List V2Isa.Row := [\n  ' + ',\n  '.join(lines[c:c + 40]) + ']\n\n')
        f.write('/-- The rows of the group. -/\ndef rows : List V2Isa.Row := ' + ' ++ '.join(names) + '\n\n')
        f.write('def keys : List Nat := [\n')
        for c in range(0, len(keys), 5):
            f.write('  ' + ', '.join(map(str, keys[c:c + 5])) + (',\n' if c + 5 < len(keys) else ']\n\n'))
        f.write('end Verif.Model.V1Scalar\n')


main()
