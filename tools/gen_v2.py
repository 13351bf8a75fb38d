#!/usr/bin/env python3
"""Generates Verif/Gen/V2Rows.lean and Verif/Gen/V2Keys.lean from the tables of the second core."""
import os, re, sys
sys.path.insert(0, os.path.dirname(os.path.abspath(__file__)))
from v2_tables import isa, parse

OUT = '/verif/lean/Verif/Gen/'


def parts(ops):
    """Source and destination operand names of the instruction and its children."""
    items = re.findall(r'\(([^()]*)\)', ops) if ops.startswith('(') else [ops]
    out = []
    for it in items:
        seg = [[x.strip() for x in s.split(',') if x.strip()] for s in re.sub(r'\(\d+\)', '', it).split(':')]
        seg += [[]] * (3 - len(seg))
        assert len(seg) == 3 and not seg[0], ops
        out.append((seg[1], seg[2]))
    return out if ops else [([], [])]


def q(s):
    return '"' + s.replace('\\', '\\\\').replace('"', '\\"') + '"'


def L(xs):
    return '[' + ', '.join(xs) + ']'


def main():
    _, groups = parse()
    table = isa()
    lines, keys = [], []
    for g, rows in groups:
        for name, fmt, cons in rows:
            info = table[name]
            F = lambda op: L(f'⟨{p}, {w}, {v}⟩' for o, p, w, v in cons if o == op)
            ps = L(f'({L(map(q, a))}, {L(map(q, b))})' for a, b in parts(info['ops']))
            lines.append((g, f'⟨{q(name)}, {F("==")}, {F("!=")}, {F(">")}, {F("<")}, {q(info["disasm"])}, '
                             f'{L(map(q, info["args"]))}, {ps}, {L(map(q, info["sem"]))}⟩'))
            ones = zeros = 0
            for o, p, w, v in cons:
                if o == '==':
                    ones |= v << p
                    zeros |= ((1 << w) - 1 ^ v) << p
            assert not ones & zeros
            keys.append(ones | zeros << 32)
    with open(OUT + 'V2Rows.lean', 'w') as f:
        f.write('import Verif.Model.V2Isa\n\n'
                '/-! Generated by tools/gen_v2.py from the instruction groups of the decoder `CoralNPUV2Inst32`\n'
                '(/repo/sim/coralnpu_v2.bin_fmt) and the opcodes of /repo/sim/coralnpu_v2.isa. -/\n\n'
                'namespace Verif.Model.V2Isa.Gen\n\n')
        names = []
        for g, rows in groups:
            mine = [l for h, l in lines if h == g]
            for c in range(0, len(mine), 50):
                nm = g[0].lower() + g[1:] + (f'_{c // 50}' if len(mine) > 50 else '')
                names.append(nm)
                f.write(f'def {nm} : List Row := [\n  ' + ',\n  '.join(mine[c:c + 50]) + ']\n\n')
        f.write('end Verif.Model.V2Isa.Gen\n\nnamespace Verif.Model.V2Isa\n\n'
                '/-- The rows of the decoder `CoralNPUV2Inst32` (coralnpu_v2.bin_fmt 21-35). -/\n'
                'def rows : List Row :=\n  ' + ' ++\n  '.join('Gen.' + n for n in names) + '\n\nend Verif.Model.V2Isa\n')
    with open(OUT + 'V2Keys.lean', 'w') as f:
        f.write('/-! Generated by tools/gen_v2.py: the bits fixed by each row (ones in the low half, zeros in the\n'
                'high half). `Verif.Proofs.V2Decode` checks them against the rows. -/\n\n'
                'namespace Verif.Proofs.V2Isa\n\ndef keys : List Nat := [\n')
        for c in range(0, len(keys), 5):
            f.write('  ' + ', '.join(map(str, keys[c:c + 5])) + (',\n' if c + 5 < len(keys) else ']\n\n'))
        f.write('end Verif.Proofs.V2Isa\n')


if __name__ == "__main__":
    main()
