"""Generate Verif/Gen/V1Text.lean: the operand part of the disassembly templates of the vector rows, in the order of the
encoding rows, and the characters of the parts of their mnemonics."""
import os
import re
import sys
sys.path.insert(0, os.path.dirname(__file__))
from isa_tables import GROUPS, parse_bin, parse_isa  # noqa: E402
from gen_rows import OPD, tok  # noqa: E402

OUT = os.path.join(os.path.dirname(os.path.abspath(__file__)), '../lean/Verif/Gen/V1Text.lean')


def chars(s):
    return '[' + ', '.join(f"'{c}'" for c in s) + ']'


def pieces(args):
    assert len(args) == 1, args
    out = []
    for lit, op in re.findall(r'([^%]*)%(\w+)', args[0]):
        if lit:
            out.append(f'.lit {chars(lit)}')
        out.append(f'.op .{OPD[op]}')
    assert ''.join(a + '%' + b for a, b in re.findall(r'([^%]*)%(\w+)', args[0])) == args[0]
    return '[' + ', '.join(out) + ']'


def main():
    isa, groups = parse_isa(), parse_bin()
    toks, seq, defs = [], [], {}
    for g in GROUPS:
        for name, _, _ in groups[g]:
            o = isa[name]
            if o['file'] == 'coralnpu_base.isa' or name in ('flushall', 'flushat'):
                continue
            assert re.fullmatch(r'[a-z0-9.]+', o['disasm'])
            for t in o['disasm'].split('.'):
                if t not in toks:
                    toks.append(t)
            seq.append(defs.setdefault(pieces(o['args']), len(defs)))
    with open(OUT, 'w') as f:
        f.write('import Verif.Model.Isa\n\n/-! Generated by tools/gen_text.py from the `disasm` strings of the vector opcodes of\n'
                '/repo/sim/coralnpu_{arith,memory,mul,shift}.isa: the characters of the parts of the mnemonics, the distinct\n'
                'operand templates, and the template of every vector row of the encoding tables, in their order. -/\n\n'
                'namespace Verif.Model.Text\n\n/-- A literal part of a template, or an operand. -/\ninductive Piece where\n'
                '  | lit (cs : List Char)\n  | op (o : Opd)\nderiving DecidableEq, Repr\n\n'
                '/-- The parts of the mnemonics. -/\ndef toks : List (Tok × List Char) := [\n')
        f.write(',\n'.join(f'  (.{tok(t)}, {chars(t)})' for t in toks) + ']\n\n/-- The templates. -/\n'
                'def templates : List (List Piece) := [\n')
        f.write(',\n'.join('  ' + d for d in defs) + ']\n\n/-- The number of the template of every vector row. -/\ndef used : List Nat := [\n')
        for i in range(0, len(seq), 60):
            f.write('  ' + ', '.join(map(str, seq[i:i + 60])) + (',\n' if i + 60 < len(seq) else ']\n'))
        f.write('\nend Verif.Model.Text\n')


if __name__ == '__main__':
    main()
