"""Generate Verif/Gen/*.lean (instruction tables) from the .bin_fmt and .isa files of /repo/sim.

The tables are data: one Lean row per encoding row, in file order. Nothing is interpreted here apart
from the type and Boolean arguments of the bound semantic functions.
"""
import os
import re
import sys
sys.path.insert(0, os.path.dirname(__file__))
from isa_tables import GROUPS, parse_bin, parse_isa  # noqa: E402

OUT = os.path.join(os.path.dirname(os.path.abspath(__file__)), '../lean/Verif/Gen/')
TY = {'int8_t': '.i8', 'int16_t': '.i16', 'int32_t': '.i32', 'uint8_t': '.u8', 'uint16_t': '.u16',
      'uint32_t': '.u32'}
BIN = {'VAdd': 'add', 'VSub': 'sub', 'VRSub': 'rsub', 'VEq': 'eq', 'VNe': 'ne', 'VLt': 'lt', 'VLe': 'le',
       'VGt': 'gt', 'VGe': 'ge', 'VAbsd': 'absd', 'VMax': 'max', 'VMin': 'min', 'VAdds': 'adds',
       'VAddsu': 'addsu', 'VSubs': 'subs', 'VSubsu': 'subsu', 'VAnd': 'and', 'VOr': 'or', 'VXor': 'xor',
       'VRev': 'rev', 'VRor': 'ror', 'VSll': 'sll', 'VSra': 'sra', 'VSrl': 'srl', 'VMul': 'mul',
       'VMuls': 'muls'}
TER = {'VAdd3': 'add3', 'VMacc': 'macc', 'VMadd': 'madd', 'VSel': 'sel'}
UN = {'VNot': 'not', 'VClb': 'clb', 'VClz': 'clz', 'VCpop': 'cpop', 'VMv': 'mv'}
WID = {'VAddw': 'addw', 'VSubw': 'subw', 'VMulw': 'mulw'}
PACK = {'VPadd': 'addw', 'VPsub': 'subw'}
PERM = {'VMvp': 'mvp', 'VEvn': 'evn', 'VOdd': 'odd', 'VEvnodd': 'evnodd', 'VZip': 'zip'}
OPD = {'vs1': 'vs1', 'vs2': 'vs2', 'vs3': 'vs3', 'vd': 'vd', 'rs1': 'rs1', 'rs2': 'rs2', 'rd': 'rd',
       'csr': 'csr', 'next_pc': 'nextPc', 'I_imm12': 'iImm12', 'J_imm12': 'jImm12', 'J_imm20': 'jImm20',
       'S_imm12': 'sImm12', 'B_imm12': 'bImm12', 'U_imm20': 'uImm20', 'I_uimm5': 'iUimm5',
       'CSR_uimm5': 'csrUimm5'}


def tok(s):
    return 'n' + s if s.isdigit() else s


def operands(ops):
    """Source and destination operands, over all phases."""
    src, dst = [], []
    parts = re.findall(r'\(([^)]*)\)', ops) if '(' in ops else [ops]
    for p in parts:
        f = [x.strip() for x in p.split(':')] + ['', '', '']
        src += [OPD[x.strip()] for x in f[1].split(',') if x.strip()]
        dst += [OPD[x.strip()] for x in f[2].split(',') if x.strip()]
    return src, dst


def sem(name, info):
    s = info['sem']
    if info['file'] == 'coralnpu_base.isa' or name in ('flushall', 'flushat'):
        return '.scalar'
    src, dst = operands(info['ops'])
    m = re.fullmatch(r'(?:absl::bind_front\()?&(?:coralnpu::sim::)?CoralNPU(\w+?)(?:<([\w,]+)>)?(?:,([\w,]+))?\)?', s[0])
    f, T, a = m.group(1), [TY[x] for x in (m.group(2) or '').split(',') if x], (m.group(3) or '').split(',')
    assert len(s) == (2 if f == 'VLd' else 1)

    def vec(op, scalar, strip):
        return f'.vec (.{op}) {scalar} {strip}'
    if f in BIN:
        return vec(f'bin .{BIN[f]} {T[0]}', *a)
    if f in ('VHadd', 'VHsub', 'VMulh'):
        return vec(f'bin (.{f[1:].lower()} {a[2]}) {T[0]}', a[0], a[1])
    if f == 'VDmulh':
        return vec(f'bin (.dmulh {a[2]} {a[3]}) {T[0]}', a[0], a[1])
    if f == 'VShift':
        return vec(f'bin (.shift {a[0]}) {T[0]}', a[1], a[2])
    if f == 'VSrans':
        return vec(f'srans {a[0]} {T[0]} {T[1]}', a[1], a[2])
    if f in TER:
        return vec(f'ter .{TER[f]} {T[0]}', *a)
    if f in UN:
        return vec(f'un .{UN[f]} {T[0]}', 'false', *a)
    if f in WID:
        return vec(f'wid .{WID[f]} {T[0]} {T[1]}', *a)
    if f == 'VAcc':
        return vec(f'acc {T[0]} {T[1]}', *a)
    if f in PACK:
        return vec(f'packed .{PACK[f]} {T[0]} {T[1]}', 'false', *a)
    if f in PERM:
        return vec(f'{PERM[f]} {T[0]}', *a)
    if f in ('VSlidevn', 'VSlidevp'):
        return vec(f'slide{f[-1]} false {a[0]} {T[0]}', 'false', a[1])
    if f in ('VSlidehn', 'VSlidehp'):
        assert len(a) == 1
        return vec(f'slide{f[-1]} true {a[0]} {T[0]}', 'false', 'true')
    b = lambda x: 'true' if x else 'false'
    if f in ('VLd', 'VSt'):
        if f == 'VLd':
            m2 = re.fullmatch(r'absl::bind_front\(&coralnpu::sim::CoralNPUVLdRegWrite<(\w+)>,(\w+)\)', s[1])
            assert TY[m2.group(1)] == T[0] and m2.group(2) == a[2], name
        return f'.{f.lower()} {T[0]} {a[0]} {a[1]} {a[2]} {b("vs2" in src)} {b("vs1" in dst)}'
    if f == 'VStQ':
        assert 'vs2' in src
        return f'.vstq {T[0]} {a[0]} {b("vs1" in dst)}'
    if f == 'VDup':
        return f'.vdup {T[0]} {a[0]}'
    if f == 'GetVl':
        return f'.getvl {T[0]} {a[0]} {a[1]} {a[2]}'
    return {'VcGet': '.vcget', 'AcSet': f'.acset {a[0]}', 'ADwInit': '.adwinit', 'VConv': '.aconv',
            'VDwconv': f'.dwconv {a[0]}'}[f]


def main():
    groups, isa = parse_bin(), parse_isa()
    toks = []
    out = {}
    for gi, g in enumerate(GROUPS):
        lines = []
        for name, eq, ne in groups[g]:
            info = isa[name]
            nt = [tok(x) for x in name.split('_')]
            dt = [tok(x) for x in re.split(r'[._]', info['disasm'])]
            for t in nt + dt:
                if t not in toks:
                    toks.append(t)
            src, dst = operands(info['ops'])
            L = lambda xs: '[' + ', '.join(xs) + ']'
            F = lambda xs: L(f'⟨{p}, {w}, {v}⟩' for p, w, v in xs)
            lines.append(f'⟨{L("." + t for t in nt)}, {L("." + t for t in dt)}, {gi}, {F(eq)}, {F(ne)}, '
                         f'{L("." + x for x in src)}, {L("." + x for x in dst)}, {sem(name, info)}⟩')
        out[g] = lines
    os.makedirs(OUT, exist_ok=True)
    with open(OUT + 'Tok.lean', 'w') as f:
        f.write('/-! Generated by tools/gen_rows.py: the parts of the opcode and disassembly names in the\n'
                '`.isa` files of /repo/sim. -/\n\nnamespace Verif.Model\n\ninductive Tok where\n')
        line = ' '
        for t in toks:
            if len(line) + len(t) > 95:
                f.write(line + '\n')
                line = ' '
            line += ' | ' + t
        f.write(line + '\nderiving DecidableEq, Repr\n\nend Verif.Model\n')
    special = {'acset', 'actr', 'adwinit'}
    plain, guarded = [], []
    for g in GROUPS:
        for name, eq, ne in groups[g]:
            if name in special:
                continue
            ones = zeros = 0
            for p, w, v in eq:
                ones |= v << p
                zeros |= ((1 << w) - 1 ^ v) << p
            (guarded if ne else plain).append(ones | zeros << 32)
    with open(OUT + 'Keys.lean', 'w') as f:
        f.write('/-! Generated by tools/gen_rows.py: the bits fixed by each encoding row (ones in the low half,\n'
                'zeros in the high half). `Verif.Proofs.DecodeKeys` checks them against the rows. -/\n\n'
                'namespace Verif.Proofs.Gen\n\n')
        for nm, l in (('plainKeys', plain), ('guardedKeys', guarded)):
            f.write(f'def {nm} : List Nat := [\n')
            for c in range(0, len(l), 5):
                f.write('  ' + ', '.join(map(str, l[c:c + 5])) + (',\n' if c + 5 < len(l) else ']\n\n'))
        f.write('end Verif.Proofs.Gen\n')
    src = ['coralnpu_base', 'coralnpu_arith', 'coralnpu_conv', 'coralnpu_memory', 'coralnpu_mul', 'coralnpu_shift']
    N = 60
    for gi, g in enumerate(GROUPS):
        with open(OUT + f'Rows{gi}.lean', 'w') as f:
            f.write('import Verif.Model.Isa\n\n'
                    f'/-! Generated by tools/gen_rows.py from the instruction group `{g}` of\n'
                    f'/repo/sim/{src[gi]}.bin_fmt and the opcodes of the `.isa` files. -/\n\n'
                    'namespace Verif.Model.Gen\n\n')
            names = []
            for c in range(0, len(out[g]), N):
                nm = f'g{gi}_{c // N}'
                names.append(nm)
                f.write(f'def {nm} : List Row := [\n  ' + ',\n  '.join(out[g][c:c + N]) + ']\n\n')
            f.write(f'def group{gi} : List Row := {" ++ ".join(names)}\n\nend Verif.Model.Gen\n')


if __name__ == '__main__':
    main()
