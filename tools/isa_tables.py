"""Parse the encoding (.bin_fmt) and instruction (.isa) tables of /repo/sim."""
import re

SIM = '/repo/sim/'
GROUPS = ['CoralNPUInst', 'CoralNPUVectorArithInst', 'CoralNPUVectorConvInst',
          'CoralNPUVectorMemoryInst', 'CoralNPUVectorMulInst', 'CoralNPUVectorShiftInst']
BIN = ['coralnpu_format.bin_fmt', 'coralnpu_base.bin_fmt', 'coralnpu_arith.bin_fmt', 'coralnpu_conv.bin_fmt',
       'coralnpu_memory.bin_fmt', 'coralnpu_mul.bin_fmt', 'coralnpu_shift.bin_fmt']
ISA = ['coralnpu_base.isa', 'coralnpu_arith.isa', 'coralnpu_memory.isa', 'coralnpu_mul.isa', 'coralnpu_shift.isa']


def _strip(t):
    return re.sub(r'//[^\n]*', '', t)


def number(v):
    v = v.replace("'", "")
    if v.startswith('0b'):
        return int(v[2:], 2)
    if v.startswith('0') and v != '0':
        return int(v, 8)
    return int(v)


def parse_bin(files=BIN):
    fmts, groups = {}, {}
    for f in files:
        t = _strip(open(SIM + f).read())
        for m in re.finditer(r'format\s+(\w+)\[32\]\s*(?::\s*\w+)?\s*\{(.*?)\}', t, re.S):
            body = m.group(2).split('overlays:')
            fl, pos = {}, 32
            for x in re.finditer(r'(?:un)?signed\s+(\w+)\[(\d+)\]\s*;', body[0]):
                w = int(x.group(2))
                pos -= w
                fl[x.group(1)] = (pos, w)
            assert pos == 0
            if len(body) > 1:
                for x in re.finditer(r'(?:un)?signed\s+(\w+)\[(\d+)\]\s*=\s*([^;]*);', body[1]):
                    mm = re.fullmatch(r'(\w+)(?:\[(\d+)(?:\.\.(\d+))?\])?', x.group(3).strip())
                    if mm and mm.group(1) in fl:
                        p, w = fl[mm.group(1)]
                        if mm.group(2):
                            hi = int(mm.group(2))
                            lo = int(mm.group(3) or hi)
                            fl[x.group(1)] = (p + lo, hi - lo + 1)
                        else:
                            fl[x.group(1)] = (p, w)
            fmts[m.group(1)] = fl
        for m in re.finditer(r'instruction group\s+(\w+)\[32\]\s*:\s*(\w+)\s*\{(.*?)\};', t, re.S):
            rows = []
            for x in re.finditer(r'(\w+)\s*:\s*(\w+)\s*:\s*([^;]*);', m.group(3)):
                eq, ne = [], []
                for c in x.group(3).split(','):
                    mm = re.fullmatch(r"(\w+)\s*(==|!=)\s*([0-9a-fxb']+)", c.strip())
                    p, w = fmts[x.group(2)][mm.group(1)]
                    v = number(mm.group(3))
                    assert v < 1 << w
                    (eq if mm.group(2) == '==' else ne).append((p, w, v))
                rows.append((x.group(1), eq, ne))
            groups[m.group(1)] = rows
    return groups


def parse_isa(files=ISA):
    out = {}
    for f in files:
        t = open(SIM + f).read()
        t = '\n'.join(l for l in t.split('\n') if not l.strip().startswith('//'))
        t = re.sub(r"\bopcodes\s*\{", ";", t)
        for m in re.finditer(r'(\w+)\s*\{([^}]*)\}\s*,(.*?);\s*(?=\w+\s*\{|\}|$)', t, re.S):
            name, ops, rest = m.group(1), ' '.join(m.group(2).split()), m.group(3)
            dm = re.search(r'disasm:\s*"([^"]*)"', rest)
            sm = re.search(r'semfunc:\s*((?:"[^"]*"\s*,?\s*)+)', rest, re.S)
            sf = [re.sub(r'\s+', '', re.sub(r'/\*.*?\*/', '', s)) for s in re.findall(r'"([^"]*)"', sm.group(1))] if sm else []
            assert name not in out, name
            am = re.search(r'disasm:\s*((?:"[^"]*"\s*,?\s*)+)', rest, re.S)
            args = re.findall(r'"([^"]*)"', am.group(1))[1:] if am else []
            out[name] = dict(file=f, ops=ops, disasm=dm.group(1) if dm else '', args=args, sem=sf)
    return out
