"""Parse the encoding and instruction tables of the second core: coralnpu_v2.bin_fmt and coralnpu_v2.isa."""
import re
from isa_tables import SIM, _strip, number, parse_isa

BIN = 'coralnpu_v2.bin_fmt'
DECODER = 'CoralNPUV2Inst32'


def parse_formats(t):
    """Fields and overlays as lists of pieces (pos, width), most significant first; constant bits are (None, width)."""
    fmts = {}
    for m in re.finditer(r'format\s+(\w+)\[32\]\s*(?::\s*\w+)?\s*\{(.*?)\}', t, re.S):
        body = m.group(2).split('overlays:')
        fl, pos = {}, 32
        for x in re.finditer(r'(un)?signed\s+(\w+)\[(\d+)\]\s*;', body[0]):
            w = int(x.group(3))
            pos -= w
            fl[x.group(2)] = (not x.group(1), [(pos, w)])
        assert pos == 0
        if len(body) > 1:
            base = dict(fl)
            for x in re.finditer(r'(un)?signed\s+(\w+)\[(\d+)\]\s*=\s*([^;]*);', body[1]):
                pieces = []
                for y in re.finditer(r"0b([01']+)|(\w+)(?:\[([^\]]*)\])?", x.group(4)):
                    if y.group(1):
                        bits = y.group(1).replace("'", '')
                        assert set(bits) == {'0'}
                        pieces.append((None, len(bits)))
                        continue
                    p, w = base[y.group(2)][1][0]
                    if not y.group(3):
                        pieces.append((p, w))
                        continue
                    for r in y.group(3).split(','):
                        hi, lo = (re.fullmatch(r'\s*(\d+)(?:\.\.(\d+))?\s*', r)).groups()
                        lo = int(lo or hi)
                        pieces.append((p + lo, int(hi) - lo + 1))
                assert sum(w for _, w in pieces) == int(x.group(3)), (m.group(1), x.group(2))
                fl[x.group(2)] = (not x.group(1), pieces)
        fmts[m.group(1)] = fl
    return fmts


def parse():
    t = _strip(open(SIM + BIN).read())
    fmts = parse_formats(t)
    groups, lists = {}, {}
    for m in re.finditer(r'instruction group\s+(\w+)\s*=\s*\{([^}]*)\}', t):
        lists[m.group(1)] = re.findall(r'\w+', m.group(2))
    for m in re.finditer(r'instruction group\s+(\w+)\[32\]\s*:\s*(\w+)\s*\{(.*?)\}', t, re.S):
        rows = []
        body = m.group(3)
        seen = 0
        for x in re.finditer(r'(\w+)\s*:\s*(\w+)\s*:\s*([^;]*);', body):
            seen += 1
            cons = []
            for c in x.group(3).split(','):
                if not c.strip():
                    continue
                mm = re.fullmatch(r"(\w+)\s*(==|!=|>|<)\s*([0-9a-fxb']+)", c.strip())
                _, pieces = fmts[x.group(2)][mm.group(1)]
                assert len(pieces) == 1
                p, w = pieces[0]
                v = number(mm.group(3))
                assert v < 1 << w
                cons.append((mm.group(2), p, w, v))
            rows.append((x.group(1), x.group(2), cons))
        assert seen == body.count(';'), m.group(1)
        groups[m.group(1)] = rows
    dm = re.search(DECODER + r'\s*=\s*\{([^}]*)\}', t)
    names = []
    for g in re.findall(r'\w+', dm.group(1)):
        names += lists.get(g, [g])
    return fmts, [(g, groups[g]) for g in names]


def isa():
    return parse_isa(['coralnpu_v2.isa'])
