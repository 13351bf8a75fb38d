#!/usr/bin/env python3
"""Tests the theorems against many small random edits of the model.

usage: mutate.py gen SEED N OUT.json [file ...]     choose N edits of every model file (or of the files named)
       mutate.py run SCRATCH MUTANTS.json OUT.jsonl build the property modules on each edit in a scratch copy of /verif/lean

An edit replaces one token of one line of a definition. `run` reports `invalid` (the model itself no longer compiles),
`survived` (everything still builds; with FULL=1 in the environment that is the whole project) or the declarations in which the first errors are."""
import json, os, random, re, sys, time
sys.path.insert(0, os.path.dirname(os.path.abspath(__file__)))
from seed import SRC, restore, decls, sh

TARGETS = {
    'Agent': ['Agent', 'AgentCalls'], 'Conv': ['Conv', 'ConvTest'], 'Cosim': ['Cosim'], 'DebugMem': ['DebugMem'], 'Decode': ['Decode', 'Groups', 'Words', 'Kernel'],
    'HwSim': ['HwSim'], 'Kernel': ['Kernel', 'KernelPipe', 'VecCore'], 'KernelDw': ['KernelDw'], 'KernelMat': ['KernelMat'],
    'RenodeCore': ['RenodeCore', 'Agent'], 'Isa': ['Decode'], 'Log': ['Log'], 'Main': ['Main'], 'RenodeMem': ['Memory', 'MemExact'], 'Teardown': ['Teardown'],
    'Threads': ['RunControl', 'Teardown'], 'Top': ['RunControl', 'Agent', 'VecCore'], 'Trace': ['Trace'],
    'V1Getters': ['V1Scalar'], 'V1Text': ['V1Text'], 'V2': ['V2'], 'V2Getters': ['V2Operands', 'V1Scalar'], 'V2Isa': ['V2Decode'],
    'V2Sim': ['V2Sim'], 'VecCore': ['VecCore'], 'VecElem': ['Arith', 'Bits', 'ShiftMul', 'Widen', 'Struct'],
    'VecFrame': ['Arith', 'Struct', 'Widen', 'Decode'], 'VecInst': ['Arith', 'Bits', 'ShiftMul', 'Widen', 'Struct'],
    'VecMem': ['VecMem', 'Decode'], 'Shell': ['Shell'], 'RegNames': ['RegNames', 'Shell'], 'Counters': ['Counters'], 'Edits': ['Edits'],
    'VecBlock': ['VecBlock'], 'CosimCore': ['CosimCore'], 'DebugMemMax': ['DebugMemMax'], 'Session': ['RunControl', 'StepStop']}

SWAPS = [(' + ', ' - '), (' - ', ' + '), (' < ', ' ≤ '), (' ≤ ', ' < '), (' > ', ' ≥ '), (' ≥ ', ' > '), (' ∧ ', ' ∨ '), (' ∨ ', ' ∧ '),
         (' && ', ' || '), (' || ', ' && '), (' % ', ' / '), (' / ', ' % '), (' * ', ' + '), ('true', 'false'), ('false', 'true'),
         ('min ', 'max '), ('max ', 'min '), (' ++ ', ' ++ [] ++ '), ('vs1', 'vs2'), ('vs2', 'vs1'), ('src0', 'src1'), ('src1', 'src0'),
         (' = ', ' ≠ '), (' ≠ ', ' = '), (' == ', ' != '), (' != ', ' == '), ('.1', '.2'), ('.2', '.1'), ('!', '')]

def bodies(text):
    """(name, line number) of the lines of definitions that may be edited."""
    lines = text.split('\n')
    out = []
    for i, end, kind, name in decls(lines):
        if kind not in ('def', 'abbrev'):
            continue
        seen = False
        for j in range(i, end):
            l = lines[j]
            if l.startswith('/--') or l.startswith('end ') or l.startswith('/-!') or l.startswith('namespace'):
                break
            if seen and l.strip() and not l.strip().startswith('--'):
                out.append((name, j, 0))
            if not seen and ':=' in l:
                seen = True
                out.append((name, j, l.index(':=') + 2))
            elif not seen and j > i and re.match(r'^  \| ', l):
                seen = True
                out.append((name, j, 0))
    return lines, out

def edits(l, k):
    res = []
    for a, b in SWAPS:
        for m in re.finditer(re.escape(a), l):
            if m.start() < k or (a == ' = ' and not re.search(r'if |∧|∨|decide|then', l)):
                continue
            if a == ' ++ ' or (a in ('true', 'false') and re.search(r'\w', l[m.start() - 1:m.start()] + l[m.end():m.end() + 1])):
                continue
            if a in ('.1', '.2') and re.match(r'\d', l[m.end():m.end() + 1]):
                continue
            res.append(l[:m.start()] + b + l[m.end():])
    for m in re.finditer(r'(?<![\w.])(0x[0-9a-f]+|\d+)(?![\w.])', l):
        if m.start() >= k:
            v = int(m.group(1), 0)
            res.append(l[:m.start()] + str(v + 1) + l[m.end():])
            if v > 0:
                res.append(l[:m.start()] + str(v - 1) + l[m.end():])
    for m in re.finditer(r', \w+ := [^,{}]+(?=,| \})', l):
        if m.start() >= k:
            res.append(l[:m.start()] + l[m.end():])
    return res

def gen(seed, n, out, files):
    random.seed(seed)
    res = []
    for f in sorted(TARGETS):
        if files and f not in files:
            continue
        path = f'Verif/Model/{f}.lean'
        lines, bs = bodies(open(os.path.join(SRC, path)).read())
        cand = [(name, j, e) for name, j, k in bs for e in edits(lines[j], k)]
        byname = {}
        for c in cand:
            byname.setdefault(c[0], []).append(c)
        names = list(byname)
        random.shuffle(names)
        pick = []
        while len(pick) < min(n, len(cand)):
            for nm in names:
                if byname[nm] and len(pick) < n:
                    pick.append(byname[nm].pop(random.randrange(len(byname[nm]))))
        for t, (name, j, e) in enumerate(pick):
            res.append(dict(id=f'r{seed}-{f}-{t}', file=path, line=j, definition=name, old=lines[j], new=e))
    json.dump(res, open(out, 'w'), ensure_ascii=False, indent=1)
    print(len(res))

def targets(file):
    if os.environ.get('FULL'):
        return 'Verif'
    return ' '.join('Verif.Props.' + t for t in TARGETS[os.path.basename(file)[:-5]])

def run(scratch, muts, out):
    done = {json.loads(l)['id'] for l in open(out)} if os.path.exists(out) else set()
    for m in json.load(open(muts)):
        if m['id'] in done:
            continue
        t0 = time.time()
        restore(scratch)
        p = os.path.join(scratch, m['file'])
        lines = open(p).read().split('\n')
        if m['line'] >= len(lines) or lines[m['line']] != m['old']:
            res = dict(status='stale')
        else:
            lines[m['line']] = m['new']
            open(p, 'w').write('\n'.join(lines))
            mod = m['file'][:-5].replace('/', '.')
            rc, o = sh(f'lake build {mod}', scratch)
            if rc:
                res = dict(status='invalid')
            else:
                rc, o = sh('timeout 1500 lake build ' + targets(m['file']), scratch)
                if rc == 0:
                    res = dict(status='survived')
                else:
                    bad = []
                    for f, ln in re.findall(r'error: (Verif/\S+?\.lean):(\d+):', o):
                        ls = open(os.path.join(scratch, f)).read().split('\n')
                        for i, end, kind, name in decls(ls):
                            if i <= int(ln) - 1 < end:
                                d = f'{f[6:-5]}:' + (name if kind != 'example' else f'example@{i + 1}')
                                if d not in bad:
                                    bad.append(d)
                    res = dict(status='killed' if any('example@' not in b for b in bad) else 'example' if bad else 'other', failed=bad,
                               tail='' if bad else o[-300:])
        res.update(id=m['id'], secs=int(time.time() - t0))
        with open(out, 'a') as f:
            f.write(json.dumps(res, ensure_ascii=False) + '\n')
        print(m['id'], m['definition'], res['status'], (res.get('failed') or [''])[0], res['secs'], flush=True)
if __name__ == '__main__':
    if sys.argv[1] == 'gen':
        gen(int(sys.argv[2]), int(sys.argv[3]), sys.argv[4], sys.argv[5:])
    else:
        run(*sys.argv[2:5])
