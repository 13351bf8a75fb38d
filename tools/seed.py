#!/usr/bin/env python3
"""Tests the theorems against wrong programs.

usage: seed.py SCRATCH MUTANTS.json OUT.jsonl [id ...]

Each mutant is {id, file, old, new, claim, targets}: one textual edit of a model file in a scratch copy of /verif/lean.
The targets are built; every declaration whose proof no longer checks has its proof replaced by `sorry`, and the build
is repeated until it succeeds; the property theorems that then depend on `sorryAx` are those the edit breaks."""
import json, os, re, shutil, subprocess, sys, time

SRC = os.environ.get('SEED_SRC', '/verif/lean')
DECL = re.compile(r'^(?:@\[[^\]]*\]\s*)?(?:private |protected |noncomputable )*(theorem|lemma|example|def|abbrev|structure|inductive|instance)\b\s*(\S*)')

def sh(cmd, cwd=None, timeout=3000):
    p = subprocess.run(cmd, shell=True, cwd=cwd, stdout=subprocess.PIPE, stderr=subprocess.STDOUT, text=True,
                       executable='/bin/bash', timeout=timeout)
    return p.returncode, p.stdout

def restore(dst):
    seen = set()
    for d, _, fs in os.walk(SRC):
        e = os.path.join(dst, os.path.relpath(d, SRC))
        os.makedirs(e, exist_ok=True)
        for f in fs:
            a, b = os.path.join(d, f), os.path.normpath(os.path.join(e, f))
            seen.add(b)
            s = os.stat(a)
            if os.path.exists(b):
                r = os.stat(b)
                if r.st_size == s.st_size and r.st_mtime_ns == s.st_mtime_ns:
                    continue
            shutil.copy2(a, b)
    for d, _, fs in os.walk(dst):
        for f in fs:
            if os.path.normpath(os.path.join(d, f)) not in seen:
                os.remove(os.path.join(d, f))

def decls(lines):
    """(start, end, kind, name) of each top-level declaration."""
    starts = []
    for i, l in enumerate(lines):
        m = DECL.match(l)
        if m:
            starts.append((i, m.group(1), m.group(2)))
    out = []
    for k, (i, kind, name) in enumerate(starts):
        end = starts[k + 1][0] if k + 1 < len(starts) else len(lines)
        out.append((i, end, kind, name))
    return out

def cut_proof(lines, i, end):
    """Replaces the proof of the declaration at i by sorry."""
    depth = 0
    for j in range(i, end):
        l = lines[j]
        if j > i and depth == 0 and re.match(r'^  \| ', l):
            e = j + 1
            while e < end and lines[e].strip():
                e += 1
            lines[j - 1:e] = [lines[j - 1] + ' := sorry', '']
            return True
        k = 0
        while k < len(l):
            c = l[k]
            if l.startswith('--', k):
                break
            if c in '([{⟨':
                depth += 1
            elif c in ')]}⟩':
                depth -= 1
            elif l.startswith(':=', k) and depth == 0 and not re.search(r'\blet\b', l[:k]) and not l.lstrip().startswith('let '):
                # end of the body: up to the next blank line followed by something at column 0
                e = j + 1
                while e < end and not (re.match(r'^(/--|/-!|end |namespace |section|variable|open |set_option|@\[|attribute|example|theorem|def |/-)', lines[e])):
                    e += 1
                lines[j:e] = [l[:k] + ':= sorry', '']
                return True
            k += 1
    # pattern-matching declarations
    return False

def run(m, dst):
    restore(dst)
    f = os.path.join(dst, m['file'])
    t = open(f).read()
    n = t.count(m['old'])
    assert n == 1 or (n > 1 and m.get('all')), (m['id'], 'occurrences', n)
    t = t.replace(m['old'], m['new'])
    open(f, 'w').write(t)
    failed, notes = [], []
    for rnd in range(40):
        try:
            rc, out = sh('ulimit -v 24000000; timeout 2400 lake build ' + ' '.join(m['targets']), dst)
        except subprocess.TimeoutExpired:
            notes.append('timeout'); break
        if rc == 0:
            break
        errs = {}
        for x in re.finditer(r'^error: (Verif/\S+\.lean):(\d+):\d+: (.*)', out, re.M):
            errs.setdefault(x.group(1), []).append((int(x.group(2)), x.group(3)))
        if not errs:
            notes.append('no positions: ' + out[-600:]); break
        progress = False
        for fn, es in errs.items():
            p = os.path.join(dst, fn)
            lines = open(p).read().split('\n')
            ds = decls(lines)
            hit = {}
            for ln, msg in es:
                for d in ds:
                    if d[0] <= ln - 1 < d[1]:
                        hit[d] = msg
            for d in sorted(hit, reverse=True):
                i, end, kind, name = d
                label = f'{fn[6:-5]}:{name}' if kind != 'example' else f'{fn[6:-5]}:example@{i+1}'
                if kind in ('theorem', 'lemma', 'example') and cut_proof(lines, i, end):
                    failed.append(label)
                    progress = True
                else:
                    notes.append(f'{label}: {hit[d][:200]}')
            open(p, 'w').write('\n'.join(lines))
        if not progress:
            break
    props = []
    mods = [x for x in m['targets'] if x.startswith('Verif')]
    probe = os.path.join(dst, 'Probe.lean')
    open(probe, 'w').write('import Lean\n' + ''.join(f'import {x}\n' for x in mods) + '''
open Lean Elab Command in
run_cmd do
  let env ← getEnv
  for (n, c) in env.constants.map₁.toList do
    if (`Verif.Props).isPrefixOf n && c matches .thmInfo _ then
      let s := n.toString
      if (s.splitOn ".C").length > 1 then
        let ax ← liftCoreM (collectAxioms n)
        if ax.contains ``sorryAx then logInfo m!"BROKEN {n}"
''')
    rc, out = sh('lake env lean Probe.lean', dst)
    props = sorted(set(re.findall(r'BROKEN Verif\.Props\.(\S+)', out)))
    if rc != 0:
        notes.append('probe: ' + out[-300:])
    return props, failed, notes

if __name__ == '__main__':
    dst, muts, outp = sys.argv[1:4]
    done = set()
    if os.path.exists(outp):
        done = {json.loads(l)['id'] for l in open(outp)}
    for m in json.load(open(muts)):
        if (len(sys.argv) > 4 and m['id'] not in sys.argv[4:]) or m['id'] in done:
            continue
        t0 = time.time()
        props, failed, notes = run(m, dst)
        r = {'id': m['id'], 'props': props, 'failed': failed, 'notes': notes, 'secs': round(time.time() - t0)}
        open(outp, 'a').write(json.dumps(r, ensure_ascii=False) + '\n')
        print(m['id'], len(props), 'props', len(failed), 'decls', r['secs'], 's', notes[:1], flush=True)
