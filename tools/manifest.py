#!/usr/bin/env python3
"""Regenerates MANIFEST.json from the property theorems in lean/Verif/Props and tools/status.json."""
import json, re, glob, os
root = os.path.dirname(os.path.dirname(os.path.abspath(__file__)))
thms = {}
for f in sorted(glob.glob(root + '/lean/Verif/Props/*.lean')):
    for m in re.finditer(r'^theorem (C(\d\d+)_\w+)', open(f).read(), re.M):
        thms.setdefault('C' + m.group(2), []).append('Verif.Props.' + m.group(1))
status = json.load(open(root + '/tools/status.json'))
claims = []
for line in open(root + '/properties.jsonl'):
    p = json.loads(line)['id']
    st = status.get(p, {})
    claims.append({'property': p, 'status': st.get('status', 'partial'),
                   'theorems': thms.get(p, []), 'note': st.get('note', 'not yet proved')})
json.dump({'claims': claims}, open(root + '/MANIFEST.json', 'w'), indent=1)
print(sum(c['status'] == 'proved' for c in claims), 'proved of', len(claims))
