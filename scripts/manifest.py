#!/usr/bin/env python3
"""Regenerates MANIFEST.json from the theorem names in lean/Verif/Props (prefix Cnn_) and
scripts/status.json (property -> [status, note])."""
import re, json, glob, os
root = os.path.dirname(os.path.dirname(os.path.abspath(__file__)))
ids = [json.loads(l)['id'] for l in open(root + '/properties.jsonl')]
st = json.load(open(root + '/scripts/status.json'))
th = {}
for f in sorted(glob.glob(root + '/lean/Verif/Props/*.lean')):
    for m in re.finditer(r'^theorem (C\d\d+_(?:\w|\')+)', open(f).read(), re.M):
        if '_witness' in m.group(1): continue  # concrete cases meeting hypotheses
        th.setdefault(m.group(1).split('_')[0], []).append('Props.' + m.group(1))
claims = []
for i in ids:
    if i in th:
        t = th[i]
        default = 'partial' if any(x.endswith('_partial') or x.endswith('_violated') for x in t) else 'proved'
        s, note = st.get(i, [default, ''])
        claims.append({'property': i, 'status': s, 'theorems': t, 'note': note})
    elif i in st:
        claims.append({'property': i, 'status': st[i][0], 'theorems': [], 'note': st[i][1]})
json.dump({'claims': claims}, open(root + '/MANIFEST.json', 'w'), indent=1)
print(len(claims), 'claims', sum(len(c['theorems']) for c in claims), 'theorems; missing:', [i for i in ids if i not in th and i not in st])
for i, ts in th.items():
    if i not in ids: print('unknown property', i)
