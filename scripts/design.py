#!/usr/bin/env python3
"""Regenerates the generated parts of DESIGN.md (between markers): property table, violations, axioms.
Run after scripts/manifest.py and `lake build`."""
import json, re, glob, subprocess, os
R = '/verif'
man = {c['property']: c for c in json.load(open(f'{R}/MANIFEST.json'))['claims']}
props = [json.loads(l) for l in open(f'{R}/properties.jsonl')]
doc, where = {}, {}
for f in sorted(glob.glob(f'{R}/lean/Verif/Props/*.lean')):
    s = open(f).read()
    for m in re.finditer(r'(?:/--((?:(?!-/).)*)-/\s*)?(?:set_option [^\n]* in\s*)*(?:attribute [^\n]* in\s*)*theorem (C\d\d+_\w+)', s, re.S):
        doc['Props.' + m.group(2)] = ' '.join((m.group(1) or '').split())
        where['Props.' + m.group(2)] = os.path.basename(f)
def strip(t): return t.replace('Props.', '')
out = ['| id | property | status | where | theorems | note |', '|---|---|---|---|---|---|']
for p in props:
    c = man[p['id']]
    fs = sorted({where.get(t, '?') for t in c['theorems']})
    ths = ', '.join(f'`{strip(t)}`' for t in c['theorems'])
    out.append(f"| {p['id']} | {p['title']} | {c['status']} | {', '.join(fs)} | {ths} | {c['note'].replace('|', '/')} |")
table = '\n'.join(out)
vio = '\n'.join(f'* `{strip(t)}` — {doc.get(t, "")}' for p in props for t in man[p['id']]['theorems'] if 'violated' in t)
names = [t for p in props for t in man[p['id']]['theorems']]
src = 'import Verif\n' + ''.join(f'#print axioms {t}\n' for t in names)
open('/tmp/ax.lean', 'w').write(src)
o = subprocess.run(['lake', 'env', 'lean', '/tmp/ax.lean'], cwd=f'{R}/lean', capture_output=True, text=True).stdout
ax = {}
for m in re.finditer(r"'([\w.]+)' (?:does not depend on any axioms|depends on axioms: \[([^\]]*)\])", o):
    ax[m.group(1)] = tuple(sorted(x.strip() for x in (m.group(2) or '').split(',') if x.strip()))
groups = {}
for t in names: groups.setdefault(ax.get(t, ('?',)), []).append(strip(t))
axs = '\n'.join(f"* {'no axioms' if not k else ', '.join(k)} ({len(v)}): " + ', '.join(f'`{x}`' for x in v) for k, v in sorted(groups.items(), key=lambda e: len(e[0])))
d = open(f'{R}/DESIGN.md').read()
for key, txt in (('TABLE', table), ('VIOLATIONS', vio), ('AXIOMS', axs)):
    d = re.sub(rf'(<!-- BEGIN {key} -->\n).*?(<!-- END {key} -->)', lambda m: m.group(1) + txt + '\n' + m.group(2), d, flags=re.S)
open(f'{R}/DESIGN.md', 'w').write(d)
print(len(names), 'theorems', {k: len(v) for k, v in groups.items()})
