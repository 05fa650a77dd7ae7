#!/usr/bin/env python3
"""Writes AXIOMS.md: for every theorem of MANIFEST.json the axioms it depends on (`#print axioms`). Run after `lake build`."""
import json, re, subprocess, tempfile, os
root = os.path.dirname(os.path.dirname(os.path.abspath(__file__)))
m = json.load(open(f'{root}/MANIFEST.json'))
with tempfile.NamedTemporaryFile('w', suffix='.lean', delete=False) as f:
    f.write('import Verif\n' + ''.join(f'#print axioms {t}\n' for c in m['claims'] for t in c['theorems']))
out = subprocess.run(['lake', 'env', 'lean', f.name], cwd=f'{root}/lean', capture_output=True, text=True).stdout
os.unlink(f.name)
ax = {}
for a in re.finditer(r"'(\S+)' (?:depends on axioms: \[([^\]]*)\]|does not depend on any axioms)", out):
    ax[a.group(1)] = re.sub(r'\s+', ' ', a.group(2) or '')
with open(f'{root}/AXIOMS.md', 'w') as g:
    g.write('# Axioms of each theorem\n\nWritten by `tools/axioms.py` from `#print axioms`.\n'
            'P = `propext`, C = `Classical.choice`, Q = `Quot.sound`, – = none.\n\n| property | theorem | axioms |\n|---|---|---|\n')
    for c in sorted(m['claims'], key=lambda c: c['property']):
        for t in c['theorems']:
            s = ax[t]
            for k, v in (('propext', 'P'), ('Classical.choice', 'C'), ('Quot.sound', 'Q')):
                s = s.replace(k, v)
            assert set(s) <= set('PCQ, '), (t, s)
            g.write(f"| {c['property']} | `{t}` | {s.replace(', ', ' ') or '–'} |\n")
