#!/usr/bin/env python3
"""Lists in AXIOMS.md the axioms every theorem of MANIFEST.json depends on (run after `lake build`)."""
import json, os, re, subprocess, tempfile
root = os.path.dirname(os.path.dirname(os.path.abspath(__file__)))
ths = [(c['property'], t) for c in json.load(open(os.path.join(root, 'MANIFEST.json')))['claims'] for t in c['theorems']]
with tempfile.NamedTemporaryFile('w', suffix='.lean', delete=False) as f:
    f.write('import Verif\n' + ''.join(f'#print axioms {t}\n' for _, t in ths))
out = subprocess.run(['lake', 'env', 'lean', f.name], cwd=os.path.join(root, 'lean'), capture_output=True, text=True).stdout
os.unlink(f.name)
ax = {}
for m in re.finditer(r"'([^']+(?:'[^' ]*)*)' (?:depends on axioms: \[([^\]]*)\]|does not depend on any axioms)", out):
    ax[m.group(1)] = ' '.join((m.group(2) or 'none').split())
lines = ['# Axioms of the theorems in MANIFEST.json', '', '| Property | Theorem | Axioms |', '|---|---|---|']
for p, t in ths:
    lines.append(f'| {p} | {t} | {ax.get(t, "?")} |')
open(os.path.join(root, 'AXIOMS.md'), 'w').write('\n'.join(lines) + '\n')
print(len(ths), 'theorems;', sorted({a for v in ax.values() for a in v.split(', ')}), 'unknown:', [t for _, t in ths if t not in ax])
