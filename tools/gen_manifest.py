#!/usr/bin/env python3
"""Regenerates MANIFEST.json and lean/Verif.lean from the sources.
Theorem names: every `theorem Cnn_...` in lean/Verif/Props, with its namespace."""
import json, os, re
root = os.path.dirname(os.path.dirname(os.path.abspath(__file__)))
lean = os.path.join(root, 'lean')
mods = []
for r, d, f in os.walk(os.path.join(lean, 'Verif')):
    for x in f:
        if x.endswith('.lean'):
            mods.append(os.path.relpath(os.path.join(r, x), lean)[:-5].replace('/', '.'))
open(os.path.join(lean, 'Verif.lean'), 'w').write(''.join(f'import {m}\n' for m in sorted(mods)))
notes = json.load(open(os.path.join(root, 'tools', 'notes.json')))
thms = {}
pd = os.path.join(lean, 'Verif', 'Props')
for x in sorted(os.listdir(pd)):
    ns = []
    for line in open(os.path.join(pd, x)):
        m = re.match(r'namespace\s+(\S+)', line)
        if m: ns.append(m.group(1))
        m = re.match(r'end\s+(\S+)', line)
        if m and ns and ns[-1] == m.group(1): ns.pop()
        m = re.match(r'(?:@\[[^\]]*\]\s*)?theorem\s+((C\d\d\d?)_\S+)', line)
        if m: thms.setdefault(m.group(2), []).append('.'.join(ns + [m.group(1)]))
claims = []
for l in open(os.path.join(root, 'properties.jsonl')):
    p = json.loads(l)['id']
    ts = thms.get(p, [])
    n = notes.get(p, {})
    st = n.get('status')
    if not ts:
        if st != 'not_applicable': continue
    if st is None:
        st = 'partial' if all(t.endswith('_partial') for t in ts) else 'proved'
    claims.append({'property': p, 'status': st, 'theorems': ts, 'note': n.get('note', '')})
json.dump({'claims': claims}, open(os.path.join(root, 'MANIFEST.json'), 'w'), indent=1, ensure_ascii=False)
open(os.path.join(root, 'MANIFEST.json'), 'a').write('\n')
print(len(claims), 'claims;', 'missing:', [json.loads(l)['id'] for l in open(os.path.join(root,'properties.jsonl')) if json.loads(l)['id'] not in thms])
