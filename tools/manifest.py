#!/usr/bin/env python3
"""Regenerates MANIFEST.json and Verif.lean from the theorem names Cxx_... in lean/Verif/Props."""
import re, json, glob, os, collections
root = os.path.dirname(os.path.dirname(os.path.abspath(__file__)))
props = [json.loads(l) for l in open(root + '/properties.jsonl') if l.strip()]
notes = json.load(open(root + '/tools/notes.json'))
thms = collections.defaultdict(list)
mods = []
for f in sorted(glob.glob(root + '/lean/Verif/Props/*.lean')):
    mods.append(os.path.basename(f)[:-5])
    s = open(f).read()
    for m in re.finditer(r'^theorem (C\d\d)(_\S+)', s, re.M):
        thms[m.group(1)].append('Bella.' + m.group(1) + m.group(2))
claims = []
for p in props:
    i = p['id']
    n = notes.get(i, {})
    st = n.get('status', 'proved' if thms[i] else None)
    if not thms[i]:
        st = n.get('status', 'not_applicable')
    claims.append({'property': i, 'status': st, 'theorems': thms[i], 'note': n.get('note', '')})
json.dump({'claims': claims}, open(root + '/MANIFEST.json', 'w'), indent=1)
with open(root + '/lean/Verif.lean', 'w') as fh:
    for m in mods:
        fh.write('import Verif.Props.%s\n' % m)
print(sum(1 for c in claims if c['theorems']), 'claims with theorems;', sum(len(c['theorems']) for c in claims), 'theorems')
