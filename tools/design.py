import json,re,glob,collections
m={c['property']:c for c in json.load(open('/verif/MANIFEST.json'))['claims']}
where=collections.defaultdict(set)
for f in glob.glob('/verif/lean/Verif/Props/*.lean'):
    for t in re.findall(r'^theorem (C\d\d)_',open(f).read(),re.M): where[t].add(f.split('/')[-1][:-5])
how=json.load(open('/verif/tools/design_rows.json'))
props=[json.loads(l) for l in open('/verif/properties.jsonl')]
rows=[]
for d in props:
    i=d['id']; mo,pr=how[i]
    rows.append(f"| {i} | {d['title']} | {mo} | {pr} | {', '.join(sorted(where[i]))} |")
t=open('/verif/tools/DESIGN.head.md').read()
open('/verif/DESIGN.md','w').write(t.replace('@@ROWS@@','\n'.join(rows)).replace('@@NCLAIMS@@',str(len(props))).replace('@@NTHM@@',str(sum(len(c['theorems']) for c in m.values()))))
