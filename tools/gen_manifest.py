#!/usr/bin/env python3
"""Generates /verif/MANIFEST.json from the theorem names in lean/Verif/Props and the notes below."""
import json,re,glob,collections,os
R=os.path.dirname(os.path.dirname(os.path.abspath(__file__)))
NOTES=json.load(open(os.path.join(R,'tools/manifest_notes.json')))
P=[json.loads(l) for l in open(os.path.join(R,'properties.jsonl'))]
d=collections.defaultdict(list)
for f in sorted(glob.glob(os.path.join(R,'lean/Verif/Props/*.lean'))):
    for m in re.finditer(r'^theorem (C\d\d\d?)(_\w*)',open(f).read(),re.M): d[m[1]].append('WG.'+m[1]+m[2])
for k,v in NOTES.get('also',{}).items(): d[k]+=v
claims=[]
for p in P:
    i=p['id']; th=d.pop(i,[])
    n=NOTES['notes'].get(i,'')
    st=NOTES['status'].get(i, 'partial' if any('_partial' in t for t in th) else 'proved')
    if not th: st='partial' if st!='not_applicable' else st; n=n or 'not yet proved'
    claims.append(dict(property=i,status=st,theorems=th,note=n))
if d: print('theorems without property:',sorted(d))
json.dump({'claims':claims},open(os.path.join(R,'MANIFEST.json'),'w'),indent=1)
print(len(claims),sum(len(c['theorems']) for c in claims),[c['property'] for c in claims if not c['theorems']])
