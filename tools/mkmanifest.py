#!/usr/bin/env python3
"""Writes /verif/MANIFEST.json and lean/Verif.lean: collects the theorems named C<nn>_... in lean/Verif/Props."""
import json, re, glob, os
ROOT='/verif'
# status and note per property; a property without an entry here is 'proved' when it has theorems
NOTES=json.load(open(ROOT+'/tools/notes.json'))
th={}
for f in sorted(glob.glob(ROOT+'/lean/Verif/Props/*.lean')):
    ns=[]
    for line in open(f):
        m=re.match(r'namespace (\S+)',line)
        if m: ns.append(m.group(1))
        m=re.match(r'end (\S+)',line)
        if m and ns and ns[-1]==m.group(1): ns.pop()
        m=re.match(r'(?:private )?theorem (C\d\d_\w+)',line)
        if m: th.setdefault(m.group(1)[:3],[]).append('.'.join(ns+[m.group(1)]))
claims=[]
for l in open(ROOT+'/properties.jsonl'):
    d=json.loads(l); i=d['id']
    st,note=NOTES.get(i,[None,''])
    t=th.get(i,[])
    if st is None: st='proved' if t else 'partial'
    if not t and st!='not_applicable': note=(note or 'not yet proved')
    claims.append(dict(property=i,status=st,theorems=t,note=note))
json.dump({"claims":claims},open(ROOT+'/MANIFEST.json','w'),indent=1,ensure_ascii=False)
open(ROOT+'/MANIFEST.json','a').write('\n')
mods=[]
for d in ['Model','Text','GoLang','GoMem','Spec','Proofs','Props','Tests']:
    for f in sorted(glob.glob(ROOT+f'/lean/Verif/{d}/*.lean')):
        n=os.path.basename(f)[:-5]
        if n!='Smoke': mods.append(f'import Verif.{d}.{n}')
open(ROOT+'/lean/Verif.lean','w').write('\n'.join(mods)+'\n')
for c in claims: print(c['property'],c['status'],len(c['theorems']))
