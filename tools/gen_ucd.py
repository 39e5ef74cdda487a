#!/usr/bin/env python3
"""Transcribes the relevant entries of the shipped UCD files into lean/Verif/Spec/UCDData.lean (in file order)."""
base='/repo/textseg/internal/charprops/ucd/'
def parse(fn):
    for ln,l in enumerate(open(base+fn,encoding='utf8'),1):
        l=l.split('#')[0]
        if ';' not in l: continue
        r,f=l.split(';',1); r=r.strip(); a=r.split('..')
        yield ln,int(a[0],16),int(a[-1],16),[x.strip() for x in f.split(';')]
out=['import Verif.Spec.UAX29','/-!','# Specification data: the entries of the shipped Unicode 17 data files','',
'Generated by tools/gen_ucd.py from textseg/internal/charprops/ucd: one triple (first, last, value) per data line, in file order.','-/','','namespace Textseg.Spec','','open GCB InCB','']
def emit(name,ty,doc,items):
    out.append('/-- %s -/'%doc)
    # split in chunks to keep elaboration fast
    ch=[items[i:i+150] for i in range(0,len(items),150)]
    names=[]
    for k,c in enumerate(ch):
        n='%s_%d'%(name,k); names.append(n)
    body=[]
    for n,c in zip(names,ch):
        body.append('def %s : List (%s) := ['%(n,ty)); row=[]
        for i,(s,e,v) in enumerate(c):
            body.append('  (0x%04X, 0x%04X, %s)%s'%(s,e,v,',' if i<len(c)-1 else ']'))
    doc=out.pop()
    out.extend(body); out.append(doc)
    out.append('def %s : List (%s) :='%(name,ty)); out.append('  '+' ++ '.join(names)); out.append('')
m={'Regional_Indicator':'RegionalIndicator'}
g=[(s,e,'.'+m.get(f[0],f[0])) for _,s,e,f in parse('auxiliary/GraphemeBreakProperty.txt')]
x=[(s,e,'()') for _,s,e,f in parse('emoji/emoji-data.txt') if f[0]=='Extended_Pictographic']
i=[(s,e,'.'+f[1]) for _,s,e,f in parse('DerivedCoreProperties.txt') if f[0]=='InCB']
emit('graphemeBreakProperty','Nat × Nat × GCB','All data lines of ucd/auxiliary/GraphemeBreakProperty.txt (%d lines).'%len(g),g)
emit('extendedPictographic','Nat × Nat × Unit','The data lines of ucd/emoji/emoji-data.txt with property Extended_Pictographic (%d lines).'%len(x),x)
emit('indicConjunctBreak','Nat × Nat × InCB','The data lines of ucd/DerivedCoreProperties.txt with property InCB (%d lines).'%len(i),i)
out.append('end Textseg.Spec\n')
open('/verif/lean/Verif/Spec/UCDData.lean','w').write('\n'.join(out))
print(len(g),len(x),len(i))
