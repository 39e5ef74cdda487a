#!/usr/bin/env python3
"""Transcribes textseg/internal/charprops/property_table_raw.go into lean/Verif/Model/TableData.lean."""
import re
src=open('/repo/textseg/internal/charprops/property_table_raw.go').read()
lines=src.split('\n')
li=next(i for i,l in enumerate(lines) if l.startswith('var lookupIndices'))
lp=next(i for i,l in enumerate(lines) if l.startswith('var lookupProps'))
def arr(a,b): return [int(x,16) for x in re.findall(r'0x([0-9a-f]{2}),','\n'.join(lines[a:b]))]
idx=arr(li,lp); props=arr(lp,len(lines))
assert len(idx)%64==0 and len(props)%64==0
out=['import Verif.Model.Go','/-!','# Model of textseg/internal/charprops/property_table_raw.go','',
'Generated by tools/gen_table.py: one number per 64-byte block ("block 0x...." in the Go file); its hexadecimal','digits, read from left to right, are the 64 bytes of the block in the order of the Go source.','-/','','namespace Textseg','']
def emit(name,a,l0,l1):
    out.append('/-- property_table_raw.go:%d-%d `%s` (%d elements) -/'%(l0+1,l1,name,len(a)))
    out.append('def %s : PackedTable := ⟨['%name)
    n=len(a)//64
    for k in range(n):
        out.append('  -- block 0x%04x'%k)
        out.append('  0x'+''.join('%02x'%x for x in a[64*k:64*k+64])+(',' if k<n-1 else '⟩'.replace('⟩',']⟩')))
    out.append('')
endp=max(i for i,l in enumerate(lines) if l.strip()=='}')
emit('lookupIndices',idx,li,lp)
emit('lookupProps',props,lp,endp+1)
out.append('end Textseg\n')
open('/verif/lean/Verif/Model/TableData.lean','w').write('\n'.join(out))

o=['/-! Generated by tools/gen_table.py: the two tables as single numbers, for evaluation in the kernel. They are proved','equal to the tables of Model/TableData.lean in Proofs/Table.lean. -/','','namespace Textseg','',
'def idxNum : Nat := 0x'+''.join('%02x'%x for x in idx),'','def propsNum : Nat := 0x'+''.join('%02x'%x for x in props),'','end Textseg','']
open('/verif/lean/Verif/Proofs/TableNum.lean','w').write('\n'.join(o))
