#!/usr/bin/env python3
"""Embeds a text file of /repo literally, line by line: gen_text.py <file under /repo> <module> <definition>"""
import sys, os
path, module, defn = sys.argv[1:4]
HERE=os.path.dirname(os.path.abspath(__file__))
data=open('/repo/'+path,'rb').read()
assert data.endswith(b'\n') and b'\r' not in data and b'\0' not in data
lines=data.decode('utf8').split('\n')[:-1]
def esc(s):
    return s.replace('\\','\\\\').replace('"','\\"').replace('\t','\\t')
K=64; names=[]; out=[]
for i in range(0,len(lines),K):
    nm='%s%d'%(defn,i//K); names.append(nm)
    part=lines[i:i+K]
    out.append('/-- lines %d-%d -/\ndef %s : List Nat := [\n%s]\n'%(i+1,i+len(part),nm,',\n'.join('text! "%s"'%esc(l) for l in part)))
src='''import Verif.Model.Text
/-!
# The text of %s

Generated by tools/gen_text.py.
-/

namespace Textseg.Text

%s
/-- The lines of the file, in parts of %d lines. -/
def %s : List (List Nat) := [%s]

end Textseg.Text
'''%(path,'\n'.join(out),K,defn,', '.join(names))
open(os.path.join(HERE,'../lean/Verif/Text/%s.lean'%module),'w').write(src)
