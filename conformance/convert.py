import os, sys
from golit import *
src=open('/repo/convert/spdx_document_conversion_test.go').read()
ts=toks(src); p=P(ts,{})
cases=[]
verOf={'v2_1':'.v21','v2_2':'.v22','spdx':'.v23','v2_3':'.v23'}
cur=None
while p.i<len(ts):
    k,v=p.pk()
    if k=='id' and v=='name' and p.pk(1)[1]==':':
        p.nx();p.nx(); cur=[p.expr()]; continue
    if k=='id' and v in('source','expected') and p.pk(1)[1]==':' and cur:
        p.nx();p.nx(); t=p.pk()[1]; cur.append((verOf[t.split('.')[0]] if '.' in t else t,p.expr()))
        if len(cur)==3: cases.append(cur); cur=None
        continue
    p.nx()
out=['import Verif','open Verif','def shown (d : Doc) : Doc := { d with packages := d.packages.map fun p => { p with isUnpackaged := false } }']
for n,(va,a),(vb,b) in cases:
    out.append(f'def a_{len(out)} : Doc := {lean(a)}\ndef b_{len(out)} : Doc := {lean(b)}')
    i=len(out)-1
    for z in('true','false'):
        for w in ('true','false'):
            out.append(f'#eval match convertWith ⟨{z}, {w}⟩ true {va} {vb} a_{i} with | .ok d => IO.println s!"{n}: same {{decide (shown d = shown b_{i})}}" | _ => IO.println "{n}: fails"')
open(sys.argv[1],'w').write('\n'.join(out)+'\n')
print(len(cases))
