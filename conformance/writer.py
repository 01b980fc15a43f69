import os, sys
from golit import *
out=['import Verif','open Verif','def chk (n : String) (a b : Str) : IO Unit := if a = b then pure () else IO.println s!"DIFF {n}\\n{String.ofList a}\\n--- want\\n{String.ofList b}"']
cnt=0;skip=[]
for ver in ('v2_1','v2_2','v2_3'):
    V='.v'+ver[1]+ver[3]
    V='.v2'+ver[3]
    for f in sorted(glob.glob(f'/repo/spdx/v2/{ver}/tagvalue/writer/save_*_test.go')):
        src=open(f).read()
        for m in re.finditer(r'^func (Test\w+)\(t \*testing\.T\) \{\n(.*?)^\}',src,re.M|re.S):
            name,body=m.groups()
            ts=toks(body); env={}; i=0; done=False
            try:
                p=P(ts,env); pend=None
                # split into statements by scanning for id := / assignments
                while p.i<len(ts):
                    k,v=p.pk()
                    if k=='id' and p.pk(1)[1]==':=' and v not in ('err','c','got'):
                        n=v; p.nx();p.nx()
                        env[n]=p.expr(); continue
                    if k=='id' and p.pk(1)[1]=='=' and '.' in v and v!='err':
                        b,fl=v.split('.',1); p.nx();p.nx()
                        env[b].f[fl]=p.expr(); continue
                    if v=='err' and p.pk(1)[1] in(':=','='):
                        p.nx();p.nx(); fn=p.nx()[1]; p.ex('('); a=p.expr()
                        pend=(fn,a); p.nx(); continue
                    p.nx()
                if pend:
                    fn,a=pend; out.append(f'#eval chk "{ver} {name}" ' + {                           'renderAnnotation':'(emit (renderAnnotation A))','renderCreationInfo':'(emit (renderCreationInfo A))',                           'RenderDocument':f'(match writeTagValue {V} insertionSorter A with | .ok t => t | _ => "ERR".toList)',                           'renderFile':f'(emit (renderFile {V} insertionSorter A))','renderOtherLicense':'(emit (renderOtherLicense A))',                           'renderPackage':f'(emit (renderPackage {V} insertionSorter A))','renderRelationship':'(emit (renderRelationship A))',                           'renderReview':'(emit (renderReview A))','renderSnippet':f'(emit (renderSnippet {V} A))'}[fn].replace(' A)',' '+lean(a)+')').replace(' A with',' '+lean(a)+' with')+' '+(lean(env['want']) if 'want' in env else '("ERR".toList)')); cnt+=1; done=True
                if not done: skip.append((ver,name,'no call'))
            except Exception as e:
                skip.append((ver,name,str(e)[:200]))
open(sys.argv[1],'w').write('\n'.join(out)+'\n#eval IO.println "done"\n')
print(cnt,'vectors; skipped',len(skip)); [print(x) for x in skip]
