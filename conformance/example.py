import os, sys
from golit import *
out=['import Verif','open Verif','def cp : Version → Version → Doc → Doc := fun _ _ d => d']
for ver,v in(('v2_2','.v22'),('v2_3','.v23')):
    src=open(f'/repo/spdx/v2/{ver}/example/example.go').read()
    ts=toks(src); p=P(ts,{})
    while not (p.pk()[1]=='var' and p.pk(1)[1]=='example'): p.nx()
    p.nx();p.nx();p.nx(); 
    p.env['v']=1
    d=p.expr()
    out.append(f'def ex{ver} : Doc := {lean(d)}')
    out.append(f'''def go{ver} : IO Unit := do
  let s ← IO.FS.readFile "/repo/examples/sample-docs/json/SPDXJSONExample-{ver.replace("_",".")}.spdx.json"
  match readJsonText insertionSorter cp (fun _ => true) (fun _ => .panic) true {v} s.toList with
  | .ok d => IO.println s!"{ver} json read = example: {{decide ({{{{ d with relationships := [], spdxVersion := [] }}}} = {{{{ ex{ver} with relationships := [], spdxVersion := [] }}}}) && d.relationships.isPerm ex{ver}.relationships}}"; 
  | _ => IO.println "err"
#eval go{ver}''')
open(sys.argv[1],'w').write('\n'.join(out)+'\n')
