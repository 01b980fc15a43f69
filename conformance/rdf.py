import sys
import xml.etree.ElementTree as ET
RDF='{http://www.w3.org/1999/02/22-rdf-syntax-ns#}'
t=ET.parse('/repo/examples/sample-docs/rdf/SPDXRdfExample-v2.2.spdx.rdf').getroot()
tr=[];cnt=0
def q(s):
    a,b=s[1:].split('}'); return a+b
def node(e):
    global cnt
    if RDF+'about' in e.attrib: n=('iri',e.attrib[RDF+'about'])
    elif RDF+'nodeID' in e.attrib: n=('nodeIdLiteral',e.attrib[RDF+'nodeID'])
    else: cnt+=1; n=('blank','N%d'%cnt)
    if q(e.tag)!='http://www.w3.org/1999/02/22-rdf-syntax-ns#Description':
        tr.append((n,('iri','http://www.w3.org/1999/02/22-rdf-syntax-ns#type'),('iri',q(e.tag))))
    for p in e:
        pn=('iri',q(p.tag))
        if RDF+'resource' in p.attrib: tr.append((n,pn,('resourceLiteral',p.attrib[RDF+'resource'])))
        elif RDF+'nodeID' in p.attrib: tr.append((n,pn,('nodeIdLiteral',p.attrib[RDF+'nodeID'])))
        elif len(p):
            for c in p: 
                i=len(tr); tr.append(None); o=node(c); tr[i]=(n,pn,o)
        else: tr.append((n,pn,('literal',(p.text or ''))))
    return n
top=[node(e) for e in t]
objs={o[1] for _,_,o in tr if o[0]!='literal'}
roots=[]
for s,_,_ in tr:
    if s[1] not in objs and s not in roots: roots.append(s)
print(len(tr),'triples; top',top,'roots',roots)
doc=[s for s,p,o in tr if o[1].endswith('#SpdxDocument')]
print(doc)
from collections import Counter
print(Counter(s[0] for s,_,_ in tr),Counter(o[0] for _,_,o in tr))
def ls(s): return '"'+s.replace('\\','\\\\').replace('"','\\"').replace('\n','\\n').replace('\t','\\t').replace('\r','')+'".toList'
def ln(n): return f'⟨.{n[0]}, {ls(n[1])}⟩'
dr=[d for d in doc if d not in roots]
out=['import Verif','open Verif']
ch=[tr[i:i+40] for i in range(0,len(tr),40)]
for i,c in enumerate(ch):
    out.append(f'def ts{i} : List Triple := ['+',\n '.join('⟨'+', '.join(ln(x) for x in t3)+'⟩' for t3 in c)+']')
out.append('def ts : List Triple := '+' ++ '.join(f'ts{i}' for i in range(len(ch))))
out.append('def g : Graph := ⟨ts, ['+', '.join(ln(x) for x in roots+dr)+'], fun _ => true⟩')
open(sys.argv[1],'w').write('\n'.join(out)+'''
def o : MapOrder := ⟨id, fun _ => List.Perm.refl _⟩
def show1 (d : Doc) : IO Unit := do
  IO.println s!"read: {d.packages.length} packages, {d.files.length} files, {d.relationships.length} relationships {d.annotations.length} annotations, {d.otherLicenses.length} other licenses, {d.snippets.length} snippets {d.reviews.length} reviews"

def main1 : IO Unit := do
  match readGraph o g with
  | .ok d => show1 d
  | .err => IO.println "err"
  | .panic => IO.println "panic"
  | .cut => IO.println "cut"
#eval main1
''')
