"""The calls of reader methods in the tests of spdx/v2/v2_{2,3}/rdf/reader: whether an error is expected."""
import re,sys,glob,os
import xml.etree.ElementTree as ET
out_path=sys.argv[1]
RDF='{http://www.w3.org/1999/02/22-rdf-syntax-ns#}'
BASE='http://spdx.org/spdxdocs/spdx-example-444504E0-4F89-41D3-9A0C-0305E82C3301'
HEAD='''<rdf:RDF xmlns:spdx="http://spdx.org/rdf/terms#" xmlns:rdf="http://www.w3.org/1999/02/22-rdf-syntax-ns#" xmlns="%s#"
 xmlns:doap="http://usefulinc.com/ns/doap#" xmlns:j.0="http://www.w3.org/2009/pointers#" xmlns:rdfs="http://www.w3.org/2000/01/rdf-schema#">'''%BASE
def graph(body):
    t=ET.fromstring(HEAD+body+'</rdf:RDF>')
    tr=[];cnt=[0]
    def q(s):
        a,b=s[1:].split('}'); return a+b
    def res(u): return BASE+u if u.startswith('#') else u
    def node(e):
        if RDF+'about' in e.attrib: n=('iri',res(e.attrib[RDF+'about']))
        elif RDF+'ID' in e.attrib: n=('iri',BASE+'#'+e.attrib[RDF+'ID'])
        elif RDF+'nodeID' in e.attrib: n=('nodeIdLiteral',e.attrib[RDF+'nodeID'])
        else: cnt[0]+=1; n=('blank','N%d'%cnt[0])
        if q(e.tag)!=RDF[1:-1]+'Description':
            tr.append((n,('iri',RDF[1:-1]+'type'),('iri',q(e.tag))))
        for p in e:
            pn=('iri',q(p.tag))
            if RDF+'resource' in p.attrib: tr.append((n,pn,('resourceLiteral',res(p.attrib[RDF+'resource']))))
            elif RDF+'nodeID' in p.attrib: tr.append((n,pn,('nodeIdLiteral',p.attrib[RDF+'nodeID'])))
            elif len(p):
                for c in p:
                    i=len(tr); tr.append(None); o=node(c); tr[i]=(n,pn,o)
            else: tr.append((n,pn,('literal',(p.text or '').strip())))
        return n
    for e in t: node(e)
    tr[:]=list(dict.fromkeys(tr))   # gordf keeps each triple once
    objs={o[1] for _,_,o in tr if o[0]!='literal'}
    roots=[]
    for s,_,_ in tr:
        if s[1] not in objs and s not in roots: roots.append(s)
    return tr,roots
def ls(s): return '"'+s.replace('\\','\\\\').replace('"','\\"').replace('\n','\\n').replace('\t','\\t').replace('\r','')+'".toList'
def ln(n): return f'⟨.{n[0]}, {ls(n[1])}⟩'
METH={
 'getArtifactFromNode':'tell (artifactAt g n)','getChecksumFromNode':'tell (checksumAt g n)',
 'setFileChecksumFromNode':'tell (elementChecksumAt V g n)','setPackageChecksum':'tell (elementChecksumAt V g n)',
 'parseAnnotationFromNode':'tell (annotationAt g n)','parseCreationInfoFromNode':'tell (foldTriples creationStep {} (g.of n))',
 'setReviewFromNode':'tell (reviewAt g n)','getExternalDocumentRefFromNode':'tell (externalDocumentRefAt g n)',
 'getPackageExternalRef':'tell (externalRefAt g n)','setPackageVerificationCode':'tell (verificationAt V g none n)',
 'getFileFromNode':'run ((calls V g g.depth).file n)','getPackageFromNode':'run ((calls V g g.depth).package n)',
 'getLicenseFromNode':'tell (licenseAt g n)','getExtractedLicensingInfoFromNode':'tell (extractedAt g n)',
 'getLicenseExceptionFromNode':'tell (exceptionAt g n)','getWithExceptionOperatorFromNode':'tell (withExceptionAt g n)',
 'getOrLaterOperatorFromNode':'tell (orLaterAt g n)','getSpecialLicenseFromNode':'tell (specialOf n.id)',
 'getAnyLicenseFromNode':'run (getAnyLicense g g.depth n)','getSimpleLicensingInfoFromNode':'tell (simpleAt g n)',
 'getSimpleLicensingInfoFromTriples':'tell (simpleOf g.uriValid g.triples)',
 'getConjunctiveLicenseSetFromNode':'run (getAnyLicense g g.depth n)','getDisjunctiveLicenseSetFromNode':'run (getAnyLicense g g.depth n)',
 'getSpdxDocNode':'tell (docNode g)','parseSpdxDocumentNode':'run (documentAt g (calls V g g.depth) n)',
 'getSnippetInformationFromNode2_3':"run (do let i ← RdfM.lift (extractElementID (lastPart n.id)); RdfM.fold (snippetStep V g (calls V g g.depth)) { spdxId := i } (g.of n))",
 'setSnippetRangeFromNode':'run (rangeAt g (calls V g g.depth) [] n)','getPointerFromNode':'run (pointerAt g (calls V g g.depth) n)',
 'parseRelationship':'run ((calls V g g.depth).relationship t)',
 'parseRelatedElementFromTriple':'run (relatedElement (calls V g g.depth) t)',
}
METH['getSnippetInformationFromNode2_2']=METH['getSnippetInformationFromNode2_3']
cases=[];skipped=[]
for ver in ('2','3'):
    V='.v2'+ver
    consts={'RDFNS':'"http://www.w3.org/1999/02/22-rdf-syntax-ns#"'}
    src=open(f'/repo/spdx/v2/v2_{ver}/rdf/reader/constants.go').read()
    for m in re.finditer(r'^\s*(\w+)\s*=\s*(.+)$',src,re.M): consts[m[1]]=m[2].strip()
    def const(n):
        parts=re.findall(r'"([^"]*)"|([A-Z_]\w*)',consts[n])
        return ''.join(a if a or not b else const(b) for a,b in parts)
    for f in sorted(glob.glob(f'/repo/spdx/v2/v2_{ver}/rdf/reader/*_test.go')):
        src=open(f).read()
        for fn in re.finditer(r'^func (Test\w+)\(t \*testing\.T\) \{\n(.*?)^\}',src,re.M|re.S):
            body=fn[2]; g=None; nodes={}; pending=None; tripl=None
            pat=re.compile(r'parserFromBodyContent\((?:\s*)(`[^`]*`|""|[^)]*)\)|(\w+) :?= (\w+\.gordfParserObj\.Triples\[0\]\.(?:Subject|Object)|(?:gordfW|rdfw)riter\.FilterTriples\([^\n]*\)\[0\]\.(?:Subject|Object)|&gordfParser\.Node\{.*?\n\s*\}|(?:gordfW|rdfw)riter\.FilterTriples\([^\n]*\)\[0\]|\w+\.gordfParserObj\.Triples\[0\])|\w+arser\.(\w+)\(([^\n]*)\)\n|(err (?:==|!=) nil)|(\w+) :?= rdfParser\.gordf',re.S)
            changed=False
            for m in pat.finditer(body):
                if m[1] is not None:
                    c=m[1]
                    if c.startswith('`'): c=c[1:-1]
                    elif c=='""': c=''
                    else: g=None; continue
                    try: g=graph(c)
                    except ET.ParseError as e: g=None; skipped.append((f,fn[1],'xml '+str(e)))
                elif m[2] is not None:
                    e=m[3]
                    if e.startswith('&gordfParser.Node'):
                        k=re.search(r'NodeType:\s*gordfParser\.(\w+)',e); i=re.search(r'ID:\s*([^,\n]*)',e)
                        kk={'IRI':'iri','BLANK':'blank','LITERAL':'literal','RESOURCELITERAL':'resourceLiteral','NODEIDLITERAL':'nodeIdLiteral'}
                        if i:
                            x=i[1].strip()
                            parts=re.findall(r'"([^"]*)"|([A-Z_]\w*)',x)
                            try: nodes[m[2]]=(kk[k[1]] if k else 'iri',''.join(a if a or not b else const(b) for a,b in parts))
                            except KeyError: nodes[m[2]]=None
                    elif g:
                        tr=g[0]
                        mm=re.match(r'(?:gordfW|rdfw)riter\.FilterTriples\([\w.]+, (\S+), (\S+), (\S+)\)\[0\](?:\.(\w+))?',e)
                        if mm:
                            def arg(a): return None if a=='nil' else const(a[1:]) if a.startswith('&') and a[1:] in consts else '?'
                            a=[arg(mm[i]) for i in (1,2,3)]
                            l=[t for t in tr if all(a[i] is None or t[i][1]==a[i] for i in range(3))]
                            if not l: nodes[m[2]]=None; continue
                            nodes[m[2]]=l[0] if mm[4] is None else l[0][0] if mm[4]=='Subject' else l[0][2]
                        elif tr:
                            t=tr[0]
                            nodes[m[2]]=t[0] if e.endswith('Subject') else t[2] if e.endswith('Object') else t
                        else: nodes[m[2]]=None
                elif m[4] is not None:
                    pending=None
                    if m[4] in METH:
                        args=[a.strip() for a in m[5].split(',')]
                        pending=(m[4],args,g,dict(nodes))
                elif m[6] is not None and pending:
                    name,args,gg,nn=pending; pending=None
                    want='err' if '==' in m[6] else 'ok'
                    if gg is None: skipped.append((f,fn[1],name)); continue
                    node=None
                    for a in args:
                        if a in nn: node=nn[a]
                    if node is None and name not in ('getSpdxDocNode','getSimpleLicensingInfoFromTriples'):
                        skipped.append((f,fn[1],name+str(args))); continue
                    cases.append((V,os.path.basename(f),fn[1],name,gg,node,want))
o=['import Verif','open Verif','namespace RdfUnits',
'def valid (s : Str) : Bool := !s.contains \' \' && !s.contains \'%\' && s.contains \':\'',
'def tell {α : Type} (r : Res α) : String := match r with | .ok _ => "ok" | .err => "err" | .panic => "panic"',
'def run {α : Type} (m : RdfM α) : String := match m {} with | .ok _ => "ok" | .err => "err" | .panic => "panic" | .cut => "cut"']
for i,(V,f,fn,name,(tr,roots),node,want) in enumerate(cases):
    o.append(f'def g{i} : Graph := ⟨['+', '.join('⟨'+', '.join(ln(x) for x in t3)+'⟩' for t3 in tr)+'], ['+', '.join(ln(x) for x in roots)+'], valid⟩')
    b=METH[name].replace(' V ',f' {V} ')
    if ' t)' in b and node and len(node)==3: b=b.replace(' t)',' ⟨'+', '.join(ln(x) for x in node)+'⟩)')
    elif node and len(node)==3: b='"?"'
    elif node: b=re.sub(r'\bn\b',lambda _:f'(⟨.{node[0]}, {ls(node[1])}⟩ : RNode)',b)
    b=re.sub(r'\bg\b',f'g{i}',b)
    o.append(f'def r{i} : String := {b}')
o.append('end RdfUnits\nopen RdfUnits in\ndef all : List (String × String × String) := [')
o.append(',\n'.join(f'("{V[1:]} {f} {fn} {name}", "{want}", r{i})' for i,(V,f,fn,name,_,_,want) in enumerate(cases))+']')
o.append('#eval (do let bad := all.filter fun (_, a, b) => a ≠ b; IO.println s!"{all.length} calls, {bad.length} differences"; for x in bad do IO.println s!"{x.1}: expected {x.2.1}, model {x.2.2}" : IO Unit)')
open(out_path,'w').write('\n'.join(o)+'\n')
print(len(cases),'cases',len(skipped),'skipped')
for s in skipped: print('  skipped',os.path.basename(s[0]),s[1],s[2])
