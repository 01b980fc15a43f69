import os, sys
from golit import *
FM['tvParser']={}
ST=dict(psStart='start',psCreationInfo='creationInfo',psPackage='package',psFile='file',psSnippet='snippet',psOtherLicense='otherLicense',psReview='review')
LTY={'Package':'(Package Nat)','File':'(File Nat)','Document':'HDoc','Snippet':'Snippet'}
ELEM={('Document','Packages'):'Package',('Document','Files'):'File',('Package','Files'):'File',('Document','OtherLicenses'):'OtherLicense',('Document','Relationships'):'Relationship',('Document','Annotations'):'Annotation',('Document','Reviews'):'Review',('Document','ExternalDocumentReferences'):'ExternalDocumentRef',
 ('Package','PackageChecksums'):'Checksum',('File','Checksums'):'Checksum',('Package','PackageExternalReferences'):'PackageExternalReference',('File','ArtifactOfProjects'):'ArtifactOfProject',('Snippet','Ranges'):'SnippetRange',('CreationInfo','Creators'):'Creator'}
SUB={('Document','CreationInfo'):('CreationInfo',1),('Package','PackageSupplier'):('Supplier',1),('Package','PackageOriginator'):('Originator',1),('Package','PackageVerificationCode'):('PackageVerificationCode',1),
 ('Annotation','Annotator'):('Annotator',0),('Annotation','AnnotationSPDXIdentifier'):('DocElementID',0),('Relationship','RefA'):('DocElementID',0),('Relationship','RefB'):('DocElementID',0),('ExternalDocumentRef','Checksum'):('Checksum',0),
 ('SnippetRange','StartPointer'):('SnippetRangePointer',0),('SnippetRange','EndPointer'):('SnippetRangePointer',0)}
LIST={'FileTypes','LicenseInfoInFiles','FileContributors','FileAttributionTexts','FileDependencies','PackageLicenseInfoFromFiles','PackageAttributionTexts','LicenseInfoInSnippet','SnippetAttributionTexts','LicenseCrossReferences','ExcludedFiles'}
BOOL={'FilesAnalyzed','IsFilesAnalyzedTagPresent','IsUnpackaged'}
INT={'Offset','LineNumber'}
ROOT={'doc':('(s.doc.getD {})','Document','s.doc.isSome'),'pkg':('(s.pkgs.getD (s.pkg.getD 999) {})','Package','s.pkg.isSome'),'file':('(s.files.getD (s.file.getD 999) {})','File','s.file.isSome'),
 'snippet':('(s.snips.getD (s.snippet.getD 999) {})','Snippet','s.snippet.isSome'),'otherLic':('((s.doc.getD {}).otherLicenses.getD (s.otherLic.getD 999) {})','OtherLicense','s.otherLic.isSome'),
 'rln':('((s.doc.getD {}).relationships.getD (s.rln.getD 999) {})','Relationship','s.rln.isSome'),'ann':('((s.doc.getD {}).annotations.getD (s.ann.getD 999) {})','Annotation','s.ann.isSome'),'rev':('((s.doc.getD {}).reviews.getD (s.rev.getD 999) {})','Review','s.rev.isSome'),
 'pkgExtRef':('((s.pkgs.getD (s.pkg.getD 999) {}).externalRefs.getD (s.pkgExtRef.getD 999) {})','PackageExternalReference','s.pkgExtRef.isSome'),
 'fileAOP':('((s.files.getD (s.file.getD 999) {}).artifactOfProjects.getD (s.fileAOP.getD 999) {})','ArtifactOfProject','s.fileAOP.isSome')}
class Skip(Exception): pass
def access(p,alias):
    """parse parser.x.y[i].z ; returns (lean,type,existsExpr)"""
    k,v=p.nx()
    parts=v.split('.')
    if parts[0]=='parser': parts=parts[1:]; 
    elif parts[0] in alias: parts=alias[parts[0]]+parts[1:]
    else: raise Skip('acc '+v)
    if parts==['st']: return ('s.st','st',None)
    if isinstance(parts[0],tuple): cur,ty,ex=parts[0]
    else: cur,ty,ex=ROOT[parts[0]]
    parts=parts[1:]
    while True:
        while parts:
            f=parts.pop(0)
            if ty not in FM or f not in FM[ty]: raise Skip(f'field {ty}.{f}')
            n=FM[ty][f]
            if (ty,f) in SUB:
                t2,o=SUB[(ty,f)]
                ex=f'({cur}.{n}).isSome' if o else None
                cur=f'(({cur}.{n}).getD {{}})' if o else f'({cur}.{n})'; ty=t2
            elif (ty,f) in ELEM: cur=f'({cur}.{n})'; ex=f'(!{cur}.isEmpty)'; ty=('list',ELEM[(ty,f)])
            elif (ty,f)==('File','Snippets'): cur=f'({cur}.{n})'; ex=None; ty='map'
            elif f in LIST: cur=f'({cur}.{n})'; ex=None; ty=('list','string')
            else: cur=f'({cur}.{n})'; ex=None; ty='bool' if f in BOOL else 'int' if f in INT else 'string'
        if p.pk()[1]=='[':
            p.nx(); i=p.expr(); p.ex(']')
            if ty=='map': cur=f'(s.snips.getD ((mapGet {lean(i)} {cur}).getD 999) {{}})'; ty='Snippet'; ex=None
            else:
                e=ty[1]; 
                if e in('Package','File'): cur=f'(s.{"pkgs" if e=="Package" else "files"}.getD ({cur}.getD {i} 999) {{}})'
                elif e=='string': cur=f'({cur}.getD {i} [])'
                else: cur=f'({cur}.getD {i} {{}})'
                ty=e; ex='true'
            if p.pk()[1]=='.':
                p.nx(); parts=p.nx()[1].split('.')
            continue
        return cur,ty,ex
def init(pr):
    f=pr.f; fs=[]; pk=[];fl=[];sn=[]
    def hd(d):
        if d is None: return None
        g=dict(d.f); extra=[]
        ol=[];
        out=[]
        for k,x in g.items():
            if x is None: continue
            if k=='Packages': out.append('packages := ['+', '.join(ref(pk,y) for y in x)+']')
            elif k=='Files': out.append('files := ['+', '.join(ref(fl,y) for y in x)+']')
            else:
                e=lean(x); n=FM['Document'][k]
                if n in OPT: e='some '+e
                out.append(f'{n} := {e}')
        return '({ '+', '.join(out)+' } : HDoc)'
    def ref(h,y):
        for i,z in enumerate(h):
            if z is y: return str(i)
        h.append(y); return str(len(h)-1)
    if f.get('pkg') is not None: fs.append('pkg := some '+ref(pk,f['pkg']))
    if f.get('file') is not None: fs.append('file := some '+ref(fl,f['file']))
    if f.get('snippet') is not None: fs.append('snippet := some '+ref(sn,f['snippet']))
    d=f.get('doc')
    for a,b in(('otherLic','OtherLicenses'),('rln','Relationships'),('ann','Annotations'),('rev','Reviews')):
        if f.get(a) is not None:
            l=d.f.setdefault(b,[]) or []
            d.f[b]=l
            ix=[i for i,z in enumerate(l) if z is f[a]]
            if not ix: l.append(f[a]); ix=[len(l)-1]
            fs.append(f'{a} := some {ix[0]}')
    if f.get('pkgExtRef') is not None or f.get('fileAOP') is not None: raise Skip('init ref')
    if d is not None: fs.append('doc := some '+hd(d))
    if 'st' in f: fs.append('st := .'+f['st'])
    def hp(p):
        out=[]
        for k,x in p.f.items():
            if x is None: continue
            if k=='Files': out.append('files := ['+', '.join(ref(fl,y) for y in x)+']'); continue
            e=lean(x); n=FM['Package'][k]
            if n in OPT and isinstance(x,S): e='some '+e
            out.append(f'{n} := {e}')
        return '({ '+', '.join(out)+' } : Package Nat)'
    def hf(p):
        out=[]
        for k,x in p.f.items():
            if x is None: continue
            if k=='Snippets': out.append('snippets := ['+', '.join(f'({lean(a)}, {ref(sn,b)})' for a,b in x[1])+']'); continue
            out.append(f'{FM["File"][k]} := {lean(x)}')
        return '({ '+', '.join(out)+' } : File Nat)'
    ps=[hp(x) for x in pk]; ff=[hf(x) for x in fl]
    fs.append('pkgs := ['+', '.join(ps)+']'); fs.append('files := ['+', '.join(ff)+']'); fs.append('snips := ['+', '.join(lean(x) for x in sn)+']')
    return '({ '+', '.join(fs)+' } : Parser)'
out=['import Verif','open Verif','''def step (n : String) (v : Version) (s : Parser) (r : Res Parser) (good : Bool) : IO Parser := do
  match r with
  | .ok s' => if good then pure () else IO.println s!"DIFF {n}: accepted"
              pure s'
  | .err => if good then IO.println s!"DIFF {n}: error" else pure ()
            pure s
  | .panic => IO.println s!"DIFF {n}: panic"; pure s
def ck (n : String) (b : Bool) : IO Unit := if b then pure () else IO.println s!"DIFF {n}"''']
def unroll(ts):
    out=[];i=0
    lists={}
    while i<len(ts):
        if ts[i][1]=='for' and ts[i+2][1]==',' and ts[i+5-1][1]==':=' and ts[i+5][1]=='range':
            var=ts[i+3][1]; src=ts[i+6][1]; 
            j=i+7
            if ts[j][1]!='{' or src not in lists: out.append(ts[i]); i+=1; continue
            d=0;k=j
            while True:
                if ts[k][1]=='{': d+=1
                if ts[k][1]=='}':
                    d-=1
                    if d==0: break
                k+=1
            body=ts[j+1:k]
            # only unroll loops that call the parser
            if any(x[1].startswith('parser.parsePair') for x in body):
                for v in lists[src]:
                    out+= [v if x[1]==var else x for x in body]
            i=k+1; continue
        if ts[i][0]=='id' and i+5<len(ts) and ts[i+1][1]==':=' and ts[i+2][1]=='[' and ts[i+4][1]=='string' and ts[i+5][1]=='{':
            k=i+6; l=[]
            while ts[k][1]!='}':
                if ts[k][1]!=',': l.append(ts[k])
                k+=1
            lists[ts[i][1]]=l
        out.append(ts[i]); i+=1
    return out
nt=ns=na=0; skips={}

for ver in ('v2_1','v2_2','v2_3'):
  V='.v2'+ver[3]
  for f in sorted(glob.glob(f'/repo/spdx/v2/{ver}/tagvalue/reader/parse*_test.go')):
    src=open(f).read()
    for m in re.finditer(r'^func (Test\w+)\(t \*testing\.T\) \{\n(.*?)^\}',src,re.M|re.S):
        name,body=m.groups(); env=dict(ST); alias={}
        L=[f'def t_{ver}_{name} : IO Unit := do']; started=False; pend=None; pr=None; fine=0
        ts=unroll(toks(body)); p=P(ts,env)
        def note(r): skips[r]=skips.get(r,0)+1
        def start():
            global started
        try:
          while p.i<len(ts):
            k,v=p.pk(); v1=p.pk(1)[1]; save=p.i
            try:
                if k=='id' and v=='parser' and v1==':=':
                    p.nx();p.nx(); pr=p.expr(); started=False; continue
                if k=='id' and v.startswith('parser.') and v1=='(':
                    fn=v.split('.')[1]
                    if fn.startswith('parsePair'):
                        p.nx();p.nx(); tag=p.expr(); p.ex(','); val=p.expr(); p.ex(')')
                        if not started:
                            L.append(f'  let mut s : Parser := {init(pr)}'); L.append('  let mut r : Res Parser := .ok s'); started=True
                        F={'parsePair':f'parsePair {V} s ⟨{lean(tag)}, {lean(val)}⟩'}.get(fn) or {
                         'parsePairFromStart':f'parseFromStart {V} s','parsePairFromCreationInfo':f'parseFromCreationInfo {V} s','parsePairFromPackage':f'parseFromPackage {V} s','parsePairFromFile':f'parseFromFile {V} s','parsePairFromSnippet':f'parseFromSnippet {V} s','parsePairFromOtherLicense':f'parseFromOtherLicense {V} s','parsePairFromReview':f'parseFromReview {V} s','parsePairForRelationship':f'parseForRelationship {V} s','parsePairForAnnotation':'parseForAnnotation s'}[fn]+f' (Tag.ofStr {lean(tag)}) {lean(val)}'
                        pend=F; continue
                    raise Skip('fn '+fn)
                if k=='id' and v=='err' and v1 in(':=','='):
                    p.nx();p.nx(); continue
                p.nolit=False
                if v=='if':
                    p.nx(); p.nolit=True
                    if p.pk()[1]=='err':
                        p.nx(); op=p.nx()[1]; p.ex('nil')
                        if pend:
                            L.append(f'  s ← step "{ver} {name} {len(L)}" {V} s ({pend}) {"true" if op=="!=" else "false"}'); pend=None; ns+=1; fine+=1
                        continue
                    if pend: L.append(f'  s ← step "{ver} {name} {len(L)}" {V} s ({pend}) true'); pend=None
                    if not started:
                        continue
                    if p.pk()[1]=='len':
                        p.nx();p.ex('('); a,ty,ex=access(p,alias); p.ex(')'); op=p.nx()[1]; rhs=p.expr()
                        if op!='!=' : raise Skip('len op '+op)
                        L.append(f'  ck "{ver} {name} {len(L)}" ({a}.length == {rhs})'); na+=1; continue
                    while True:
                        a,ty,ex=access(p,alias); op=p.nx()[1]
                        if p.pk()[1]=='nil':
                            p.nx()
                            if ex is None: raise Skip('nil of '+str(ty))
                            L.append(f'  ck "{ver} {name} {len(L)}" ({"" if op=="==" else "!"}{ex})'); na+=1
                        elif op=='!=':
                            
                            if p.pk()[1].startswith('parser.') or p.pk()[1] in alias:
                                b,_,_=access(p,alias); L.append(f'  ck "{ver} {name} {len(L)}" (decide ({a} = {b}))'); na+=1; continue
                            rhs=p.expr()
                            if isinstance(rhs,S) and ty!=rhs.t: raise Skip('ty')
                            if isinstance(ty,tuple): raise Skip('list')
                            if ty=='st': rhs='(.'+rhs+' : PState)'
                            elif isinstance(rhs,int) and not isinstance(rhs,bool): rhs=f'({rhs} : Int)'
                            else:
                                nl=rhs is None; rhs=lean(rhs) if rhs is not None else '{}'
                                rhs=re.sub(r' : FileV\)$',' : File Nat)',rhs); rhs=re.sub(r' : PackageV\)$',' : Package Nat)',rhs)
                                if 'PackageV' in rhs or 'FileV' in rhs: raise Skip('nested')
                            L.append(f'  ck "{ver} {name} {len(L)}" (decide ({a} = {rhs}))'); na+=1
                        else: raise Skip('op '+op)
                        if p.pk()[1]=='||': p.nx(); continue
                        break
                    continue
                if k=='id' and v1==':=':
                    n=v; p.nx();p.nx()
                    if p.pk()[1].startswith('parser.') and p.pk(1)[1]!='(':
                        if not started:
                            # alias to initial object
                            q=p.nx()[1].split('.')[1:]
                            o=pr
                            for c in q: o=o.f.get(c) if o else None
                            env[n]=o
                            continue
                        a,ty,ex=access(p,alias)
                        if pend: L.append(f'  s ← step "{ver} {name} {len(L)}" {V} s ({pend}) true'); pend=None
                        L.append(f'  let al{len(L)} := {a}'); alias[n]=[(f'al{len(L)-1}',ty,ex)]; continue
                    env[n]=p.expr(); continue
                if k=='id' and v1=='=' and v.startswith('parser.'):
                    if started: raise Exception('assign after start')
                    p.nx();p.nx(); q=v.split('.')[1:]
                    o=pr
                    for c in q[:-1]: o=o.f[c]
                    if p.pk()[1]=='append':
                        p.nx();p.ex('('); 
                        depth=0
                        while p.pk()[1]!=',': p.nx()
                        p.nx()
                        if p.pk()[1].startswith('parser.'):
                            qq=p.nx()[1].split('.')[1:]; x=pr
                            for c in qq: x=x.f[c]
                        else: x=p.expr()
                        p.ex(')')
                        o.f[q[-1]]=(o.f.get(q[-1]) or [])+[x]
                    elif p.pk()[1].startswith('parser.'):
                        qq=p.nx()[1].split('.')[1:]; x=pr
                        for c in qq: x=x.f[c]
                        o.f[q[-1]]=x
                    else: o.f[q[-1]]=p.expr()
                    continue
                if k=='id' and v1=='[' and v.startswith('parser.') and not started and p.pk(3)[1]==']' and p.pk(4)[1]=='=':
                    p.nx();p.nx();i=p.expr();p.ex(']');p.ex('=')
                    q=v.split('.')[1:]; o=pr
                    for c in q: o=o.f[c]
                    if p.pk()[1].startswith('parser.'):
                        qq=p.nx()[1].split('.')[1:]; x=pr
                        for c in qq: x=x.f[c]
                    else: x=p.expr()
                    o[1].append((i,x)); continue
                p.nx()
            except (Skip,KeyError) as e:
                note(str(e)); p.i=max(p.i,save+1)
          if pend: L.append(f'  s ← step "{ver} {name} {len(L)}" {V} s ({pend}) true')
          if fine:
            nt+=1; out.append('\n'.join(L)); out.append(f'#eval t_{ver}_{name}')
          else: note('notest '+name)
        except Exception as e:
            note(f'FAIL {ver} {name}: {e!r}'[:200])
open(sys.argv[1],'w').write('\n'.join(out)+'\n#eval IO.println "done"\n')
print(nt,'tests',ns,'steps',na,'assertions')
for k,v in skips.items(): print(v,k)
