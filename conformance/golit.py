import re,glob,json
TOK=re.compile(r'''(?P<ws>\s+)|(?P<lc>//[^\n]*)|(?P<bc>/\*.*?\*/)|(?P<raw>`[^`]*`)|(?P<str>"(?:\\.|[^"\\])*")|(?P<rune>'(?:\\.|[^'\\])+')|(?P<id>[A-Za-z_]\w*(?:\.[A-Za-z_]\w*)*)|(?P<num>-?\d+(?:\.\d+)?)|(?P<op>:=|==|!=|<=|>=|&&|\|\||\+\+|\.\.\.|[{}\[\]()\,:&*=+\-.;<>!%/|^])''',re.S)
def toks(s):
    i=0;out=[]
    while i<len(s):
        m=TOK.match(s,i)
        if not m: raise Exception('tok '+repr(s[i:i+30]))
        i=m.end()
        k=m.lastgroup
        if k in('ws','lc','bc'): 
            continue
        out.append((k,m.group()))
    return out
CONST={}
for f in glob.glob('/repo/spdx/v2/common/*.go')+glob.glob('/repo/spdx/v2/v2_*/*.go'):
    for m in re.finditer(r'^\s*(?:const\s+)?(\w+)\s*(?:\w+\s*)?=\s*"([^"]*)"\s*$',open(f).read(),re.M):
        CONST[m.group(1)]=m.group(2)
class S:
    def __init__(s,t,f): s.t=t; s.f=f
class P:
    def __init__(s,ts,env): s.ts=ts; s.i=0; s.env=env; s.nolit=False
    def pk(s,o=0): return s.ts[s.i+o] if s.i+o<len(s.ts) else ('eof','')
    def nx(s): t=s.pk(); s.i+=1; return t
    def ex(s,v):
        t=s.nx()
        if t[1]!=v: raise Exception(f'expected {v} got {t} near {s.ts[max(0,s.i-6):s.i+6]}')
    def type(s):
        if s.pk()[1]=='*': s.nx(); return s.type()
        if s.pk()[1]=='[': s.nx(); s.ex(']'); return ('list',s.type())
        if s.pk()[1]=='map':
            s.nx(); s.ex('['); k=s.type(); s.ex(']'); return ('map',k,s.type())
        t=s.nx(); return t[1].split('.')[-1]
    def body(s,t):
        s.ex('{')
        if isinstance(t,tuple) and t[0]=='list':
            r=[]
            while s.pk()[1]!='}':
                r.append(s.elem(t[1]))
                if s.pk()[1]==',': s.nx()
            s.nx(); return r
        if isinstance(t,tuple) and t[0]=='map':
            r=[]
            while s.pk()[1]!='}':
                k=s.elem(t[1]); s.ex(':'); r.append((k,s.elem(t[2])))
                if s.pk()[1]==',': s.nx()
            s.nx(); return ('map',r)
        f={}
        while s.pk()[1]!='}':
            k=s.nx(); s.ex(':'); f[k[1]]=s.expr()
            if s.pk()[1]==',': s.nx()
        s.nx(); return S(t,f)
    def elem(s,t):
        if s.pk()[1]=='{': return s.body(t)
        return s.expr()
    def expr(s):
        v=s.post()
        while s.pk()[1]=='+':
            s.nx(); v=v+s.post()
        return v
    def post(s):
        v=s.prim()
        while s.pk()[1] in '.[' and s.pk()[1]:
            if s.nx()[1]=='.': v=v.f[s.nx()[1]]
            else:
                i=s.expr(); s.ex(']'); v=v[i]
        return v
    def prim(s):
        k,v=s.pk()
        if v in('&','*'): s.nx(); return s.prim()
        if k=='str': s.nx(); return json.loads(v) if "\\x" not in v else eval(v)
        if k=='raw': s.nx(); return v[1:-1]
        if k=='num': s.nx(); return int(v)
        if v=='[' or v=='map':
            t=s.type(); return s.body(t)
        if k=='id':
            n=s.nx()[1]
            if n in('true','false'): return n=='true'
            if n=='nil': return None
            if s.pk()[1]=='{' and not s.nolit: return s.body(n.split('.')[-1])
            if s.pk()[1]=='(':
                s.nx(); a=[]
                while s.pk()[1]!=')':
                    a.append(s.expr())
                    if s.pk()[1]==',': s.nx()
                s.nx()
                return s.call(n.split('.')[-1],a)
            if n in s.env: return s.env[n]
            b=n.split('.')[-1]
            if b=='Version': return {'v2_1':'SPDX-2.1','v2_2':'SPDX-2.2'}.get(n.split('.')[0],'SPDX-2.3')
            if b in CONST: return CONST[b]
            raise Exception('unknown ident '+n)
        raise Exception(f'prim {k} {v}')
    def call(s,n,a):
        if n in('ElementID','DocumentID','string','NewBufferString','ChecksumAlgorithm','NewReader'): return a[0]
        if n=='MakeDocElementID': return S('DocElementID',{'DocumentRefID':a[0],'ElementRefID':a[1]})
        if n=='MakeDocElementSpecial': return S('DocElementID',{'SpecialID':a[0]})
        if n=='Bytes': return None
        raise Exception('call '+n)
FM={
'Checksum':dict(Algorithm='algorithm',Value='value'),
'DocElementID':dict(DocumentRefID='documentRefID',ElementRefID='elementRefID',SpecialID='specialID'),
'Creator':dict(Creator='creator',CreatorType='creatorType'),
'Annotator':dict(Annotator='annotator',AnnotatorType='annotatorType'),
'Supplier':dict(Supplier='supplier',SupplierType='supplierType'),
'Originator':dict(Originator='originator',OriginatorType='originatorType'),
'PackageVerificationCode':dict(Value='value',ExcludedFiles='excludedFiles'),
'SnippetRangePointer':dict(Offset='offset',LineNumber='lineNumber',FileSPDXIdentifier='fileSpdxId'),
'SnippetRange':dict(StartPointer='startPointer',EndPointer='endPointer'),
'ExternalDocumentRef':dict(DocumentRefID='documentRefID',URI='uri',Checksum='checksum'),
'CreationInfo':dict(LicenseListVersion='licenseListVersion',Creators='creators',Created='created',CreatorComment='creatorComment'),
'PackageExternalReference':dict(Category='category',RefType='refType',Locator='locator',ExternalRefComment='comment'),
'Annotation':dict(Annotator='annotator',AnnotationDate='date',AnnotationType='type',AnnotationSPDXIdentifier='spdxId',AnnotationComment='comment'),
'Relationship':dict(RefA='refA',RefB='refB',Relationship='relationship',RelationshipComment='comment'),
'Review':dict(Reviewer='reviewer',ReviewerType='reviewerType',ReviewDate='date',ReviewComment='comment'),
'OtherLicense':dict(LicenseIdentifier='licenseIdentifier',ExtractedText='extractedText',LicenseName='licenseName',LicenseCrossReferences='crossReferences',LicenseComment='comment'),
'ArtifactOfProject':dict(Name='name',HomePage='homePage',URI='uri'),
'Snippet':dict(SnippetSPDXIdentifier='spdxId',SnippetFromFileSPDXIdentifier='fromFile',Ranges='ranges',SnippetLicenseConcluded='licenseConcluded',LicenseInfoInSnippet='licenseInfo',SnippetLicenseComments='licenseComments',SnippetCopyrightText='copyrightText',SnippetComment='comment',SnippetName='name',SnippetAttributionTexts='attributionTexts'),
'File':dict(FileName='name',FileSPDXIdentifier='spdxId',FileTypes='types',Checksums='checksums',LicenseConcluded='licenseConcluded',LicenseInfoInFiles='licenseInfoInFiles',LicenseComments='licenseComments',FileCopyrightText='copyrightText',ArtifactOfProjects='artifactOfProjects',FileComment='comment',FileNotice='notice',FileContributors='contributors',FileAttributionTexts='attributionTexts',FileDependencies='dependencies',Snippets='snippets',Annotations='annotations'),
'Package':dict(IsUnpackaged='isUnpackaged',PackageName='name',PackageSPDXIdentifier='spdxId',PackageVersion='version',PackageFileName='fileName',PackageSupplier='supplier',PackageOriginator='originator',PackageDownloadLocation='downloadLocation',FilesAnalyzed='filesAnalyzed',IsFilesAnalyzedTagPresent='filesAnalyzedTagPresent',PackageVerificationCode='verificationCode',PackageChecksums='checksums',PackageHomePage='homePage',PackageSourceInfo='sourceInfo',PackageLicenseConcluded='licenseConcluded',PackageLicenseInfoFromFiles='licenseInfoFromFiles',PackageLicenseDeclared='licenseDeclared',PackageLicenseComments='licenseComments',PackageCopyrightText='copyrightText',PackageSummary='summary',PackageDescription='description',PackageComment='comment',PackageExternalReferences='externalRefs',PackageAttributionTexts='attributionTexts',PrimaryPackagePurpose='primaryPurpose',ReleaseDate='releaseDate',BuiltDate='builtDate',ValidUntilDate='validUntilDate',Files='files',Annotations='annotations'),
'Document':dict(SPDXVersion='spdxVersion',DataLicense='dataLicense',SPDXIdentifier='spdxId',DocumentName='name',DocumentNamespace='namespace_',ExternalDocumentReferences='externalDocumentRefs',DocumentComment='comment',CreationInfo='creationInfo',Packages='packages',Files='files',OtherLicenses='otherLicenses',Relationships='relationships',Annotations='annotations',Snippets='snippets',Reviews='reviews'),
}
OPT={'supplier','originator','verificationCode','creationInfo'}
LT={'PackageVerificationCode':'VerificationCode','SnippetRangePointer':'RangePointer','PackageExternalReference':'PackageExternalRef','File':'FileV','Package':'PackageV','Document':'Doc'}
def lstr(s):
    return 's! "'.replace('s! ','').replace('"','')+ '("%s".toList)'%(s.replace('\\','\\\\').replace('"','\\"').replace('\n','\\n').replace('\t','\\t').replace('\r','\\r'))
def lean(v):
    if isinstance(v,bool): return 'true' if v else 'false'
    if isinstance(v,int): return f'({v})'
    if isinstance(v,str): return lstr(v) if v else '[]'
    if isinstance(v,list): return '['+', '.join(lean(x) for x in v)+']'
    if isinstance(v,tuple) and v[0]=='map': return '['+', '.join(f'({lean(k)}, {lean(x)})' for k,x in v[1])+']'
    if isinstance(v,S):
        fs=[]
        for k,x in v.f.items():
            if x is None: continue
            n=FM[v.t][k]
            e=lean(x)
            if n in OPT and isinstance(x,S): e=f'some {e}'
            fs.append(f'{n} := {e}')
        return '({ '+', '.join(fs)+' } : '+LT.get(v.t,v.t)+')'
    raise Exception(repr(v))
