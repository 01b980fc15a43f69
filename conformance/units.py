"""The vectors of the smaller unit tests: the line reader, the license search, paths and verification codes, the builder
on /repo/testdata, identifiers and agents in JSON.  Digests are computed here and given to the model."""
import hashlib, os, sys
out = ['''import Verif
open Verif
def so := insertionSorter
def check (n : String) (b : Bool) : IO Unit := IO.println s!"{if b then "same" else "DIFF"} {n}"
def okB {α : Type} (r : Res α) (p : α → Bool) : Bool := match r with | .ok a => p a | _ => false
def errB {α : Type} (r : Res α) : Bool := match r with | .err => true | _ => false
def S (s : String) : Str := s.toList
def pairsB (l : List (String × String)) (ps : List TVPair) : Bool := ps.map (fun p => (String.ofList p.tag, String.ofList p.value)) = l
''']
def q(s): return '"' + s.replace('\\', '\\\\').replace('"', '\\"').replace('\n', '\\n').replace('\t', '\\t') + '"'
def lst(l, f=q): return '[' + ', '.join(f(x) for x in l) + ']'
def S(s): return '(S %s)' % q(s)
def strs(l): return lst(l, S)
def check(name, cond): out.append('#eval check %s (%s)' % (q(name), cond))
# tagvalue/reader/reader_test.go
text = '\nTag1: Value1\nTag2:    Value2\n\nTag3: <text>line 1\n   line 2</text>\n# Comment\nTag4: Value4\nTag5: Value 5\n'
def pairs(l): return lst(l, lambda p: '(%s, %s)' % (q(p[0]), q(p[1])))
def reads(n, t, l): check(n, 'okB (readTagValues %s) (pairsB %s)' % (S(t), pairs(l)))
def fails(n, t): check(n, 'errB (readTagValues %s)' % S(t))
reads('TestCanReadTagValues', text, [('Tag1', 'Value1'), ('Tag2', 'Value2'), ('Tag3', 'line 1\n   line 2'), ('Tag4', 'Value4'), ('Tag5', 'Value 5')])
reads('TestCanGetTVListWithFinalize', 'Tag:value', [('Tag', 'value')])
reads('TestCanGetTVListIncludingMultilineWithFinalize', 'Tag:<text>value\nrest of value</text>', [('Tag', 'value\nrest of value')])
fails('TestCannotFinalizeIfInMidtextState', 'Tag:<text>value')
reads('TestReadyCanStripWhitespaceFromValue', 'Tag:   value\t  \t ', [('Tag', 'value')])
fails('TestReadyCannotReadLineWithNoColon', 'No colon should be an error')
reads('TestReadyTextTagAndClosingTagInOneLineFinishesRead', 'Tag: <text>Just one line</text>', [('Tag', 'Just one line')])
# idsearcher/idsearcher_test.go
def body(p): return open(os.path.join('/repo/testdata', p), errors='surrogateescape').read()
for n, p, ids in [('TestCanFindShortFormIDWhenPresent', 'project2/has-id.txt', ['Apache-2.0 OR GPL-2.0-or-later']),
                  ('TestCanFindMultipleShortFormIDsWhenPresent', 'project2/has-multiple-ids.txt', ['(MIT AND BSD-3-Clause) OR ISC', 'BSD-2-Clause', 'EPL-1.0+']),
                  ('TestCanCollapseDuplicateShortFormIDsWhenPresent', 'project2/has-duplicate-ids.txt', ['MIT']),
                  ('TestCanStripTrailingStarSlash', 'project2/folder/has-trailing-comment-marker.c', ['GPL-2.0-or-later']),
                  ('TestCanIgnoreShortFormIDWhenTooManyPrefixChars', 'project4/has-id-to-ignore.txt', []),
                  ('TestCanPickJustTheRightID', 'project4/has-mix-of-ids.txt', ['MIT']),
                  ('TestCannotFindShortFormIDWhenAbsent', 'project2/no-id.txt', [])]:
    check(n, 'okB (searchFileIDs so (some %s)) (fun l => l = %s)' % (S(body(p)), strs(ids)))
check('TestCanExcludeTrashCharactersFromID', 'stripTrash %s = %s' % (S('Apac",he-2.0'), S('Apache-2.0')))
for a, b in [('MIT OR BSD-3-Clause', '(MIT OR BSD-3-Clause)'), ('ISC AND HPND', '(ISC AND HPND)'), ('MIT', 'MIT'),
             ('GPL-2.0-only WITH Classpath-exception-2.0', 'GPL-2.0-only WITH Classpath-exception-2.0')]:
    check('makeElement ' + a, 'makeElement %s = %s' % (S(a), S(b)))
for a, b in [('MIT', ['MIT']), ('ISC AND BSD-3-Clause', ['BSD-3-Clause', 'ISC']),
             ('GPL-2.0-only WITH Classpath-exception-2.0', ['Classpath-exception-2.0', 'GPL-2.0-only']),
             ('(JSON OR BSD-2-Clause)', ['BSD-2-Clause', 'JSON']),
             ('GPL-2.0-only AND ((EPL-1.0 AND BSD-4-Clause) OR MIT)', ['BSD-4-Clause', 'EPL-1.0', 'GPL-2.0-only', 'MIT']),
             ('ISC and BSD-3-Clause', ['BSD-3-Clause', 'ISC']), ('ISC or BSD-3-Clause', ['BSD-3-Clause', 'ISC']),
             ('GPL-2.0-only with Classpath-exception-2.0', ['Classpath-exception-2.0', 'GPL-2.0-only'])]:
    check('getIndividualLicenses ' + a, 'getIndividualLicenses so %s = %s' % (S(a), strs(b)))
# utils/filesystem_test.go
for pats, files in [(['/file.txt'], {'/file.txt': 1, '/fileNope.txt': 0}),
                    (['/file.txt', '/file2.txt'], {'/file.txt': 1, '/fileNope.txt': 0, '/file2.txt': 1}),
                    (['/subdir/file.txt'], {'/subdir/file.txt': 1, '/file.txt': 0, '/something/subdir/file.txt': 0}),
                    (['**/file.txt'], {'/subdir/file.txt': 1, '/file.txt': 1, '/something/subdir/file.txt': 1, '/something/fileNope.txt': 0}),
                    (['/subdir/'], {'/subdir/file.txt': 1, '/file.txt': 0, '/subdir/sub2/file.txt': 1, '/nope/subdir/file.txt': 0}),
                    (['**/subdir/'], {'/subdir/file.txt': 1, '/file.txt': 0, '/subdir/sub2/file.txt': 1, '/nope/subdir/file.txt': 1})]:
    for f, y in files.items():
        check('ShouldIgnore %s %s' % (f, pats), 'shouldIgnore %s %s = %s' % (S(f), strs(pats), 'true' if y else 'false'))
def node(p):
    if os.path.islink(p): return '.link'
    if os.path.isdir(p):
        r = '.nil'
        for n in os.listdir(p): r = '(.cons %s %s %s)' % (S(n), node(os.path.join(p, n)), r)
        return '(.dir %s)' % r
    return '.file'
def files(p):
    for d, _, fs in os.walk(p):
        for f in fs:
            if not os.path.islink(os.path.join(d, f)): yield './' + os.path.relpath(os.path.join(d, f), p)
def sha(b): return hashlib.sha1(b).hexdigest()
known = {}
for pr in ('project1', 'project2', 'project3'):
    root = '/repo/testdata/' + pr
    hs, ts, ds = [], [], {}
    for f in files(root):
        b = open(os.path.join(root, f), 'rb').read()
        ds[f] = sha(b)
        hs.append('if p = %s then some (S %s, S %s, S %s)' % (S(f), q(sha(b)), q(hashlib.sha256(b).hexdigest()), q(hashlib.md5(b).hexdigest())))
        ts.append('if p = %s then some %s' % (S(f), S(b.decode())))
    known[pr] = ds
    out.append('def %s : Disk where\n  absRoot := S %s\n  tree := %s\n  hashes p := %s else none\n  text p := %s else none' % (
        pr, q(root), node(root), ' else '.join(hs), ' else '.join(ts)))
def code(hs): return sha(''.join(sorted(hs)).encode())
def sha1(*sums): return '(fun x => ' + ''.join('if x = %s then %s else ' % (S(''.join(sorted(h))), S(code(h))) for h in sums) + 'S "?")'
five = ['/emptyfile.testdata.txt', '/file1.testdata.txt', '/file3.testdata.txt', '/folder1/file4.testdata.txt', '/lastfile.testdata.txt']
check('TestFilesystemCanGetSliceOfFolderContents', 'okB (getAllFilePaths so project1.absRoot project1.tree []) (fun l => l = %s)' % strs(five))
ign = ['**/ignoredir/', '/excludedir/', '**/ignorefile.txt', '/alsoEXCLUDEthis.txt']
kept = ['/dontscan.txt', '/keep/keep.txt', '/keep.txt', '/subdir/keep/dontscan.txt', '/subdir/keep/keep.txt']
check('TestFilesystemCanIgnoreFilesWhenGettingFilePaths', 'okB (getAllFilePaths so project3.absRoot project3.tree %s) (fun l => l = %s)' % (strs(ign), strs(kept)))
# utils/verification_test.go
a, b, c, d, e = ('aaaaaaaaaabbbbbbbbbbccccccccccdddddddddd', '3333333333bbbbbbbbbbccccccccccdddddddddd', '8888888888bbbbbbbbbbccccccccccdddddddddd',
                 '2222222222bbbbbbbbbbccccccccccdddddddddd', 'bbbbbbbbbbccccccccccddddddddddaaaaaaaaaa')
def fv(n, h): return 'some { name := %s, checksums := [⟨S "SHA1", S "%s"⟩] }' % (S(n), h)
check('TestPackageCanGetVerificationCode', 'okB (getVerificationCode so %s [%s] []) (fun c => c.value = %s)' % (
    sha1([a, b, c, d, e]), ', '.join(fv(n, h) for n, h in [('file2.txt', a), ('file1.txt', b), ('file3.txt', c), ('file5.txt', d), ('file4.txt', e)]),
    S('ac924b375119c81c1f08c3e2722044bfbbdcd3dc')))
check('TestPackageCanGetVerificationCodeIgnoringExcludesFile', 'okB (getVerificationCode so %s [%s] %s) (fun c => c.value = %s)' % (
    sha1([a, b, c, d]), ', '.join(fv(n, h) for n, h in [('file1.txt', a), ('file2.txt', b), ('thisfile.spdx', e), ('file3.txt', c), ('file4.txt', d)]),
    S('thisfile.spdx'), S('17fab1bd18fe5c13b5d3983f1c17e5f88b8ff266')))
check('TestPackageGetVerificationCodeFailsIfNilFileInSlice', 'errB (getVerificationCode so (fun x => x) [%s, none, %s] [])' % (fv('file2.txt', a), fv('file3.txt', c)))
# builder/build_test.go
want = 'fc9ac4a370af0a471c2e52af66d6b4cf4e2ba12b'
pre = 'https://github.com/swinslow/spdx-docs/spdx-go/testdata-'
check('TestBuildCreatesDocument', '''okB (build so %s project1 (S "now") (S "project1") { namespacePrefix := %s, creatorType := S "Person", creator := S "John Doe", testCreated := S "2018-10-19T04:38:00Z" }) (fun d =>
  d.spdxVersion = S "SPDX-2.3" && d.dataLicense = S "CC0-1.0" && d.spdxId = S "DOCUMENT" && d.name = S "project1" && d.namespace_ = %s &&
  d.creationInfo.any (fun c => c.created = S "2018-10-19T04:38:00Z" && c.creators.map (·.creator) = [S "github.com/spdx/tools-golang/builder", S "John Doe"]) &&
  d.packages.length = 1 && d.packages.all (fun p => p.name = S "project1" && p.spdxId = S "Package-project1" && p.downloadLocation = S "NOASSERTION" && p.filesAnalyzed &&
    p.verificationCode.any (fun c => c.value = %s) && p.licenseConcluded = S "NOASSERTION" && p.licenseInfoFromFiles.length = 0 && p.licenseDeclared = S "NOASSERTION" &&
    p.copyrightText = S "NOASSERTION" && p.files.map (fun f => (f.name, f.spdxId)) = %s &&
    p.files.all (fun f => f.licenseConcluded = S "NOASSERTION" && f.licenseInfoInFiles = [S "NOASSERTION"] && f.copyrightText = S "NOASSERTION" && f.checksums.length = 3)) &&
  d.relationships.length = 1)''' % (sha1(known['project1'].values()), S(pre), S(pre + 'project1-{' + want + ' []}'), S(want),
    lst(list(enumerate(five)), lambda x: '(%s, %s)' % (S('.' + x[1]), S('File%d' % x[0])))))
def lic(f): return '(%s, %s)' % (strs(f[0]), S(f[1]))
check('TestSearcherCanFillInIDs', '''okB (buildIDsDocument so %s project2 (S "now") (S "project2") %s [] []) (fun d => d.packages.length = 1 && d.packages.all (fun p =>
  p.files.map (fun f => (f.licenseInfoInFiles, f.licenseConcluded)) = %s && p.licenseInfoFromFiles = %s))''' % (sha1(known['project2'].values()), S(pre), lst([
    (['MIT'], 'MIT'), (['GPL-2.0-or-later'], 'GPL-2.0-or-later'), (['MIT'], 'MIT'), (['Apache-2.0', 'GPL-2.0-or-later'], 'Apache-2.0 OR GPL-2.0-or-later'),
    (['BSD-2-Clause', 'BSD-3-Clause', 'EPL-1.0', 'ISC', 'MIT'], '((MIT AND BSD-3-Clause) OR ISC) AND BSD-2-Clause AND EPL-1.0+'), (['NOASSERTION'], 'NOASSERTION')], lic),
    strs(['Apache-2.0', 'BSD-2-Clause', 'BSD-3-Clause', 'EPL-1.0', 'GPL-2.0-or-later', 'ISC', 'MIT'])))
check('TestSearcherCanFillInIDsAndIgnorePaths', '''okB (buildIDsDocument so (fun x => x) project3 (S "now") (S "project3") %s %s %s) (fun d => d.packages.all (fun p =>
  p.files.map (fun f => (f.name, f.licenseInfoInFiles, f.licenseConcluded)) = %s))''' % (S(pre), strs(ign), strs(['**/dontscan.txt']), lst(
    [('.' + n, 'MIT' if n in ('/keep/keep.txt', '/subdir/keep/keep.txt') else 'NOASSERTION') for n in kept], lambda x: '(%s, [%s], %s)' % (S(x[0]), S(x[1]), S(x[1])))))
# spdx/v2/common/identifier_test.go
def ident(doc, elt, sp=''): return '{ documentRefID := %s, elementRefID := %s, specialID := %s }' % (S(doc), S(elt), S(sp))
for v, w in [(('', 'some-id'), 'SPDXRef-some-id'), (('a-doc', 'some-id'), 'DocumentRef-a-doc:SPDXRef-some-id'), (('a-doc', ''), None), (('', '', 'special-id'), 'special-id')]:
    check('DocElementIDEncoding %s' % (v,), 'errB (docElementIdToJson %s)' % ident(*v) if w is None else 'okB (docElementIdToJson %s) (fun s => s = %s)' % (ident(*v), S('"' + w + '"')))
for s, v in [('SPDXRef-some-id', ('', 'some-id')), ('DocumentRef-a-doc:SPDXRef-some-id', ('a-doc', 'some-id')), ('DocumentRef-a-doc', ('a-doc', '')), ('DocumentRef-', None),
             ('DocumentRef-a-doc:some-id', None), ('DocumentRef-a-doc:SPDXRef-', None), ('some-id-without-spdxref', None), ('NONE', ('', '', 'NONE')), ('NOASSERTION', ('', '', 'NOASSERTION'))]:
    t = S('"' + s + '"')
    check('DocElementIDDecoding ' + s, 'errB (docElementIdOfJson {} %s)' % t if v is None else 'okB (docElementIdOfJson {} %s) (fun d => d = %s)' % (t, ident(*v)))
for f, p in [('elementId', 'SPDXRef-'), ('documentId', 'DocumentRef-')]:
    for v in ('some-id', p + 'some-id'): check('%s encoding %s' % (f, v), '%sToJson %s = %s' % (f, S(v), S('"' + p + 'some-id"')))
    check(f + ' decoding', 'okB (%sOfJson %s) (fun s => s = S "some-id")' % (f, S('"' + p + 'some-id"')))
    for s in (p, 'some-id-without-prefix'): check('%s decoding %s' % (f, s), 'errB (%sOfJson %s)' % (f, S('"' + s + '"')))
# spdx/v2/common/package_test.go
for s, ok in [('Person: John Doe', 1), ('Person:John Doe', 1), ('Organization:SPDX', 1), ('Organization: ExampleCodeInspect (contact@example.com)', 1), ('John Doe', 0)]:
    t = 'originatorOfJson {} %s' % S('"' + s + '"')
    check('Originator_UnmarshalJSON ' + s, 'okB (%s) (fun _ => true)' % t if ok else 'errB (%s)' % t)
for k, n, ok in [('Person', 'John Doe', 1), ('', 'John Doe', 0), ('Person', '', 0)]:
    t = 'originatorToJson { originator := %s, originatorType := %s }' % (S(n), S(k))
    check('Originator_MarshalJSON %s/%s' % (k, n), 'okB (%s) (fun _ => true)' % t if ok else 'errB (%s)' % t)
# spdxlib tests: described packages
def pk(*ids): return lst(ids, lambda i: 'some { spdxId := %s }' % S(i))
def rl(l): return lst(l, lambda r: 'some { refA := { elementRefID := %s }, refB := { elementRefID := %s }, relationship := %s }' % tuple(map(S, r)))
rels = [('DOCUMENT', 'p1', 'DESCRIBES'), ('DOCUMENT', 'p5', 'DESCRIBES'), ('p4', 'DOCUMENT', 'DESCRIBED_BY'), ('p1', 'p2', 'DEPENDS_ON')]
for n, ps, rs, w in [('TestCanGetIDsOfDescribedPackages', ['p1', 'p2', 'p3', 'p4', 'p5'], rels, ['p1', 'p4', 'p5']),
                     ('TestGetDescribedPackagesReturnsSinglePackageIfOnlyOne', ['p1'], [], ['p1']),
                     ('TestFailsToGetDescribedPackagesIfMoreThanOneWithoutDescribesRelationship', ['p1', 'p2', 'p3', 'p4', 'p5'], rels[3:], None)]:
    t = 'getDescribedPackageIDs so %s %s' % (pk(*ps), rl(rs))
    check(n, 'errB (%s)' % t if w is None else 'okB (%s) (fun l => l = %s)' % (t, strs(w)))
open(sys.argv[1], 'w').write('\n'.join(out) + '\n')
