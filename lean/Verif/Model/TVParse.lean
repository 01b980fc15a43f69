import Verif.Model.Tags
import Verif.Model.Identifier
import Verif.Model.TVRead

/-!
# The tag-value parser

`spdx/v2/v2_3/tagvalue/reader/*.go`, with `v2_2` and `v2_1` as versions of the same text.  Line
numbers cite v2_3 unless said otherwise.

Objects the Go parser reaches by pointer live in heaps (`pkgs`, `files`, `snips`) or, when they are
owned by exactly one slice from their creation on (relationships, annotations, reviews, other
licenses, and the external references / artifacts of the current package / file), are denoted by
their position in that slice.  Dereferencing a nil pointer gives `Res.panic`.
-/

namespace Verif

/-- `tvParserState` (types.go:32-55). -/
inductive PState where
  | start | creationInfo | package | file | snippet | otherLicense | review
  deriving DecidableEq, Repr

/-- A document whose packages and files are heap references. -/
abbrev HDoc := Document Nat Nat

/-- `tvParser` (types.go:10-29) together with the heaps its pointers point into. -/
structure Parser where
  doc : Option HDoc := none
  st : PState := .start
  pkg : Option Nat := none
  pkgExtRef : Option Nat := none
  file : Option Nat := none
  fileAOP : Option Nat := none
  snippet : Option Nat := none
  otherLic : Option Nat := none
  rln : Option Nat := none
  ann : Option Nat := none
  rev : Option Nat := none
  pkgs : List (Package Nat) := []
  files : List (File Nat) := []
  snips : List Snippet := []
  deriving DecidableEq, Repr

namespace Parser

/-- An assignment through `parser.doc`. -/
def modDoc (s : Parser) (f : HDoc → HDoc) : Res Parser :=
  match s.doc with
  | none => .panic
  | some d => .ok { s with doc := some (f d) }

/-- An assignment through `parser.pkg`. -/
def modPkg (s : Parser) (f : Package Nat → Package Nat) : Res Parser :=
  match s.pkg with
  | none => .panic
  | some i => .ok { s with pkgs := s.pkgs.modify i f }

/-- An assignment through `parser.file`. -/
def modFile (s : Parser) (f : File Nat → File Nat) : Res Parser :=
  match s.file with
  | none => .panic
  | some i => .ok { s with files := s.files.modify i f }

/-- An assignment through `parser.snippet`. -/
def modSnip (s : Parser) (f : Snippet → Snippet) : Res Parser :=
  match s.snippet with
  | none => .panic
  | some i => .ok { s with snips := s.snips.modify i f }

/-- `parser.pkg = &spdx.Package{FilesAnalyzed: true, IsFilesAnalyzedTagPresent: false}`
(parse_creation_info.go:58-61, parse_package.go:28-31). -/
def newPkg (s : Parser) : Parser :=
  { s with pkg := some s.pkgs.length, pkgs := s.pkgs ++ [{ filesAnalyzed := true }] }

/-- `parser.file = &spdx.File{}; parser.file.FileName = value` (parse_file.go:26-27). -/
def newFile (s : Parser) (value : Str) : Parser :=
  { s with file := some s.files.length, files := s.files ++ [{ name := value }] }

/-- `parser.file != nil && parser.file.FileSPDXIdentifier == nullSpdxElementId`
(parser.go:23, parse_creation_info.go:54, parse_file.go:23, 32, parse_snippet.go:18). -/
def fileLacksId (s : Parser) : Bool :=
  match s.file with
  | none => false
  | some i => match s.files[i]? with
    | some f => f.spdxId == []
    | none => false       -- a reference outside the heap: ruled out by the invariant `Core` of Lemmas/ParserInv

/-- `parser.pkg != nil && parser.pkg.PackageSPDXIdentifier == nullSpdxElementId`
(parser.go:26, parse_package.go:25). -/
def pkgLacksId (s : Parser) : Bool :=
  match s.pkg with
  | none => false
  | some i => match s.pkgs[i]? with
    | some p => p.spdxId == []
    | none => false       -- a reference outside the heap: ruled out by the invariant `Core` of Lemmas/ParserInv

/-- `parser.pkg == nil || parser.pkg.PackageName != ""` (parse_package.go:23). -/
def pkgNamedOrNil (s : Parser) : Bool :=
  match s.pkg with
  | none => true
  | some i => match s.pkgs[i]? with
    | some p => !(p.name == [])
    | none => true        -- a reference outside the heap: ruled out by the invariant `Core` of Lemmas/ParserInv

end Parser

/-- The checksum algorithms accepted by a version: 2.3 (parse_package.go:114-130 and
parse_file.go:74-90), 2.2 (parse_package.go:114-122, parse_file.go:74-82), 2.1 (parse_package.go:110,
parse_file.go:74); names from spdx/v2/common/checksum.go:9-27. -/
def knownAlgorithms : Version → List Str
  | .v21 => [g!"SHA1", g!"SHA256", g!"MD5"]
  | .v22 => [g!"SHA1", g!"SHA224", g!"SHA256", g!"SHA384", g!"SHA512", g!"MD2", g!"MD4", g!"MD5", g!"MD6"]
  | .v23 => [g!"SHA1", g!"SHA224", g!"SHA256", g!"SHA384", g!"SHA512", g!"MD2", g!"MD4", g!"MD5", g!"MD6",
      g!"SHA3-256", g!"SHA3-384", g!"SHA3-512", g!"BLAKE2b-256", g!"BLAKE2b-384", g!"BLAKE2b-512",
      g!"BLAKE3", g!"ADLER32"]

/-- The non-blank items between single spaces (parse_creation_info.go:113-121,
parse_package.go:234-242, parse_relationship.go:17-26). -/
def spaceItems (value : Str) : List Str :=
  ((splitChar ' ' value).map trimSpace).filter fun s => !(s == [])

/-- The tail of `extractExternalDocumentReference` (parse_creation_info.go:151-161). -/
def edrTail (documentRefID uri alg checksum : Str) : Res ExternalDocumentRef :=
  if !hasPrefix documentRefPrefix documentRefID then .err
  else
    let d := trimPrefix documentRefPrefix documentRefID
    if d = [] then .err
    else .ok { documentRefID := d, uri := uri, checksum := { algorithm := alg, value := checksum } }

/-- `extractExternalDocumentReference` (parse_creation_info.go:112-162) and the struct built from it
(parser.go:86-90). -/
def extractExternalDocumentReference (value : Str) : Res ExternalDocumentRef :=
  match spaceItems value with
  | [d, u, a, c] =>
    if !hasSuffix g!":" a then .err else edrTail d u (trimSuffix g!":" a) c
  | [d, u, ac] =>
    match cut g!":" ac with
    | none => .err
    | some (a, c) => edrTail d u a c
  | _ => .err

/-- `extractCodeAndExcludes` (parse_package.go:216-231). -/
def extractCodeAndExcludes (value : Str) : VerificationCode :=
  match cut g!"(excludes:" value with
  | none => { value := value, excludedFiles := [] }
  | some (code, rest) =>
    let fileName := match cut g!")" rest with
      | some (f, _) => f
      | none => rest
    { value := trimSpace code, excludedFiles := [trimSpace fileName] }

/-- `extractPackageExternalReference` (parse_package.go:233-248). -/
def extractPackageExternalReference (value : Str) : Res PackageExternalRef :=
  match spaceItems value with
  | [c, t, l] => .ok { category := c, refType := t, locator := l }
  | _ => .err

/-- A checksum value "ALG: value" of a package or file (parse_package.go:106-134,
parse_file.go:66-95). -/
def parseChecksum (v : Version) (value : Str) : Res Checksum := do
  let (k, x) ← extractSubs g!":" value
  if (knownAlgorithms v).contains k then .ok { algorithm := k, value := x } else .err

/-- The `PackageSupplier` value (parse_package.go:57-74). -/
def parseSupplier (value : Str) : Res Supplier :=
  if value = g!"NOASSERTION" then .ok { supplier := value }
  else do
    let (k, x) ← extractSubs g!":" value
    if k = g!"Person" ∨ k = g!"Organization" then .ok { supplier := x, supplierType := k } else .err

/-- The `PackageOriginator` value (parse_package.go:76-93). -/
def parseOriginator (value : Str) : Res Originator :=
  if value = g!"NOASSERTION" then .ok { originator := value }
  else do
    let (k, x) ← extractSubs g!":" value
    if k = g!"Person" ∨ k = g!"Organization" then .ok { originator := x, originatorType := k } else .err

/-- The agent kinds Person, Organization, Tool (parse_creation_info.go:36, parse_annotation.go:20,
parse_review.go:21-32). -/
def isAgentKind (k : Str) : Bool := k = g!"Person" || k = g!"Organization" || k = g!"Tool"

/-- A "start:end" range value (parse_snippet.go:57-67, 76-86). -/
def parseRange (value : Str) : Res (Int × Int) := do
  let (a, b) ← extractSubs g!":" value
  match atoi a with
  | none => .err
  | some x => match atoi b with
    | none => .err
    | some y => .ok (x, y)

/-- The values that may stand on the right of a relationship instead of an identifier
(parse_relationship.go:39; none in 2.1, v2_1 parse_relationship.go:38). -/
def permittedSpecial : Version → List Str
  | .v21 => []
  | _ => [g!"NONE", g!"NOASSERTION"]

/-- The value of a `Relationship` tag (parse_relationship.go:15-46).  In 2.1 the right side is read
with `extractDocElementID`, which is `extractDocElementSpecial` with nothing permitted. -/
def parseRelationshipValue (v : Version) (value : Str) : Res Relationship :=
  match spaceItems value with
  | [a, r, b] => do
    let aID ← extractDocElementID (trimSpace a)
    let bID ← extractDocElementSpecial (trimSpace b) (permittedSpecial v)
    .ok { refA := aID, relationship := trimSpace r, refB := bID }
  | _ => .err

/-- `parsePairForRelationship` (parse_relationship.go:10-54) together with the allocation done by
its callers for a `Relationship` tag (parse_creation_info.go:78-83, parse_package.go:184-189,
parse_file.go:129-134, parse_snippet.go:109-114, parse_other_license.go:27-32,
parse_review.go:39-44). -/
def parseForRelationship (v : Version) (s : Parser) (tag : Tag) (value : Str) : Res Parser :=
  match tag with
  | .relationship =>
    match s.doc with
    | none => .panic
    | some d => do
      let r ← parseRelationshipValue v value
      .ok { s with rln := some d.relationships.length,
                   doc := some { d with relationships := d.relationships ++ [r] } }
  | .relationshipComment =>
    match s.rln with
    | none => .err
    | some i => s.modDoc fun d =>
        { d with relationships := d.relationships.modify i fun r => { r with comment := value } }
  | _ => .err

/-- The value of an `Annotator` tag (parse_annotation.go:16-25). -/
def parseAnnotatorValue (value : Str) : Res Annotator := do
  let (k, x) ← extractSubs g!":" value
  if isAgentKind k then .ok { annotator := x, annotatorType := k } else .err

/-- An assignment through `parser.ann`, which is checked for nil first (parse_annotation.go:10-12). -/
def modAnn (s : Parser) (f : Annotation → Annotation) : Res Parser :=
  match s.ann with
  | none => .err
  | some i => s.modDoc fun d => { d with annotations := d.annotations.modify i f }

/-- `parsePairForAnnotation` (parse_annotation.go:9-43) together with the allocation done by its
callers for an `Annotator` tag (parse_creation_info.go:85-96, parse_package.go:191-202,
parse_file.go:136-147, parse_snippet.go:116-127, parse_other_license.go:34-45,
parse_review.go:46-57). -/
def parseForAnnotation (s : Parser) (tag : Tag) (value : Str) : Res Parser :=
  match tag with
  | .annotator =>
    match s.doc with
    | none => .panic
    | some d => do
      let a ← parseAnnotatorValue value
      .ok { s with ann := some d.annotations.length,
                   doc := some { d with annotations := d.annotations ++ [{ annotator := a }] } }
  | .annotationDate => modAnn s fun a => { a with date := value }
  | .annotationType => modAnn s fun a => { a with type := value }
  | .spdxREF => do
    match s.ann with
    | none => .err
    | some _ =>
      let d ← extractDocElementID value
      modAnn s fun a => { a with spdxId := d }
  | .annotationComment => modAnn s fun a => { a with comment := value }
  | _ => .err

/-- The relationship and annotation cases shared by all sections, and the final `default` error
(parse_creation_info.go:78-96, 103-104, parse_package.go:184-202, 207-208, parse_file.go:129-147,
152-153, parse_snippet.go:109-127, 132-133, parse_other_license.go:27-45, 50-51,
parse_review.go:39-57, 58-59). -/
def parseShared (v : Version) (s : Parser) (tag : Tag) (value : Str) : Res Parser :=
  match tag with
  | .relationship | .relationshipComment => parseForRelationship v s tag value
  | .annotator | .annotationDate | .annotationType | .spdxREF | .annotationComment =>
    parseForAnnotation s tag value
  | _ => .err

/-- An assignment through `parser.rev`. -/
def modRev (s : Parser) (f : Review → Review) : Res Parser :=
  match s.rev with
  | none => .panic
  | some i => s.modDoc fun d => { d with reviews := d.reviews.modify i f }

/-- `parsePairFromReview` (parse_review.go:11-63). -/
def parseFromReview (v : Version) (s : Parser) (tag : Tag) (value : Str) : Res Parser :=
  match tag with
  | .reviewer =>
    match s.doc with
    | none => .panic
    | some d => do
      let (k, x) ← extractSubs g!":" value
      if isAgentKind k then
        .ok { s with rev := some d.reviews.length,
                     doc := some { d with reviews := d.reviews ++ [{ reviewer := x, reviewerType := k }] } }
      else .err
  | .reviewDate => modRev s fun r => { r with date := value }
  | .reviewComment => modRev s fun r => { r with comment := value }
  | _ => parseShared v s tag value

/-- An assignment through `parser.otherLic`. -/
def modLic (s : Parser) (f : OtherLicense → OtherLicense) : Res Parser :=
  match s.otherLic with
  | none => .panic
  | some i => s.modDoc fun d => { d with otherLicenses := d.otherLicenses.modify i f }

/-- `parsePairFromOtherLicense` (parse_other_license.go:11-55). -/
def parseFromOtherLicense (v : Version) (s : Parser) (tag : Tag) (value : Str) : Res Parser :=
  match tag with
  | .licenseID =>
    match s.doc with
    | none => .panic
    | some d =>
      .ok { s with otherLic := some d.otherLicenses.length,
                   doc := some { d with otherLicenses := d.otherLicenses ++ [{ licenseIdentifier := value }] } }
  | .extractedText => modLic s fun l => { l with extractedText := value }
  | .licenseName => modLic s fun l => { l with licenseName := value }
  | .licenseCrossReference => modLic s fun l => { l with crossReferences := l.crossReferences ++ [value] }
  | .licenseComment => modLic s fun l => { l with comment := value }
  | .reviewer => parseFromReview v { s with st := .review } tag value
  | _ => parseShared v s tag value

/-- `parsePairFromFile` on the tag `FileName` (parse_file.go:12-27). -/
def openFile (s : Parser) (value : Str) : Res Parser :=
  let s := { s with fileAOP := none }
  if s.fileLacksId then .err else .ok (s.newFile value)

/-- `parsePairFromPackage` on the tag `PackageName` (parse_package.go:13-33). -/
def openPackage (s : Parser) (value : Str) : Res Parser :=
  let s := { s with pkgExtRef := none }
  if s.pkgNamedOrNil then
    if s.pkgLacksId then .err
    else s.newPkg.modPkg fun p => { p with name := value }
  else s.modPkg fun p => { p with name := value }

/-- `parsePairFromSnippet` on the tag `SnippetSPDXID` (parse_snippet.go:13-33). -/
def openSnippet (s : Parser) (value : Str) : Res Parser :=
  if s.fileLacksId then .err
  else do
    let e ← extractElementID value
    let i := s.snips.length
    let s : Parser := { s with snippet := some i, snips := s.snips ++ [({ spdxId := e } : Snippet)] }
    match s.file with
    | none => .ok s
    | some _ => s.modFile fun f => { f with snippets := mapInsert e i f.snippets }

/-- `parsePairFromPackage` (parse_package.go:13-212). -/
def parseFromPackage (v : Version) (s : Parser) (tag : Tag) (value : Str) : Res Parser :=
  -- parse_package.go:14-18
  let s := if tag ≠ .externalRefComment then { s with pkgExtRef := none } else s
  match tag with
  | .packageName => openPackage s value
  | .fileName => openFile { s with st := .file } value
  | .licenseID => parseFromOtherLicense v { s with st := .otherLicense } tag value
  | .spdxID => do
    let e ← extractElementID value
    let s ← s.modPkg fun p => { p with spdxId := e }
    match s.pkg with
    | none => .panic
    | some i => s.modDoc fun d => { d with packages := d.packages ++ [i] }
  | .packageVersion => s.modPkg fun p => { p with version := value }
  | .packageFileName => s.modPkg fun p => { p with fileName := value }
  | .packageSupplier => do
    let x ← parseSupplier value
    s.modPkg fun p => { p with supplier := some x }
  | .packageOriginator => do
    let x ← parseOriginator value
    s.modPkg fun p => { p with originator := some x }
  | .packageDownloadLocation => s.modPkg fun p => { p with downloadLocation := value }
  | .filesAnalyzed => s.modPkg fun p =>
      { p with filesAnalyzedTagPresent := true,
               filesAnalyzed := if value = g!"false" then false
                 else if value = g!"true" then true else p.filesAnalyzed }
  | .packageVerificationCode =>
    s.modPkg fun p => { p with verificationCode := some (extractCodeAndExcludes value) }
  | .packageChecksum => do
    let c ← parseChecksum v value
    s.modPkg fun p => { p with checksums := p.checksums ++ [c] }
  | .packageHomePage => s.modPkg fun p => { p with homePage := value }
  | .packageSourceInfo => s.modPkg fun p => { p with sourceInfo := value }
  | .packageLicenseConcluded => s.modPkg fun p => { p with licenseConcluded := value }
  | .packageLicenseInfoFromFiles =>
    s.modPkg fun p => { p with licenseInfoFromFiles := p.licenseInfoFromFiles ++ [value] }
  | .packageLicenseDeclared => s.modPkg fun p => { p with licenseDeclared := value }
  | .packageLicenseComments => s.modPkg fun p => { p with licenseComments := value }
  | .packageCopyrightText => s.modPkg fun p => { p with copyrightText := value }
  | .packageSummary => s.modPkg fun p => { p with summary := value }
  | .packageDescription => s.modPkg fun p => { p with description := value }
  | .packageComment => s.modPkg fun p => { p with comment := value }
  -- the four 2.3 tags, parse_package.go:156-163
  | .primaryPackagePurpose =>
    if v = .v23 then s.modPkg fun p => { p with primaryPurpose := value } else .err
  | .releaseDate => if v = .v23 then s.modPkg fun p => { p with releaseDate := value } else .err
  | .builtDate => if v = .v23 then s.modPkg fun p => { p with builtDate := value } else .err
  | .validUntilDate => if v = .v23 then s.modPkg fun p => { p with validUntilDate := value } else .err
  -- absent in 2.1
  | .packageAttributionText =>
    if v = .v21 then .err
    else s.modPkg fun p => { p with attributionTexts := p.attributionTexts ++ [value] }
  | .externalRef =>
    match s.pkg with
    | none => .panic
    | some i => do
      let x ← extractPackageExternalReference value
      let n := match s.pkgs[i]? with
        | some p => p.externalRefs.length
        | none => 0       -- a reference outside the heap: ruled out by the invariant `Core` of Lemmas/ParserInv
      let s ← s.modPkg fun p => { p with externalRefs := p.externalRefs ++ [x] }
      .ok { s with pkgExtRef := some n }
  | .externalRefComment =>
    match s.pkgExtRef with
    | none => .err
    | some n => do
      let s ← s.modPkg fun p =>
        { p with externalRefs := p.externalRefs.modify n fun x => { x with comment := value } }
      .ok { s with pkgExtRef := none }
  | .reviewer => parseFromReview v { s with st := .review } tag value
  | _ => parseShared v s tag value

/-- `parsePairFromFile` (parse_file.go:12-157). -/
def parseFromFile (v : Version) (s : Parser) (tag : Tag) (value : Str) : Res Parser :=
  -- parse_file.go:13-17
  let s := if tag ≠ .artifactOfProjectHomePage ∧ tag ≠ .artifactOfProjectURI
    then { s with fileAOP := none } else s
  match tag with
  | .fileName => openFile s value
  | .packageName =>
    if s.fileLacksId then .err
    else openPackage { s with st := .package, file := none } value
  | .snippetSPDXID => openSnippet { s with st := .snippet } value
  | .licenseID => parseFromOtherLicense v { s with st := .otherLicense } tag value
  | .spdxID => do
    let e ← extractElementID value
    let s ← s.modFile fun f => { f with spdxId := e }
    match s.file with
    | none => .panic
    | some i =>
      match s.pkg with
      | none => s.modDoc fun d => { d with files := d.files ++ [i] }
      | some _ => s.modPkg fun p => { p with files := p.files ++ [i] }
  | .fileType => s.modFile fun f => { f with types := f.types ++ [value] }
  | .fileChecksum => do
    let c ← parseChecksum v value
    s.modFile fun f => { f with checksums := f.checksums ++ [c] }
  | .licenseConcluded => s.modFile fun f => { f with licenseConcluded := value }
  | .licenseInfoInFile => s.modFile fun f => { f with licenseInfoInFiles := f.licenseInfoInFiles ++ [value] }
  | .licenseComments => s.modFile fun f => { f with licenseComments := value }
  | .fileCopyrightText => s.modFile fun f => { f with copyrightText := value }
  | .artifactOfProjectName =>
    match s.file with
    | none => .panic
    | some i => do
      let n := match s.files[i]? with
        | some f => f.artifactOfProjects.length
        | none => 0       -- a reference outside the heap: ruled out by the invariant `Core` of Lemmas/ParserInv
      let s ← s.modFile fun f => { f with artifactOfProjects := f.artifactOfProjects ++ [{ name := value }] }
      .ok { s with fileAOP := some n }
  | .artifactOfProjectHomePage =>
    match s.fileAOP with
    | none => .err
    | some n => s.modFile fun f =>
        { f with artifactOfProjects := f.artifactOfProjects.modify n fun a => { a with homePage := value } }
  | .artifactOfProjectURI =>
    match s.fileAOP with
    | none => .err
    | some n => s.modFile fun f =>
        { f with artifactOfProjects := f.artifactOfProjects.modify n fun a => { a with uri := value } }
  | .fileComment => s.modFile fun f => { f with comment := value }
  | .fileNotice => s.modFile fun f => { f with notice := value }
  | .fileContributor => s.modFile fun f => { f with contributors := f.contributors ++ [value] }
  | .fileDependency => s.modFile fun f => { f with dependencies := f.dependencies ++ [value] }
  -- absent in 2.1
  | .fileAttributionText =>
    if v = .v21 then .err
    else s.modFile fun f => { f with attributionTexts := f.attributionTexts ++ [value] }
  | .reviewer => parseFromReview v { s with st := .review } tag value
  | _ => parseShared v s tag value

/-- `parsePairFromSnippet` (parse_snippet.go:13-137). -/
def parseFromSnippet (v : Version) (s : Parser) (tag : Tag) (value : Str) : Res Parser :=
  match tag with
  | .snippetSPDXID => openSnippet s value
  | .fileName => openFile { s with st := .file, snippet := none } value
  | .packageName => openPackage { s with st := .package, file := none, snippet := none } value
  | .licenseID => parseFromOtherLicense v { s with st := .otherLicense } tag value
  | .snippetFromFileSPDXID => do
    let d ← extractDocElementID value
    s.modSnip fun x => { x with fromFile := d.elementRefID }
  | .snippetByteRange => do
    let (a, b) ← parseRange value
    s.modSnip fun x => { x with ranges := x.ranges ++
      [{ startPointer := { offset := a }, endPointer := { offset := b } }] }
  | .snippetLineRange => do
    let (a, b) ← parseRange value
    s.modSnip fun x => { x with ranges := x.ranges ++
      [{ startPointer := { lineNumber := a }, endPointer := { lineNumber := b } }] }
  | .snippetLicenseConcluded => s.modSnip fun x => { x with licenseConcluded := value }
  | .licenseInfoInSnippet => s.modSnip fun x => { x with licenseInfo := x.licenseInfo ++ [value] }
  | .snippetLicenseComments => s.modSnip fun x => { x with licenseComments := value }
  | .snippetCopyrightText => s.modSnip fun x => { x with copyrightText := value }
  | .snippetComment => s.modSnip fun x => { x with comment := value }
  | .snippetName => s.modSnip fun x => { x with name := value }
  -- absent in 2.1
  | .snippetAttributionText =>
    if v = .v21 then .err
    else s.modSnip fun x => { x with attributionTexts := x.attributionTexts ++ [value] }
  | .reviewer => parseFromReview v { s with st := .review } tag value
  | _ => parseShared v s tag value

/-- The part of `parsePairFromStart` up to its `switch` (parser.go:59-62). -/
def ensureDoc (s : Parser) : Parser :=
  match s.doc with
  | none => { s with doc := some {} }
  | some _ => s

/-- The cases of `parsePairFromStart` other than `default` (parser.go:64-91); `none` for the
`default` case. -/
def parseStartTags (s : Parser) (tag : Tag) (value : Str) : Option (Res Parser) :=
  match tag with
  | .documentComment => some (s.modDoc fun d => { d with comment := value })
  | .spdxVersion => some (s.modDoc fun d => { d with spdxVersion := value })
  | .dataLicense => some (s.modDoc fun d => { d with dataLicense := value })
  | .spdxID => some do
      let e ← extractElementID value
      s.modDoc fun d => { d with spdxId := e }
  | .documentName => some (s.modDoc fun d => { d with name := value })
  | .documentNamespace => some (s.modDoc fun d => { d with namespace_ := value })
  | .externalDocumentRef => some do
      let e ← extractExternalDocumentReference value
      s.modDoc fun d => { d with externalDocumentRefs := d.externalDocumentRefs ++ [e] }
  | _ => none

/-- An assignment through `parser.doc.CreationInfo` (`ci` in parse_creation_info.go:24). -/
def modCI (s : Parser) (f : CreationInfo → CreationInfo) : Res Parser :=
  match s.doc with
  | none => .panic
  | some d => match d.creationInfo with
    | none => .panic
    | some c => .ok { s with doc := some { d with creationInfo := some (f c) } }

/-- Returning to the start section from the creation info section (parse_creation_info.go:97-102):
`parsePairFromStart` with one of the two tags it handles itself. -/
def backToStart (s : Parser) (tag : Tag) (value : Str) : Res Parser :=
  match parseStartTags (ensureDoc { s with st := .start }) tag value with
  | some r => r
  | none => .err        -- not reachable: only called with `documentComment`, `externalDocumentRef`

/-- Creating the creation info on first use (parse_creation_info.go:19-22). -/
def ensureCI (s : Parser) (d : HDoc) : Parser :=
  match d.creationInfo with
  | none => { s with doc := some { d with creationInfo := some {} } }
  | some _ => s

/-- `parsePairFromCreationInfo` (parse_creation_info.go:13-108). -/
def parseFromCreationInfo (v : Version) (s : Parser) (tag : Tag) (value : Str) : Res Parser :=
  match s.doc with
  | none => .panic
  | some d =>
    -- parse_creation_info.go:19-22
    let s := ensureCI s d
    match tag with
    | .licenseListVersion => modCI s fun c => { c with licenseListVersion := value }
    | .creator => do
      let (k, x) ← extractSubs g!":" value
      if isAgentKind k then
        modCI s fun c => { c with creators := c.creators ++ [{ creator := x, creatorType := k }] }
      else .err
    | .created => modCI s fun c => { c with created := value }
    | .creatorComment => modCI s fun c => { c with creatorComment := value }
    | .packageName =>
      if s.fileLacksId then .err
      else openPackage ({ s with st := .package }.newPkg) value
    | .fileName => openFile { s with st := .file, pkg := none } value
    | .licenseID => parseFromOtherLicense v { s with st := .otherLicense } tag value
    | .reviewer => parseFromReview v { s with st := .review } tag value
    -- parse_creation_info.go:97-99; in 2.1 this case is absent
    | .documentComment => if v = .v21 then .err else backToStart s tag value
    | .externalDocumentRef => backToStart s tag value
    | _ => parseShared v s tag value

/-- `parsePairFromStart` (parser.go:53-99). -/
def parseFromStart (v : Version) (s : Parser) (tag : Tag) (value : Str) : Res Parser :=
  let s := ensureDoc s
  match parseStartTags s tag value with
  | some r => r
  | none => parseFromCreationInfo v { s with st := .creationInfo } tag value

/-- `parsePair` (parser.go:32-51). -/
def parsePair (v : Version) (s : Parser) (p : TVPair) : Res Parser :=
  let tag := Tag.ofStr p.tag
  match s.st with
  | .start => parseFromStart v s tag p.value
  | .creationInfo => parseFromCreationInfo v s tag p.value
  | .package => parseFromPackage v s tag p.value
  | .file => parseFromFile v s tag p.value
  | .snippet => parseFromSnippet v s tag p.value
  | .otherLicense => parseFromOtherLicense v s tag p.value
  | .review => parseFromReview v s tag p.value

/-- The loop of `ParseTagValues` (parser.go:17-22). -/
def parsePairs (v : Version) : Parser → List TVPair → Res Parser
  | s, [] => .ok s
  | s, p :: ps => match parsePair v s p with
    | .ok s' => parsePairs v s' ps
    | .err => .err
    | .panic => .panic

/-- Follows the snippet pointers of a file; `none` if one does not point into the heap. -/
def derefFile (s : Parser) (f : File Nat) : Option FileV := do
  let sn ← f.snippets.mapM fun (k, i) => (s.snips[i]?).map fun x => (k, x)
  pure { f with snippets := sn }

/-- Follows a file pointer. -/
def derefFileRef (s : Parser) (i : Nat) : Option FileV := do
  let f ← s.files[i]?
  derefFile s f

/-- Follows the file pointers of a package. -/
def derefPackageRef (s : Parser) (i : Nat) : Option PackageV := do
  let p ← s.pkgs[i]?
  let fs ← p.files.mapM (derefFileRef s)
  pure { p with files := fs }

/-- The document a pointer-based document denotes. -/
def derefDoc (s : Parser) (d : HDoc) : Option Doc := do
  let ps ← d.packages.mapM (derefPackageRef s)
  let fs ← d.files.mapM (derefFileRef s)
  pure { d with packages := ps, files := fs }

/-- `ParseTagValues` (parser.go:15-30): the parsed document, `ok none` being Go's `nil, nil` (returned
for an empty list of pairs).  The document is returned as the value it denotes. -/
def parseTagValues (v : Version) (tvs : List TVPair) : Res (Option Doc) := do
  let s ← parsePairs v {} tvs
  if s.fileLacksId then .err
  else if s.pkgLacksId then .err
  else match s.doc with
    | none => .ok none
    | some d => match derefDoc s d with
      | some doc => .ok (some doc)
      | none => .panic      -- a reference outside the heap: ruled out by the invariant `Core` of Lemmas/ParserInv

end Verif
