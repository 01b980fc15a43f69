import Verif.Model.Identifier

/-!
# The tag-value writer

`spdx/v2/v2_3/tagvalue/writer/*.go`, with `v2_2` and `v2_1` as versions of the same text.  Line numbers
cite v2_3 unless said otherwise.

Every `fmt.Fprintf` of the writer prints one line-terminated piece of text; the model collects these
pieces as a list of `Item`s and concatenates them.  Write errors of the `io.Writer`, which the Go
code ignores, are in `Streams`.  Nil pointers inside the slices and maps of a document are in
`NilEntries`.
-/

namespace Verif

/-- `textify` (util.go:10-16). -/
def textify (s : Str) : Str := if contains g!"\n" s then g!"<text>" ++ s ++ g!"</text>" else s

/-- One `fmt.Fprintf` of the writer: `"Tag: %s\n"` with a plain value, the same with a textified
value, or a line without a tag. -/
inductive Item where
  | field (tag value : Str)
  | text (tag value : Str)
  | line (s : Str)
  deriving DecidableEq, Repr

/-- The text an item prints. -/
def Item.emit : Item → Str
  | .field t v => t ++ g!": " ++ v ++ g!"\n"
  | .text t v => t ++ g!": " ++ textify v ++ g!"\n"
  | .line s => s ++ g!"\n"

/-- The text of all items. -/
def emit (is : List Item) : Str := is.flatMap Item.emit

/-- `if v != "" { fmt.Fprintf(w, "Tag: %s\n", v) }`. -/
def opt (tag v : Str) : List Item := if v = [] then [] else [.field tag v]

/-- `if v != "" { fmt.Fprintf(w, "Tag: %s\n", textify(v)) }`. -/
def optText (tag v : Str) : List Item := if v = [] then [] else [.text tag v]

/-- `if id != "" { fmt.Fprintf(w, "Tag: %s\n", common.RenderElementID(id)) }`. -/
def optId (tag id : Str) : List Item := if id = [] then [] else [.field tag (renderElementID id)]

/-- `for _, s := range l { fmt.Fprintf(w, "Tag: %s\n", s) }`. -/
def each (tag : Str) (l : List Str) : List Item := l.map (Item.field tag)

/-- `for _, s := range l { fmt.Fprintf(w, "Tag: %s\n", textify(s)) }`. -/
def eachText (tag : Str) (l : List Str) : List Item := l.map (Item.text tag)

/-- A composite value `"kind: value"` (`%s: %s`). -/
def pairValue (kind value : Str) : Str := kind ++ g!": " ++ value

/-- The loops over checksums (save_package.go:72-74, save_file.go:25-27). -/
def eachChecksum (tag : Str) (l : List Checksum) : List Item :=
  l.map fun c => .field tag (pairValue c.algorithm c.value)

/-- `renderCreationInfo` (save_creation_info.go:12-30). -/
def renderCreationInfo (c : CreationInfo) : List Item :=
  opt g!"LicenseListVersion" c.licenseListVersion ++
  c.creators.map (fun x => .field g!"Creator" (pairValue x.creatorType x.creator)) ++
  opt g!"Created" c.created ++
  optText g!"CreatorComment" c.creatorComment ++
  [.line []]

/-- One range of a snippet (save_snippet.go:22-29). -/
def renderRange (r : SnippetRange) : List Item :=
  (if r.startPointer.offset ≠ 0 ∧ r.endPointer.offset ≠ 0 then
    [.field g!"SnippetByteRange" (itoa r.startPointer.offset ++ g!":" ++ itoa r.endPointer.offset)] else []) ++
  (if r.startPointer.lineNumber ≠ 0 ∧ r.endPointer.lineNumber ≠ 0 then
    [.field g!"SnippetLineRange" (itoa r.startPointer.lineNumber ++ g!":" ++ itoa r.endPointer.lineNumber)] else [])

/-- `renderSnippet` (save_snippet.go:13-55; in v2_1 without lines 48-50).  The test in line 18 is
always true: the rendered identifier starts with the prefix. -/
def renderSnippet (v : Version) (s : Snippet) : List Item :=
  optId g!"SnippetSPDXID" s.spdxId ++
  [.field g!"SnippetFromFileSPDXID" (renderElementID s.fromFile)] ++
  s.ranges.flatMap renderRange ++
  opt g!"SnippetLicenseConcluded" s.licenseConcluded ++
  each g!"LicenseInfoInSnippet" s.licenseInfo ++
  optText g!"SnippetLicenseComments" s.licenseComments ++
  optText g!"SnippetCopyrightText" s.copyrightText ++
  optText g!"SnippetComment" s.comment ++
  opt g!"SnippetName" s.name ++
  (if v = .v21 then [] else eachText g!"SnippetAttributionText" s.attributionTexts) ++
  [.line []]

/-- One artifact of a file (save_file.go:41-49). -/
def renderArtifact (a : ArtifactOfProject) : List Item :=
  [.field g!"ArtifactOfProjectName" a.name] ++
  opt g!"ArtifactOfProjectHomePage" a.homePage ++
  opt g!"ArtifactOfProjectURI" a.uri

/-- The part of `renderFile` before the snippets (save_file.go:14-66; in v2_1 without lines
59-61). -/
def renderFileFields (v : Version) (f : FileV) : List Item :=
  opt g!"FileName" f.name ++
  optId g!"SPDXID" f.spdxId ++
  each g!"FileType" f.types ++
  eachChecksum g!"FileChecksum" f.checksums ++
  opt g!"LicenseConcluded" f.licenseConcluded ++
  each g!"LicenseInfoInFile" f.licenseInfoInFiles ++
  optText g!"LicenseComments" f.licenseComments ++
  optText g!"FileCopyrightText" f.copyrightText ++
  f.artifactOfProjects.flatMap renderArtifact ++
  optText g!"FileComment" f.comment ++
  optText g!"FileNotice" f.notice ++
  each g!"FileContributor" f.contributors ++
  (if v = .v21 then [] else eachText g!"FileAttributionText" f.attributionTexts) ++
  each g!"FileDependency" f.dependencies ++
  [.line []]

/-- The snippets of a file in the order they are written (save_file.go:68-78): the map's keys sorted,
each looked up again. -/
def snippetsInOrder (so : Sorter) (f : FileV) : List Snippet :=
  (so.run id (f.snippets.map Prod.fst)).filterMap fun k => mapGet k f.snippets

/-- `renderFile` (save_file.go:14-81). -/
def renderFile (v : Version) (so : Sorter) (f : FileV) : List Item :=
  renderFileFields v f ++ (snippetsInOrder so f).flatMap (renderSnippet v)

/-- The supplier line (save_package.go:28-34). -/
def renderSupplier : Option Supplier → List Item
  | none => []
  | some s =>
    if s.supplier = [] then []
    else if s.supplierType = [] then [.field g!"PackageSupplier" s.supplier]
    else [.field g!"PackageSupplier" (pairValue s.supplierType s.supplier)]

/-- The originator line (save_package.go:35-41). -/
def renderOriginator : Option Originator → List Item
  | none => []
  | some s =>
    if s.originator = [] then []
    else if s.originatorType = [] then [.field g!"PackageOriginator" s.originator]
    else [.field g!"PackageOriginator" (pairValue s.originatorType s.originator)]

/-- The `FilesAnalyzed` line (save_package.go:57-63). -/
def renderFilesAnalyzed (analyzed tagPresent : Bool) : List Item :=
  if analyzed then (if tagPresent then [.field g!"FilesAnalyzed" g!"true"] else [])
  else [.field g!"FilesAnalyzed" g!"false"]

/-- The value of a verification code (save_package.go:65-69). -/
def verificationValue (c : VerificationCode) : Str :=
  if c.excludedFiles.length = 0 then c.value
  else c.value ++ g!" (excludes: " ++ join g!", " c.excludedFiles ++ g!")"

/-- The verification code line (save_package.go:64-70; v2_2 save_package.go:52-58: there the code is
not a pointer, and `none` stands for its zero value). -/
def renderVerificationCode (analyzed : Bool) : Option VerificationCode → List Item
  | none => []
  | some c =>
    if c.value ≠ [] ∧ analyzed = true then [.field g!"PackageVerificationCode" (verificationValue c)]
    else []

/-- One external reference (save_package.go:108-113). -/
def renderExternalRef (r : PackageExternalRef) : List Item :=
  [.field g!"ExternalRef" (r.category ++ g!" " ++ r.refType ++ g!" " ++ r.locator)] ++
  optText g!"ExternalRefComment" r.comment

/-- The part of `renderPackage` before the files (save_package.go:15-118; v2_2 without lines 45-56,
v2_1 also without lines 114-116). -/
def renderPackageFields (v : Version) (p : PackageV) : List Item :=
  opt g!"PackageName" p.name ++
  optId g!"SPDXID" p.spdxId ++
  opt g!"PackageVersion" p.version ++
  opt g!"PackageFileName" p.fileName ++
  renderSupplier p.supplier ++
  renderOriginator p.originator ++
  opt g!"PackageDownloadLocation" p.downloadLocation ++
  (if v = .v23 then
    opt g!"PrimaryPackagePurpose" p.primaryPurpose ++
    opt g!"ReleaseDate" p.releaseDate ++
    opt g!"BuiltDate" p.builtDate ++
    opt g!"ValidUntilDate" p.validUntilDate
   else []) ++
  renderFilesAnalyzed p.filesAnalyzed p.filesAnalyzedTagPresent ++
  renderVerificationCode p.filesAnalyzed p.verificationCode ++
  eachChecksum g!"PackageChecksum" p.checksums ++
  opt g!"PackageHomePage" p.homePage ++
  optText g!"PackageSourceInfo" p.sourceInfo ++
  opt g!"PackageLicenseConcluded" p.licenseConcluded ++
  (if p.filesAnalyzed then each g!"PackageLicenseInfoFromFiles" p.licenseInfoFromFiles else []) ++
  opt g!"PackageLicenseDeclared" p.licenseDeclared ++
  optText g!"PackageLicenseComments" p.licenseComments ++
  optText g!"PackageCopyrightText" p.copyrightText ++
  optText g!"PackageSummary" p.summary ++
  optText g!"PackageDescription" p.description ++
  optText g!"PackageComment" p.comment ++
  p.externalRefs.flatMap renderExternalRef ++
  (if v = .v21 then [] else eachText g!"PackageAttributionText" p.attributionTexts) ++
  [.line []]

/-- The files of a package after sorting in place (save_package.go:121-123). -/
def sortPackageFiles (so : Sorter) (p : PackageV) : PackageV :=
  { p with files := so.run (·.spdxId) p.files }

/-- `renderPackage` (save_package.go:15-129). -/
def renderPackage (v : Version) (so : Sorter) (p : PackageV) : List Item :=
  renderPackageFields v p ++ (sortPackageFiles so p).files.flatMap (renderFile v so)

/-- `renderOtherLicense` (save_other_license.go:12-32). -/
def renderOtherLicense (l : OtherLicense) : List Item :=
  opt g!"LicenseID" l.licenseIdentifier ++
  optText g!"ExtractedText" l.extractedText ++
  opt g!"LicenseName" l.licenseName ++
  each g!"LicenseCrossReference" l.crossReferences ++
  optText g!"LicenseComment" l.comment ++
  [.line []]

/-- `renderRelationship` (save_relationship.go:13-24). -/
def renderRelationship (r : Relationship) : List Item :=
  let a := renderDocElementID r.refA
  let b := renderDocElementID r.refB
  (if a ≠ g!"SPDXRef-" ∧ b ≠ g!"SPDXRef-" ∧ r.relationship ≠ [] then
    [.field g!"Relationship" (a ++ g!" " ++ r.relationship ++ g!" " ++ b)] else []) ++
  optText g!"RelationshipComment" r.comment

/-- `renderAnnotation` (save_annotation.go:13-32). -/
def renderAnnotation (a : Annotation) : List Item :=
  (if a.annotator.annotator ≠ [] ∧ a.annotator.annotatorType ≠ [] then
    [.field g!"Annotator" (pairValue a.annotator.annotatorType a.annotator.annotator)] else []) ++
  opt g!"AnnotationDate" a.date ++
  opt g!"AnnotationType" a.type ++
  (if renderDocElementID a.spdxId ≠ g!"SPDXRef-" then
    [.field g!"SPDXREF" (renderDocElementID a.spdxId)] else []) ++
  optText g!"AnnotationComment" a.comment

/-- `renderReview` (save_review.go:12-26). -/
def renderReview (r : Review) : List Item :=
  (if r.reviewer ≠ [] ∧ r.reviewerType ≠ [] then
    [.field g!"Reviewer" (pairValue r.reviewerType r.reviewer)] else []) ++
  opt g!"ReviewDate" r.date ++
  optText g!"ReviewComment" r.comment ++
  [.line []]

/-- One external document reference (save_document.go:43-46). -/
def renderExternalDocRef (e : ExternalDocumentRef) : List Item :=
  [.field g!"ExternalDocumentRef" (g!"DocumentRef-" ++ e.documentRefID ++ g!" " ++ e.uri ++ g!" " ++
    e.checksum.algorithm ++ g!":" ++ e.checksum.value)]

/-- The heading before a group, printed if the group is not empty (save_document.go:53-54, 72-73,
79-80, 87-88, 95-96). -/
def heading {α : Type} (l : List α) (title : Str) : List Item :=
  if l = [] then [] else [.line title, .line []]

/-- The document after the in-place sorts of the writer (save_document.go:40-42, 55-57, 64-66,
save_package.go:121-123). -/
def sortDocument (so : Sorter) (d : Doc) : Doc :=
  { d with externalDocumentRefs := so.run (·.documentRefID) d.externalDocumentRefs,
           files := so.run (·.spdxId) d.files,
           packages := (so.run (·.spdxId) d.packages).map (sortPackageFiles so) }

/-- The document-level fields (save_document.go:24-49). -/
def renderHeader (so : Sorter) (d : Doc) : List Item :=
  opt g!"SPDXVersion" d.spdxVersion ++
  opt g!"DataLicense" d.dataLicense ++
  optId g!"SPDXID" d.spdxId ++
  opt g!"DocumentName" d.name ++
  opt g!"DocumentNamespace" d.namespace_ ++
  (so.run (·.documentRefID) d.externalDocumentRefs).flatMap renderExternalDocRef ++
  optText g!"DocumentComment" d.comment

/-- The relationship group (save_document.go:79-85). -/
def renderRelationships (l : List Relationship) : List Item :=
  heading l g!"##### Relationships" ++ l.flatMap renderRelationship ++ (if l = [] then [] else [.line []])

/-- The groups after the packages (save_document.go:72-100). -/
def renderTail (d : Doc) : List Item :=
  heading d.otherLicenses g!"##### Other Licenses" ++
  d.otherLicenses.flatMap renderOtherLicense ++
  renderRelationships d.relationships ++
  heading d.annotations g!"##### Annotations" ++
  d.annotations.flatMap (fun a => renderAnnotation a ++ [.line []]) ++
  heading d.reviews g!"##### Reviews" ++
  d.reviews.flatMap renderReview

/-- A package with its heading (save_document.go:67-70). -/
def renderPackageGroup (v : Version) (so : Sorter) (p : PackageV) : List Item :=
  [.line (g!"##### Package: " ++ p.name), .line []] ++ renderPackage v so p

/-- Everything `RenderDocument` prints once the creation info is there (save_document.go:24-100). -/
def renderBody (v : Version) (so : Sorter) (d : Doc) (ci : CreationInfo) : List Item :=
  renderHeader so d ++
  renderCreationInfo ci ++
  heading d.files g!"##### Unpackaged files" ++
  (so.run (·.spdxId) d.files).flatMap (renderFile v so) ++
  (so.run (·.spdxId) d.packages).flatMap (renderPackageGroup v so) ++
  renderTail d

/-- `RenderDocument` (save_document.go:19-103): the items printed and the caller's document after the
call. -/
def renderDocument (v : Version) (so : Sorter) (d : Doc) : Res (List Item × Doc) :=
  match d.creationInfo with
  | none => .err
  | some ci => .ok (renderBody v so d ci, sortDocument so d)

/-- The text written for a document (tagvalue/writer.go:23-34 after the version switch, for a
document of the given version). -/
def writeTagValue (v : Version) (so : Sorter) (d : Doc) : Res Str := do
  let (is, _) ← renderDocument v so d
  .ok (emit is)

end Verif
