import Verif.Model.NilEntries
import Verif.Model.Streams

/-!
# What the tag-value writer has printed when it meets a nil pointer

`spdx/v2/v2_3/tagvalue/writer/*.go`; `v2_2` and `v2_1` as versions of the same text, see `TVWrite`.  `NilEntries` says
whether the writer panics; here it is followed print by print.
-/

namespace Verif

/-- What has been printed, and whether the function returned (otherwise it panicked after that). -/
structure Printed where
  items : List Item
  done : Bool
  deriving DecidableEq

/-- `fmt.Fprintf`, some of them. -/
def say (is : List Item) : Printed := ⟨is, true⟩

/-- One thing after another; nothing is printed after a panic. -/
def Printed.andThen (a b : Printed) : Printed := if a.done then ⟨a.items ++ b.items, b.done⟩ else a

/-- A loop over a slice of pointers whose body starts by reading what the pointer points to. -/
def overAll {α : Type} (body : α → Printed) : List (Option α) → Printed
  | [] => say []
  | none :: _ => ⟨[], false⟩
  | some a :: l => (body a).andThen (overAll body l)

/-- `sort.Slice` on a slice of pointers, then a loop over it. -/
def sortedOverAll {α : Type} (so : Sorter) (key : α → Str) (body : α → Printed) (l : List (Option α)) : Printed :=
  match sortPointers so key l with
  | .ok m => overAll body m
  | _ => ⟨[], false⟩

/-- `renderFile` before the artifacts (save_file.go:15-40). -/
def fileFieldsBefore (f : FileV) : List Item :=
  opt g!"FileName" f.name ++ optId g!"SPDXID" f.spdxId ++ each g!"FileType" f.types ++ eachChecksum g!"FileChecksum" f.checksums ++
  opt g!"LicenseConcluded" f.licenseConcluded ++ each g!"LicenseInfoInFile" f.licenseInfoInFiles ++
  optText g!"LicenseComments" f.licenseComments ++ optText g!"FileCopyrightText" f.copyrightText

/-- `renderFile` between the artifacts and the snippets (save_file.go:50-66; in v2_1 without lines 59-61). -/
def fileFieldsAfter (v : Version) (f : FileV) : List Item :=
  optText g!"FileComment" f.comment ++ optText g!"FileNotice" f.notice ++ each g!"FileContributor" f.contributors ++
  (if v = .v21 then [] else eachText g!"FileAttributionText" f.attributionTexts) ++
  each g!"FileDependency" f.dependencies ++ [.line []]

/-- `renderFile` (save_file.go:14-81). -/
def printFile (v : Version) (so : Sorter) (f : NFile) : Printed :=
  (say (fileFieldsBefore f.file)).andThen <|
  (overAll (fun a => say (renderArtifact a)) f.artifacts).andThen <|
  (say (fileFieldsAfter v f.file)).andThen <|
  overAll (fun s => say (renderSnippet v s)) (nSnippetsInOrder so f)

/-- `renderPackage` before the external references (save_package.go:15-107; v2_2 without lines 45-56). -/
def packageFieldsBefore (v : Version) (p : PackageV) : List Item :=
  opt g!"PackageName" p.name ++ optId g!"SPDXID" p.spdxId ++ opt g!"PackageVersion" p.version ++ opt g!"PackageFileName" p.fileName ++
  renderSupplier p.supplier ++ renderOriginator p.originator ++ opt g!"PackageDownloadLocation" p.downloadLocation ++
  (if v = .v23 then
    opt g!"PrimaryPackagePurpose" p.primaryPurpose ++ opt g!"ReleaseDate" p.releaseDate ++ opt g!"BuiltDate" p.builtDate ++
    opt g!"ValidUntilDate" p.validUntilDate
   else []) ++
  renderFilesAnalyzed p.filesAnalyzed p.filesAnalyzedTagPresent ++ renderVerificationCode p.filesAnalyzed p.verificationCode ++
  eachChecksum g!"PackageChecksum" p.checksums ++ opt g!"PackageHomePage" p.homePage ++ optText g!"PackageSourceInfo" p.sourceInfo ++
  opt g!"PackageLicenseConcluded" p.licenseConcluded ++
  (if p.filesAnalyzed then each g!"PackageLicenseInfoFromFiles" p.licenseInfoFromFiles else []) ++
  opt g!"PackageLicenseDeclared" p.licenseDeclared ++ optText g!"PackageLicenseComments" p.licenseComments ++
  optText g!"PackageCopyrightText" p.copyrightText ++ optText g!"PackageSummary" p.summary ++
  optText g!"PackageDescription" p.description ++ optText g!"PackageComment" p.comment

/-- `renderPackage` between the external references and the files (save_package.go:114-118; not in v2_1: 114-116). -/
def packageFieldsAfter (v : Version) (p : PackageV) : List Item :=
  (if v = .v21 then [] else eachText g!"PackageAttributionText" p.attributionTexts) ++ [.line []]

/-- `renderPackage` (save_package.go:15-129). -/
def printPackage (v : Version) (so : Sorter) (p : NPackage) : Printed :=
  (say (packageFieldsBefore v p.pkg)).andThen <|
  (overAll (fun r => say (renderExternalRef r)) p.externalRefs).andThen <|
  (say (packageFieldsAfter v p.pkg)).andThen <|
  sortedOverAll so (·.file.spdxId) (printFile v so) p.files

/-- A package with its heading (save_document.go:67-70). -/
def printPackageGroup (v : Version) (so : Sorter) (p : NPackage) : Printed :=
  (say [.line (g!"##### Package: " ++ p.pkg.name), .line []]).andThen (printPackage v so p)

/-- The relationships (save_document.go:79-85). -/
def printRelationships (l : List (Option Relationship)) : Printed :=
  (say (heading l g!"##### Relationships")).andThen <|
  (overAll (fun r => say (renderRelationship r)) l).andThen (say (if l = [] then [] else [.line []]))

/-- `RenderDocument` (save_document.go:24-102) once the creation info is there. -/
def printWhole (v : Version) (so : Sorter) (n : NDoc) (ci : CreationInfo) : Printed :=
  (say (renderHeader so n.doc ++ renderCreationInfo ci ++ heading n.files g!"##### Unpackaged files")).andThen <|
  (sortedOverAll so (·.file.spdxId) (printFile v so) n.files).andThen <|
  (sortedOverAll so (·.pkg.spdxId) (printPackageGroup v so) n.packages).andThen <|
  (say (heading n.otherLicenses g!"##### Other Licenses")).andThen <|
  (overAll (fun l => say (renderOtherLicense l)) n.otherLicenses).andThen <|
  (printRelationships n.relationships).andThen <|
  (say (heading n.annotations g!"##### Annotations")).andThen <|
  (overAll (fun a => say (renderAnnotation a ++ [.line []])) n.annotations).andThen <|
  (say (heading n.reviews g!"##### Reviews")).andThen <|
  overAll (fun r => say (renderReview r)) n.reviews

/-- `tagvalue.Write` (tagvalue/writer.go:23-34, save_document.go:19-103) on a document of version `v`: what is returned, and
the state of the writer afterwards. -/
def nWriteTagValueTo (k : Sink) (s : k.State) (v : Version) (so : Sorter) (n : NDoc) : Res Unit × k.State :=
  match n.doc.creationInfo with
  | none => (.err, s)
  | some ci =>
    let p := printWhole v so n ci
    (if p.done then .ok () else .panic, writePieces k s (writeCalls p.items))

end Verif
