import Verif.Model.JsonDoc

/-!
# Copying a document between versions

`convert/chain.go` leaves the copying of fields to `github.com/anchore/go-struct-converter` v0.2.1 (go.mod:6), which
works by reflection: it goes through the fields of the source struct and sets the field of the same name of the
target struct, if there is one, converting structs, slices, maps and pointers on the way.  So what is kept depends
on the names and types of the struct fields of the three versions, which is what this file models.

The library is not part of /repo.  It is modelled as its documentation describes it; where the model's author could
not settle its behaviour, it is left open by `Copier`.
-/

namespace Verif

mutual
/-- Go types as far as documents use them.  Named string types (`common.ElementID`) are strings; map keys are
strings. -/
inductive GoTy where
  | str
  | bool
  | int
  | ptr (t : GoTy)
  | slice (t : GoTy)
  | map (t : GoTy)
  | struct (fs : GoFields)

/-- The fields of a struct type, in order. -/
inductive GoFields where
  | nil
  | cons (name : String) (t : GoTy) (rest : GoFields)
end

/-- Go values.  A nil slice or map is an empty one. -/
inductive GoVal where
  | str (s : Str)
  | bool (b : Bool)
  | int (i : Int)
  | nil
  | ptr (v : GoVal)
  | slice (vs : List GoVal)
  | map (es : List (Str × GoVal))
  | struct (fs : List (String × GoVal))

/-- A struct type given by a list of fields. -/
def GoFields.of : List (String × GoTy) → GoFields
  | [] => .nil
  | (n, t) :: fs => .cons n t (of fs)

/-- The names of the fields. -/
def GoFields.names : GoFields → List String
  | .nil => []
  | .cons n _ fs => n :: fs.names

mutual
/-- The zero value of a type. -/
def GoTy.zero : GoTy → GoVal
  | .str => .str []
  | .bool => .bool false
  | .int => .int 0
  | .ptr _ => .nil
  | .slice _ => .slice []
  | .map _ => .map []
  | .struct fs => .struct fs.zero

/-- The zero values of the fields. -/
def GoFields.zero : GoFields → List (String × GoVal)
  | .nil => []
  | .cons n t fs => (n, t.zero) :: fs.zero
end

mutual
/-- `reflect.Value.IsZero`. -/
def GoVal.isZero : GoVal → Bool
  | .str s => s.isEmpty
  | .bool b => !b
  | .int i => i == 0
  | .nil => true
  | .ptr _ => false
  | .slice vs => vs.isEmpty
  | .map es => es.isEmpty
  | .struct fs => fieldsZero fs

/-- All fields are zero. -/
def fieldsZero : List (String × GoVal) → Bool
  | [] => true
  | (_, v) :: fs => v.isZero && fieldsZero fs
end

/-- What is left open about the library: whether a pointer to a zero value is treated as nil, and whether a zero
value becomes a nil pointer where the target has a pointer. -/
structure Copier where
  zeroPtrNil : Bool
  zeroValueNil : Bool

/-- What a value points to; `none` if there is nothing to copy. -/
def Copier.deref (lib : Copier) : GoVal → Option GoVal
  | .nil => none
  | .ptr v => if lib.zeroPtrNil && v.isZero then none else some v
  | v => some v

mutual
/-- A value converted to a type; `none` if there is nothing to set (go-struct-converter, see above). -/
def Copier.conv (lib : Copier) : GoTy → GoVal → Res (Option GoVal)
  | .ptr t, v =>
    match lib.deref v with
    | none => .ok none
    | some w =>
      match v with
      | .ptr _ => do let x ← lib.conv t w; .ok (x.map .ptr)
      | _ => if lib.zeroValueNil && w.isZero then .ok none else do let x ← lib.conv t w; .ok (x.map .ptr)
  | .str, v =>
    match lib.deref v with
    | none => .ok none
    | some (.str s) => .ok (some (.str s))
    | some _ => .err
  | .bool, v =>
    match lib.deref v with
    | none => .ok none
    | some (.bool b) => .ok (some (.bool b))
    | some _ => .err
  | .int, v =>
    match lib.deref v with
    | none => .ok none
    | some (.int i) => .ok (some (.int i))
    | some _ => .err
  | .slice t, v =>
    match lib.deref v with
    | none => .ok none
    | some (.slice vs) => do
      let ws ← mapRes (fun x => do let y ← lib.conv t x; .ok (y.getD t.zero)) vs
      .ok (some (.slice ws))
    | some _ => .err
  | .map t, v =>
    match lib.deref v with
    | none => .ok none
    | some (.map es) => do
      let ws ← mapRes (fun (e : Str × GoVal) => do let y ← lib.conv t e.2; .ok (y.map fun y => (e.1, y))) es
      .ok (some (.map (ws.filterMap id)))
    | some _ => .err
  | .struct ts, v =>
    match lib.deref v with
    | none => .ok none
    | some (.struct fs) => do
      let ws ← lib.convFields ts fs
      .ok (some (.struct ws))
    | some _ => .err

/-- The fields of the target struct: converted from the field of the same name, zero if there is none or nothing to
set.  Simplification: the library goes through the fields of the source; field names are distinct. -/
def Copier.convFields (lib : Copier) : GoFields → List (String × GoVal) → Res (List (String × GoVal))
  | .nil, _ => .ok []
  | .cons n t rest, fs => do
    let x ← match fs.lookup n with
      | none => .ok none
      | some v => lib.conv t v
    let xs ← lib.convFields rest fs
    .ok ((n, x.getD t.zero) :: xs)
end

/-! ## The struct types -/

/-- `common.Checksum` (spdx/v2/common/checksum.go:31-34). -/
def checksumTy : GoTy := .struct (.of [("Algorithm", .str), ("Value", .str)])

/-- `common.DocElementID` (spdx/v2/common/identifier.go:118-122). -/
def docElementTy : GoTy := .struct (.of [("DocumentRefID", .str), ("ElementRefID", .str), ("SpecialID", .str)])

/-- `common.Creator` (spdx/v2/common/creation_info.go:13-17). -/
def creatorTy : GoTy := .struct (.of [("Creator", .str), ("CreatorType", .str)])

/-- `common.Annotator` (spdx/v2/common/annotation.go:12-16). -/
def annotatorTy : GoTy := .struct (.of [("Annotator", .str), ("AnnotatorType", .str)])

/-- `common.Supplier` (spdx/v2/common/package.go:12-17). -/
def supplierTy : GoTy := .struct (.of [("Supplier", .str), ("SupplierType", .str)])

/-- `common.Originator` (spdx/v2/common/package.go:55-60). -/
def originatorTy : GoTy := .struct (.of [("Originator", .str), ("OriginatorType", .str)])

/-- `common.PackageVerificationCode` (spdx/v2/common/package.go:96-104). -/
def codeTy : GoTy := .struct (.of [("Value", .str), ("ExcludedFiles", .slice .str)])

/-- `common.SnippetRangePointer` (spdx/v2/common/snippet.go:5-15). -/
def rangePointerTy : GoTy := .struct (.of [("Offset", .int), ("LineNumber", .int), ("FileSPDXIdentifier", .str)])

/-- `common.SnippetRange` (spdx/v2/common/snippet.go:17-20). -/
def rangeTy : GoTy := .struct (.of [("StartPointer", rangePointerTy), ("EndPointer", rangePointerTy)])

/-- `ExternalDocumentRef` (v2_1/document.go:15-26, v2_2/document.go:19-30, v2_3/document.go:18-29 under spdx/v2). -/
def externalDocumentRefTy : GoTy := .struct (.of [("DocumentRefID", .str), ("URI", .str), ("Checksum", checksumTy)])

/-- `CreationInfo` (v2_1/creation_info.go:11-28, v2_2/creation_info.go:11-28, v2_3/creation_info.go:10-27). -/
def creationInfoTy : GoTy := .struct (.of [("LicenseListVersion", .str), ("Creators", .slice creatorTy), ("Created", .str),
  ("CreatorComment", .str)])

/-- `PackageExternalReference` (v2_1/package.go:107-122, v2_2/package.go:187-202, v2_3/package.go:179-194). -/
def externalRefTy : GoTy := .struct (.of [("Category", .str), ("RefType", .str), ("Locator", .str),
  ("ExternalRefComment", .str)])

/-- `Annotation` (annotation.go:10-31 of v2_1, v2_2 and v2_3). -/
def annotationTy : GoTy := .struct (.of [("Annotator", annotatorTy), ("AnnotationDate", .str), ("AnnotationType", .str),
  ("AnnotationSPDXIdentifier", docElementTy), ("AnnotationComment", .str)])

/-- `Relationship` (v2_1/relationship.go:11-25, v2_2/relationship.go:11-25, v2_3/relationship.go:10-24). -/
def relationshipTy : GoTy := .struct (.of [("RefA", docElementTy), ("RefB", docElementTy), ("Relationship", .str),
  ("RelationshipComment", .str)])

/-- `Review` (review.go:7-25 of v2_1, v2_2 and v2_3). -/
def reviewTy : GoTy := .struct (.of [("Reviewer", .str), ("ReviewerType", .str), ("ReviewDate", .str), ("ReviewComment", .str)])

/-- `OtherLicense` (v2_1/other_license.go:7-31, v2_2/other_license.go:7-31, v2_3/other_license.go:6-30). -/
def otherLicenseTy : GoTy := .struct (.of [("LicenseIdentifier", .str), ("ExtractedText", .str), ("LicenseName", .str),
  ("LicenseCrossReferences", .slice .str), ("LicenseComment", .str)])

/-- `ArtifactOfProject` (v2_1/file.go:76-92, v2_2/file.go:80-96, v2_3/file.go:82-98). -/
def artifactTy : GoTy := .struct (.of [("Name", .str), ("HomePage", .str), ("URI", .str)])

/-- `Snippet` (snippet.go:10 ff. of v2_1, v2_2 and v2_3). -/
def snippetStruct : Version → GoFields
  | .v21 => .of [("SnippetSPDXIdentifier", .str), ("SnippetFromFileSPDXIdentifier", .str), ("Ranges", .slice rangeTy),
      ("SnippetLicenseConcluded", .str), ("LicenseInfoInSnippet", .slice .str), ("SnippetLicenseComments", .str),
      ("SnippetCopyrightText", .str), ("SnippetComment", .str), ("SnippetName", .str)]
  | .v22 => .of [("SnippetSPDXIdentifier", .str), ("SnippetFromFileSPDXIdentifier", .str), ("Ranges", .slice rangeTy),
      ("SnippetLicenseConcluded", .str), ("LicenseInfoInSnippet", .slice .str), ("SnippetLicenseComments", .str),
      ("SnippetCopyrightText", .str), ("SnippetComment", .str), ("SnippetName", .str),
      ("SnippetAttributionTexts", .slice .str)]
  | .v23 => .of [("SnippetSPDXIdentifier", .str), ("SnippetFromFileSPDXIdentifier", .str), ("Ranges", .slice rangeTy),
      ("SnippetLicenseConcluded", .str), ("LicenseInfoInSnippet", .slice .str), ("SnippetLicenseComments", .str),
      ("SnippetCopyrightText", .str), ("SnippetComment", .str), ("SnippetName", .str),
      ("SnippetAttributionTexts", .slice .str)]

/-- `File` (file.go:10 ff. of v2_1, v2_2 and v2_3). -/
def fileStruct : Version → GoFields
  | .v21 => .of [("FileName", .str), ("FileSPDXIdentifier", .str), ("FileTypes", .slice .str), ("Checksums", .slice checksumTy),
      ("LicenseConcluded", .str), ("LicenseInfoInFiles", .slice .str), ("LicenseComments", .str), ("FileCopyrightText", .str),
      ("ArtifactOfProjects", .slice (.ptr artifactTy)), ("FileComment", .str), ("FileNotice", .str),
      ("FileContributors", .slice .str), ("FileDependencies", .slice .str),
      ("Snippets", .map (.ptr (.struct (snippetStruct .v21)))), ("Annotations", .slice annotationTy)]
  | .v22 => .of [("FileName", .str), ("FileSPDXIdentifier", .str), ("FileTypes", .slice .str), ("Checksums", .slice checksumTy),
      ("LicenseConcluded", .str), ("LicenseInfoInFiles", .slice .str), ("LicenseComments", .str), ("FileCopyrightText", .str),
      ("ArtifactOfProjects", .slice (.ptr artifactTy)), ("FileComment", .str), ("FileNotice", .str),
      ("FileContributors", .slice .str), ("FileAttributionTexts", .slice .str), ("FileDependencies", .slice .str),
      ("Snippets", .map (.ptr (.struct (snippetStruct .v22)))), ("Annotations", .slice annotationTy)]
  | .v23 => .of [("FileName", .str), ("FileSPDXIdentifier", .str), ("FileTypes", .slice .str), ("Checksums", .slice checksumTy),
      ("LicenseConcluded", .str), ("LicenseInfoInFiles", .slice .str), ("LicenseComments", .str), ("FileCopyrightText", .str),
      ("ArtifactOfProjects", .slice (.ptr artifactTy)), ("FileComment", .str), ("FileNotice", .str),
      ("FileContributors", .slice .str), ("FileAttributionTexts", .slice .str), ("FileDependencies", .slice .str),
      ("Snippets", .map (.ptr (.struct (snippetStruct .v23)))), ("Annotations", .slice annotationTy)]

/-- `Package` (v2_1/package.go:10-103, v2_2/package.go:14-124, v2_3/package.go:14-142).  Left out: the unexported
`hasFiles`, which is nil outside `UnmarshalJSON`. -/
def packageStruct : Version → GoFields
  | .v21 => .of [("PackageName", .str), ("PackageSPDXIdentifier", .str), ("PackageVersion", .str), ("PackageFileName", .str),
      ("PackageSupplier", .ptr supplierTy), ("PackageOriginator", .ptr originatorTy), ("PackageDownloadLocation", .str),
      ("FilesAnalyzed", .bool), ("IsFilesAnalyzedTagPresent", .bool), ("PackageVerificationCode", codeTy),
      ("PackageChecksums", .slice checksumTy), ("PackageHomePage", .str), ("PackageSourceInfo", .str),
      ("PackageLicenseConcluded", .str), ("PackageLicenseInfoFromFiles", .slice .str), ("PackageLicenseDeclared", .str),
      ("PackageLicenseComments", .str), ("PackageCopyrightText", .str), ("PackageSummary", .str), ("PackageDescription", .str),
      ("PackageComment", .str), ("PackageExternalReferences", .slice (.ptr externalRefTy)),
      ("Files", .slice (.ptr (.struct (fileStruct .v21)))), ("Annotations", .slice annotationTy)]
  | .v22 => .of [("IsUnpackaged", .bool), ("PackageName", .str), ("PackageSPDXIdentifier", .str), ("PackageVersion", .str),
      ("PackageFileName", .str), ("PackageSupplier", .ptr supplierTy), ("PackageOriginator", .ptr originatorTy),
      ("PackageDownloadLocation", .str), ("FilesAnalyzed", .bool), ("IsFilesAnalyzedTagPresent", .bool),
      ("PackageVerificationCode", codeTy), ("PackageChecksums", .slice checksumTy), ("PackageHomePage", .str),
      ("PackageSourceInfo", .str), ("PackageLicenseConcluded", .str), ("PackageLicenseInfoFromFiles", .slice .str),
      ("PackageLicenseDeclared", .str), ("PackageLicenseComments", .str), ("PackageCopyrightText", .str),
      ("PackageSummary", .str), ("PackageDescription", .str), ("PackageComment", .str),
      ("PackageExternalReferences", .slice (.ptr externalRefTy)), ("PackageAttributionTexts", .slice .str),
      ("Files", .slice (.ptr (.struct (fileStruct .v22)))), ("Annotations", .slice annotationTy)]
  | .v23 => .of [("IsUnpackaged", .bool), ("PackageName", .str), ("PackageSPDXIdentifier", .str), ("PackageVersion", .str),
      ("PackageFileName", .str), ("PackageSupplier", .ptr supplierTy), ("PackageOriginator", .ptr originatorTy),
      ("PackageDownloadLocation", .str), ("FilesAnalyzed", .bool), ("IsFilesAnalyzedTagPresent", .bool),
      ("PackageVerificationCode", .ptr codeTy), ("PackageChecksums", .slice checksumTy), ("PackageHomePage", .str),
      ("PackageSourceInfo", .str), ("PackageLicenseConcluded", .str), ("PackageLicenseInfoFromFiles", .slice .str),
      ("PackageLicenseDeclared", .str), ("PackageLicenseComments", .str), ("PackageCopyrightText", .str),
      ("PackageSummary", .str), ("PackageDescription", .str), ("PackageComment", .str),
      ("PackageExternalReferences", .slice (.ptr externalRefTy)), ("PackageAttributionTexts", .slice .str),
      ("PrimaryPackagePurpose", .str), ("ReleaseDate", .str), ("BuiltDate", .str), ("ValidUntilDate", .str),
      ("Files", .slice (.ptr (.struct (fileStruct .v23)))), ("Annotations", .slice annotationTy)]

/-- `Document` (v2_1/document.go:30-70, v2_2/document.go:34-74, v2_3/document.go:33-73). -/
def documentStruct (v : Version) : GoFields :=
  .of [("SPDXVersion", .str), ("DataLicense", .str), ("SPDXIdentifier", .str), ("DocumentName", .str),
    ("DocumentNamespace", .str), ("ExternalDocumentReferences", .slice externalDocumentRefTy), ("DocumentComment", .str),
    ("CreationInfo", .ptr creationInfoTy), ("Packages", .slice (.ptr (.struct (packageStruct v)))),
    ("Files", .slice (.ptr (.struct (fileStruct v)))), ("OtherLicenses", .slice (.ptr otherLicenseTy)),
    ("Relationships", .slice (.ptr relationshipTy)), ("Annotations", .slice (.ptr annotationTy)),
    ("Snippets", .slice (.struct (snippetStruct v))), ("Reviews", .slice (.ptr reviewTy))]

/-! ## Documents as Go values, and back -/

/-- Strings as a Go slice. -/
def strsVal (l : List Str) : GoVal := .slice (l.map .str)

/-- A Go value for a checksum. -/
def checksumVal (c : Checksum) : GoVal := .struct [("Algorithm", .str c.algorithm), ("Value", .str c.value)]

/-- A Go value for a reference. -/
def docElementVal (r : DocElementID) : GoVal :=
  .struct [("DocumentRefID", .str r.documentRefID), ("ElementRefID", .str r.elementRefID), ("SpecialID", .str r.specialID)]

/-- A Go value for a creator. -/
def creatorVal (c : Creator) : GoVal := .struct [("Creator", .str c.creator), ("CreatorType", .str c.creatorType)]

/-- A Go value for an annotator. -/
def annotatorVal (a : Annotator) : GoVal := .struct [("Annotator", .str a.annotator), ("AnnotatorType", .str a.annotatorType)]

/-- A Go value for a supplier. -/
def supplierVal (s : Supplier) : GoVal := .struct [("Supplier", .str s.supplier), ("SupplierType", .str s.supplierType)]

/-- A Go value for an originator. -/
def originatorVal (o : Originator) : GoVal :=
  .struct [("Originator", .str o.originator), ("OriginatorType", .str o.originatorType)]

/-- A Go value for a verification code. -/
def codeVal (c : VerificationCode) : GoVal := .struct [("Value", .str c.value), ("ExcludedFiles", strsVal c.excludedFiles)]

/-- A Go value for a range pointer. -/
def rangePointerVal (p : RangePointer) : GoVal :=
  .struct [("Offset", .int p.offset), ("LineNumber", .int p.lineNumber), ("FileSPDXIdentifier", .str p.fileSpdxId)]

/-- A Go value for a range. -/
def rangeVal (r : SnippetRange) : GoVal :=
  .struct [("StartPointer", rangePointerVal r.startPointer), ("EndPointer", rangePointerVal r.endPointer)]

/-- A Go value for an external document reference. -/
def externalDocumentRefVal (r : ExternalDocumentRef) : GoVal :=
  .struct [("DocumentRefID", .str r.documentRefID), ("URI", .str r.uri), ("Checksum", checksumVal r.checksum)]

/-- A Go value for creation information. -/
def creationInfoVal (c : CreationInfo) : GoVal :=
  .struct [("LicenseListVersion", .str c.licenseListVersion), ("Creators", .slice (c.creators.map creatorVal)),
    ("Created", .str c.created), ("CreatorComment", .str c.creatorComment)]

/-- A Go value for an external reference. -/
def externalRefVal (r : PackageExternalRef) : GoVal :=
  .struct [("Category", .str r.category), ("RefType", .str r.refType), ("Locator", .str r.locator),
    ("ExternalRefComment", .str r.comment)]

/-- A Go value for an annotation. -/
def annotationVal (a : Annotation) : GoVal :=
  .struct [("Annotator", annotatorVal a.annotator), ("AnnotationDate", .str a.date), ("AnnotationType", .str a.type),
    ("AnnotationSPDXIdentifier", docElementVal a.spdxId), ("AnnotationComment", .str a.comment)]

/-- A Go value for a relationship. -/
def relationshipVal (r : Relationship) : GoVal :=
  .struct [("RefA", docElementVal r.refA), ("RefB", docElementVal r.refB), ("Relationship", .str r.relationship),
    ("RelationshipComment", .str r.comment)]

/-- A Go value for a review. -/
def reviewVal (r : Review) : GoVal :=
  .struct [("Reviewer", .str r.reviewer), ("ReviewerType", .str r.reviewerType), ("ReviewDate", .str r.date),
    ("ReviewComment", .str r.comment)]

/-- A Go value for an other license. -/
def otherLicenseVal (l : OtherLicense) : GoVal :=
  .struct [("LicenseIdentifier", .str l.licenseIdentifier), ("ExtractedText", .str l.extractedText),
    ("LicenseName", .str l.licenseName), ("LicenseCrossReferences", strsVal l.crossReferences), ("LicenseComment", .str l.comment)]

/-- A Go value for an artifact. -/
def artifactVal (a : ArtifactOfProject) : GoVal :=
  .struct [("Name", .str a.name), ("HomePage", .str a.homePage), ("URI", .str a.uri)]

/-- The struct with these of the given values. -/
def pickFields (names : List String) (fs : List (String × GoVal)) : GoVal := .struct (fs.filter fun f => names.contains f.1)

/-- A Go value for a snippet of version `v`. -/
def snippetVal (v : Version) (s : Snippet) : GoVal :=
  pickFields (snippetStruct v).names
    [("SnippetSPDXIdentifier", .str s.spdxId), ("SnippetFromFileSPDXIdentifier", .str s.fromFile),
      ("Ranges", .slice (s.ranges.map rangeVal)), ("SnippetLicenseConcluded", .str s.licenseConcluded),
      ("LicenseInfoInSnippet", strsVal s.licenseInfo), ("SnippetLicenseComments", .str s.licenseComments),
      ("SnippetCopyrightText", .str s.copyrightText), ("SnippetComment", .str s.comment), ("SnippetName", .str s.name),
      ("SnippetAttributionTexts", strsVal s.attributionTexts)]

/-- A Go value for a file of version `v`. -/
def fileVal (v : Version) (f : FileV) : GoVal :=
  pickFields (fileStruct v).names
    [("FileName", .str f.name), ("FileSPDXIdentifier", .str f.spdxId), ("FileTypes", strsVal f.types),
      ("Checksums", .slice (f.checksums.map checksumVal)), ("LicenseConcluded", .str f.licenseConcluded),
      ("LicenseInfoInFiles", strsVal f.licenseInfoInFiles), ("LicenseComments", .str f.licenseComments),
      ("FileCopyrightText", .str f.copyrightText),
      ("ArtifactOfProjects", .slice (f.artifactOfProjects.map fun a => .ptr (artifactVal a))), ("FileComment", .str f.comment),
      ("FileNotice", .str f.notice), ("FileContributors", strsVal f.contributors),
      ("FileAttributionTexts", strsVal f.attributionTexts), ("FileDependencies", strsVal f.dependencies),
      ("Snippets", .map (f.snippets.map fun e => (e.1, .ptr (snippetVal v e.2)))),
      ("Annotations", .slice (f.annotations.map annotationVal))]

/-- A pointer, or nil. -/
def ptrVal {α : Type} (f : α → GoVal) : Option α → GoVal
  | none => .nil
  | some a => .ptr (f a)

/-- A Go value for a package of version `v`. -/
def packageVal (v : Version) (p : PackageV) : GoVal :=
  pickFields (packageStruct v).names
    [("IsUnpackaged", .bool p.isUnpackaged), ("PackageName", .str p.name), ("PackageSPDXIdentifier", .str p.spdxId),
      ("PackageVersion", .str p.version), ("PackageFileName", .str p.fileName),
      ("PackageSupplier", ptrVal supplierVal p.supplier), ("PackageOriginator", ptrVal originatorVal p.originator),
      ("PackageDownloadLocation", .str p.downloadLocation), ("FilesAnalyzed", .bool p.filesAnalyzed),
      ("IsFilesAnalyzedTagPresent", .bool p.filesAnalyzedTagPresent),
      ("PackageVerificationCode",
        if v = .v23 then ptrVal codeVal p.verificationCode else codeVal (p.verificationCode.getD {})),
      ("PackageChecksums", .slice (p.checksums.map checksumVal)), ("PackageHomePage", .str p.homePage),
      ("PackageSourceInfo", .str p.sourceInfo), ("PackageLicenseConcluded", .str p.licenseConcluded),
      ("PackageLicenseInfoFromFiles", strsVal p.licenseInfoFromFiles), ("PackageLicenseDeclared", .str p.licenseDeclared),
      ("PackageLicenseComments", .str p.licenseComments), ("PackageCopyrightText", .str p.copyrightText),
      ("PackageSummary", .str p.summary), ("PackageDescription", .str p.description), ("PackageComment", .str p.comment),
      ("PackageExternalReferences", .slice (p.externalRefs.map fun r => .ptr (externalRefVal r))),
      ("PackageAttributionTexts", strsVal p.attributionTexts), ("PrimaryPackagePurpose", .str p.primaryPurpose),
      ("ReleaseDate", .str p.releaseDate), ("BuiltDate", .str p.builtDate), ("ValidUntilDate", .str p.validUntilDate),
      ("Files", .slice (p.files.map fun f => .ptr (fileVal v f))), ("Annotations", .slice (p.annotations.map annotationVal))]

/-- A Go value for a document of version `v`. -/
def documentVal (v : Version) (d : Doc) : GoVal :=
  .struct [("SPDXVersion", .str d.spdxVersion), ("DataLicense", .str d.dataLicense), ("SPDXIdentifier", .str d.spdxId),
    ("DocumentName", .str d.name), ("DocumentNamespace", .str d.namespace_),
    ("ExternalDocumentReferences", .slice (d.externalDocumentRefs.map externalDocumentRefVal)),
    ("DocumentComment", .str d.comment), ("CreationInfo", ptrVal creationInfoVal d.creationInfo),
    ("Packages", .slice (d.packages.map fun p => .ptr (packageVal v p))),
    ("Files", .slice (d.files.map fun f => .ptr (fileVal v f))),
    ("OtherLicenses", .slice (d.otherLicenses.map fun l => .ptr (otherLicenseVal l))),
    ("Relationships", .slice (d.relationships.map fun r => .ptr (relationshipVal r))),
    ("Annotations", .slice (d.annotations.map fun a => .ptr (annotationVal a))),
    ("Snippets", .slice (d.snippets.map (snippetVal v))), ("Reviews", .slice (d.reviews.map fun r => .ptr (reviewVal r)))]

/-- The value of a field; nil if there is no such field. -/
def GoVal.fld (n : String) : GoVal → GoVal
  | .struct fs => (fs.lookup n).getD .nil
  | _ => .nil

/-- A string value. -/
def GoVal.asStr : GoVal → Str
  | .str s => s
  | _ => []

/-- A boolean value. -/
def GoVal.asBool : GoVal → Bool
  | .bool b => b
  | _ => false

/-- An integer value. -/
def GoVal.asInt : GoVal → Int
  | .int i => i
  | _ => 0

/-- The elements of a slice. -/
def GoVal.asList : GoVal → List GoVal
  | .slice vs => vs
  | _ => []

/-- The entries of a map. -/
def GoVal.asMap : GoVal → List (Str × GoVal)
  | .map es => es
  | _ => []

/-- The elements of a slice of strings. -/
def GoVal.asStrs (v : GoVal) : List Str := v.asList.map GoVal.asStr

/-- What a pointer points to. -/
def GoVal.target : GoVal → Option GoVal
  | .ptr v => some v
  | _ => none

/-- What the elements of a slice of pointers point to; nil pointers have no counterpart in `Doc`. -/
def GoVal.targets (v : GoVal) : List GoVal := v.asList.filterMap GoVal.target

/-- A checksum from its Go value. -/
def checksumOfVal (v : GoVal) : Checksum := { algorithm := (v.fld "Algorithm").asStr, value := (v.fld "Value").asStr }

/-- A reference from its Go value. -/
def docElementOfVal (v : GoVal) : DocElementID :=
  { documentRefID := (v.fld "DocumentRefID").asStr, elementRefID := (v.fld "ElementRefID").asStr,
    specialID := (v.fld "SpecialID").asStr }

/-- A creator from its Go value. -/
def creatorOfVal (v : GoVal) : Creator := { creator := (v.fld "Creator").asStr, creatorType := (v.fld "CreatorType").asStr }

/-- An annotator from its Go value. -/
def annotatorOfVal (v : GoVal) : Annotator :=
  { annotator := (v.fld "Annotator").asStr, annotatorType := (v.fld "AnnotatorType").asStr }

/-- A supplier from its Go value. -/
def supplierOfVal (v : GoVal) : Supplier :=
  { supplier := (v.fld "Supplier").asStr, supplierType := (v.fld "SupplierType").asStr }

/-- An originator from its Go value. -/
def originatorOfVal (v : GoVal) : Originator :=
  { originator := (v.fld "Originator").asStr, originatorType := (v.fld "OriginatorType").asStr }

/-- A verification code from its Go value. -/
def codeOfVal (v : GoVal) : VerificationCode :=
  { value := (v.fld "Value").asStr, excludedFiles := (v.fld "ExcludedFiles").asStrs }

/-- A range pointer from its Go value. -/
def rangePointerOfVal (v : GoVal) : RangePointer :=
  { offset := (v.fld "Offset").asInt, lineNumber := (v.fld "LineNumber").asInt,
    fileSpdxId := (v.fld "FileSPDXIdentifier").asStr }

/-- A range from its Go value. -/
def rangeOfVal (v : GoVal) : SnippetRange :=
  { startPointer := rangePointerOfVal (v.fld "StartPointer"), endPointer := rangePointerOfVal (v.fld "EndPointer") }

/-- An external document reference from its Go value. -/
def externalDocumentRefOfVal (v : GoVal) : ExternalDocumentRef :=
  { documentRefID := (v.fld "DocumentRefID").asStr, uri := (v.fld "URI").asStr, checksum := checksumOfVal (v.fld "Checksum") }

/-- Creation information from its Go value. -/
def creationInfoOfVal (v : GoVal) : CreationInfo :=
  { licenseListVersion := (v.fld "LicenseListVersion").asStr, creators := (v.fld "Creators").asList.map creatorOfVal,
    created := (v.fld "Created").asStr, creatorComment := (v.fld "CreatorComment").asStr }

/-- An external reference from its Go value. -/
def externalRefOfVal (v : GoVal) : PackageExternalRef :=
  { category := (v.fld "Category").asStr, refType := (v.fld "RefType").asStr, locator := (v.fld "Locator").asStr,
    comment := (v.fld "ExternalRefComment").asStr }

/-- An annotation from its Go value. -/
def annotationOfVal (v : GoVal) : Annotation :=
  { annotator := annotatorOfVal (v.fld "Annotator"), date := (v.fld "AnnotationDate").asStr,
    type := (v.fld "AnnotationType").asStr, spdxId := docElementOfVal (v.fld "AnnotationSPDXIdentifier"),
    comment := (v.fld "AnnotationComment").asStr }

/-- A relationship from its Go value. -/
def relationshipOfVal (v : GoVal) : Relationship :=
  { refA := docElementOfVal (v.fld "RefA"), refB := docElementOfVal (v.fld "RefB"), relationship := (v.fld "Relationship").asStr,
    comment := (v.fld "RelationshipComment").asStr }

/-- A review from its Go value. -/
def reviewOfVal (v : GoVal) : Review :=
  { reviewer := (v.fld "Reviewer").asStr, reviewerType := (v.fld "ReviewerType").asStr, date := (v.fld "ReviewDate").asStr,
    comment := (v.fld "ReviewComment").asStr }

/-- An other license from its Go value. -/
def otherLicenseOfVal (v : GoVal) : OtherLicense :=
  { licenseIdentifier := (v.fld "LicenseIdentifier").asStr, extractedText := (v.fld "ExtractedText").asStr,
    licenseName := (v.fld "LicenseName").asStr, crossReferences := (v.fld "LicenseCrossReferences").asStrs,
    comment := (v.fld "LicenseComment").asStr }

/-- An artifact from its Go value. -/
def artifactOfVal (v : GoVal) : ArtifactOfProject :=
  { name := (v.fld "Name").asStr, homePage := (v.fld "HomePage").asStr, uri := (v.fld "URI").asStr }

/-- A snippet from its Go value. -/
def snippetOfVal (v : GoVal) : Snippet :=
  { spdxId := (v.fld "SnippetSPDXIdentifier").asStr, fromFile := (v.fld "SnippetFromFileSPDXIdentifier").asStr,
    ranges := (v.fld "Ranges").asList.map rangeOfVal, licenseConcluded := (v.fld "SnippetLicenseConcluded").asStr,
    licenseInfo := (v.fld "LicenseInfoInSnippet").asStrs, licenseComments := (v.fld "SnippetLicenseComments").asStr,
    copyrightText := (v.fld "SnippetCopyrightText").asStr, comment := (v.fld "SnippetComment").asStr,
    name := (v.fld "SnippetName").asStr, attributionTexts := (v.fld "SnippetAttributionTexts").asStrs }

/-- A file from its Go value. -/
def fileOfVal (v : GoVal) : FileV :=
  { name := (v.fld "FileName").asStr, spdxId := (v.fld "FileSPDXIdentifier").asStr, types := (v.fld "FileTypes").asStrs,
    checksums := (v.fld "Checksums").asList.map checksumOfVal, licenseConcluded := (v.fld "LicenseConcluded").asStr,
    licenseInfoInFiles := (v.fld "LicenseInfoInFiles").asStrs, licenseComments := (v.fld "LicenseComments").asStr,
    copyrightText := (v.fld "FileCopyrightText").asStr,
    artifactOfProjects := (v.fld "ArtifactOfProjects").targets.map artifactOfVal, comment := (v.fld "FileComment").asStr,
    notice := (v.fld "FileNotice").asStr, contributors := (v.fld "FileContributors").asStrs,
    attributionTexts := (v.fld "FileAttributionTexts").asStrs, dependencies := (v.fld "FileDependencies").asStrs,
    snippets := (v.fld "Snippets").asMap.filterMap fun e => e.2.target.map fun s => (e.1, snippetOfVal s),
    annotations := (v.fld "Annotations").asList.map annotationOfVal }

/-- A package of version `v` from its Go value; before 2.3 the empty verification code plays the role of nil. -/
def packageOfVal (v : Version) (x : GoVal) : PackageV :=
  let code := codeOfVal (x.fld "PackageVerificationCode")
  { isUnpackaged := (x.fld "IsUnpackaged").asBool, name := (x.fld "PackageName").asStr,
    spdxId := (x.fld "PackageSPDXIdentifier").asStr, version := (x.fld "PackageVersion").asStr,
    fileName := (x.fld "PackageFileName").asStr, supplier := (x.fld "PackageSupplier").target.map supplierOfVal,
    originator := (x.fld "PackageOriginator").target.map originatorOfVal,
    downloadLocation := (x.fld "PackageDownloadLocation").asStr, filesAnalyzed := (x.fld "FilesAnalyzed").asBool,
    filesAnalyzedTagPresent := (x.fld "IsFilesAnalyzedTagPresent").asBool,
    verificationCode :=
      if v = .v23 then (x.fld "PackageVerificationCode").target.map codeOfVal else if code = {} then none else some code,
    checksums := (x.fld "PackageChecksums").asList.map checksumOfVal, homePage := (x.fld "PackageHomePage").asStr,
    sourceInfo := (x.fld "PackageSourceInfo").asStr, licenseConcluded := (x.fld "PackageLicenseConcluded").asStr,
    licenseInfoFromFiles := (x.fld "PackageLicenseInfoFromFiles").asStrs,
    licenseDeclared := (x.fld "PackageLicenseDeclared").asStr, licenseComments := (x.fld "PackageLicenseComments").asStr,
    copyrightText := (x.fld "PackageCopyrightText").asStr, summary := (x.fld "PackageSummary").asStr,
    description := (x.fld "PackageDescription").asStr, comment := (x.fld "PackageComment").asStr,
    externalRefs := (x.fld "PackageExternalReferences").targets.map externalRefOfVal,
    attributionTexts := (x.fld "PackageAttributionTexts").asStrs, primaryPurpose := (x.fld "PrimaryPackagePurpose").asStr,
    releaseDate := (x.fld "ReleaseDate").asStr, builtDate := (x.fld "BuiltDate").asStr,
    validUntilDate := (x.fld "ValidUntilDate").asStr, files := (x.fld "Files").targets.map fileOfVal,
    annotations := (x.fld "Annotations").asList.map annotationOfVal }

/-- A document of version `v` from its Go value. -/
def documentOfVal (v : Version) (x : GoVal) : Doc :=
  { spdxVersion := (x.fld "SPDXVersion").asStr, dataLicense := (x.fld "DataLicense").asStr,
    spdxId := (x.fld "SPDXIdentifier").asStr, name := (x.fld "DocumentName").asStr,
    namespace_ := (x.fld "DocumentNamespace").asStr,
    externalDocumentRefs := (x.fld "ExternalDocumentReferences").asList.map externalDocumentRefOfVal,
    comment := (x.fld "DocumentComment").asStr, creationInfo := (x.fld "CreationInfo").target.map creationInfoOfVal,
    packages := (x.fld "Packages").targets.map (packageOfVal v), files := (x.fld "Files").targets.map fileOfVal,
    otherLicenses := (x.fld "OtherLicenses").targets.map otherLicenseOfVal,
    relationships := (x.fld "Relationships").targets.map relationshipOfVal,
    annotations := (x.fld "Annotations").targets.map annotationOfVal, snippets := (x.fld "Snippets").asList.map snippetOfVal,
    reviews := (x.fld "Reviews").targets.map reviewOfVal }

/-- One conversion of the chain, before the function that sets the version (convert/chain.go:16-22): the struct of
version `a` is copied to one of version `b`. -/
def structCopy (lib : Copier) (a b : Version) (d : Doc) : Res Doc := do
  let x ← lib.conv (.struct (documentStruct b)) (documentVal a d)
  .ok (documentOfVal b (x.getD (GoTy.struct (documentStruct b)).zero))

/-- One step of the chain: the copy, then `From_v2_1`, `To_v2_1`, `From_v2_2` or `To_v2_2`, which set the version
(spdx/v2/v2_2/document.go:76-82, spdx/v2/v2_3/document.go:75-81). -/
def convertStep (lib : Copier) (a b : Version) (d : Doc) : Res Doc := do
  let d' ← structCopy lib a b d
  .ok { d' with spdxVersion := versionName b }

/-- `convert.Document` (convert/chain.go:30-40) with that copying: the chain goes from version to version
(convert/chain.go:16-22). -/
def convertWith (lib : Copier) (isPtr : Bool) (a b : Version) (d : Doc) : Res Doc :=
  if !isPtr then .err
  else match a, b with
    | .v21, .v21 | .v22, .v22 | .v23, .v23 => .ok d
    | .v21, .v22 => convertStep lib .v21 .v22 d
    | .v21, .v23 => do convertStep lib .v22 .v23 (← convertStep lib .v21 .v22 d)
    | .v22, .v23 => convertStep lib .v22 .v23 d
    | .v22, .v21 => convertStep lib .v22 .v21 d
    | .v23, .v22 => convertStep lib .v23 .v22 d
    | .v23, .v21 => do convertStep lib .v22 .v21 (← convertStep lib .v23 .v22 d)

/-- The copy as a total function, as `convertDocument` (Model/JsonDoc) takes it; that there is no error is a
theorem. -/
def structCopied (lib : Copier) (a b : Version) (d : Doc) : Doc :=
  match structCopy lib a b d with
  | .ok d' => d'
  | _ => {}

end Verif
