import Verif.Model.Json

/-!
# Documents in JSON

The `json` tags and the custom marshallers and unmarshallers of `spdx/v2/v2_1`, `v2_2`, `v2_3` and
`spdx/v2/common`, `json/reader.go`, `json/writer.go`.  Fields tagged `json:"-"` are not listed.
YAML (`yaml/reader.go`, `yaml/writer.go`) goes through the same encoders and decoders, see `Verif.Model.Yaml`.
-/

namespace Verif

section
variable {σ : Type}

/-- A string field. -/
def strF (key : Str) (get : σ → Str) (set : Str → σ → σ) : Field σ :=
  { β := Str, key, get, set, isEmpty := fun _ => false, codec := strCodec }
/-- A string field with `omitempty`. -/
def strOptF (key : Str) (get : σ → Str) (set : Str → σ → σ) : Field σ :=
  { β := Str, key, get, set, isEmpty := fun s => s.isEmpty, codec := strCodec }
/-- Any field without `omitempty`. -/
def codecF {β : Type} (c : Codec β) (key : Str) (get : σ → β) (set : β → σ → σ) : Field σ :=
  { β, key, get, set, isEmpty := fun _ => false, codec := c }
/-- A slice field with `omitempty`. -/
def listOptF {β : Type} (c : Codec (List β)) (key : Str) (get : σ → List β) (set : List β → σ → σ) : Field σ :=
  { β := List β, key, get, set, isEmpty := fun l => l.isEmpty, codec := c }
/-- A pointer field with `omitempty`. -/
def ptrOptF {β : Type} (c : Codec (Option β)) (key : Str) (get : σ → Option β) (set : Option β → σ → σ) : Field σ :=
  { β := Option β, key, get, set, isEmpty := fun o => o.isNone, codec := c }
/-- An int field with `omitempty`. -/
def intOptF (key : Str) (get : σ → Int) (set : Int → σ → σ) : Field σ :=
  { β := Int, key, get, set, isEmpty := fun n => n == 0, codec := intCodec }
/-- A field only some versions have. -/
def only (b : Bool) (f : Field σ) : List (Field σ) := if b then [f] else []
end

/-- A slice of strings. -/
def strsCodec : Codec (List Str) := listCodec [] strCodec

/-- `common.ElementID` (spdx/v2/common/identifier.go:64-83). -/
def elementIdCodec : Codec Str := textCodec (fun id => .ok (elementIdToJson id)) fun _ data => elementIdOfJson data
/-- `common.DocumentID` (spdx/v2/common/identifier.go:20-39). -/
def documentIdCodec : Codec Str := textCodec (fun id => .ok (documentIdToJson id)) fun _ data => documentIdOfJson data
/-- `common.DocElementID` (spdx/v2/common/identifier.go:118-177). -/
def docElementIdCodec : Codec DocElementID := textCodec docElementIdToJson docElementIdOfJson
/-- `common.Creator` (spdx/v2/common/creation_info.go:14-45). -/
def creatorCodec : Codec Creator := textCodec (fun c => .ok (creatorToJson c)) fun _ data => creatorOfJson data
/-- `common.Annotator` (spdx/v2/common/annotation.go:12-45). -/
def annotatorCodec : Codec Annotator := textCodec (fun c => .ok (annotatorToJson c)) fun _ data => annotatorOfJson data
/-- `common.Supplier` (spdx/v2/common/package.go:12-53). -/
def supplierCodec : Codec Supplier := textCodec supplierToJson supplierOfJson
/-- `common.Originator` (spdx/v2/common/package.go:55-94). -/
def originatorCodec : Codec Originator := textCodec originatorToJson originatorOfJson

/-- `common.Checksum` (spdx/v2/common/checksum.go:31-34). -/
def checksumFields : List (Field Checksum) :=
  [strF g!"algorithm" (·.algorithm) (fun b s => { s with algorithm := b }),
   strF g!"checksumValue" (·.value) (fun b s => { s with value := b })]

/-- A checksum. -/
def checksumCodec : Codec Checksum := structCodec checksumFields

/-- `common.PackageVerificationCode` (spdx/v2/common/package.go:96-104). -/
def codeFields : List (Field VerificationCode) :=
  [strF g!"packageVerificationCodeValue" (·.value) (fun b s => { s with value := b }),
   listOptF strsCodec g!"packageVerificationCodeExcludedFiles" (·.excludedFiles) (fun b s => { s with excludedFiles := b })]

/-- A verification code. -/
def codeCodec : Codec VerificationCode := structCodec codeFields

/-- `common.SnippetRangePointer` (spdx/v2/common/snippet.go:5-15). -/
def pointerFields : List (Field RangePointer) :=
  [intOptF g!"offset" (·.offset) (fun b s => { s with offset := b }),
   intOptF g!"lineNumber" (·.lineNumber) (fun b s => { s with lineNumber := b }),
   codecF elementIdCodec g!"reference" (·.fileSpdxId) (fun b s => { s with fileSpdxId := b })]

/-- A range pointer. -/
def pointerCodec : Codec RangePointer := structCodec pointerFields

/-- `common.SnippetRange` (spdx/v2/common/snippet.go:17-20). -/
def rangeFields : List (Field SnippetRange) :=
  [codecF pointerCodec g!"startPointer" (·.startPointer) (fun b s => { s with startPointer := b }),
   codecF pointerCodec g!"endPointer" (·.endPointer) (fun b s => { s with endPointer := b })]

/-- A range. -/
def rangeCodec : Codec SnippetRange := structCodec rangeFields

/-- `ExternalDocumentRef` (spdx/v2/v2_3/document.go:18-29; same in v2_2, v2_1). -/
def externalDocFields : List (Field ExternalDocumentRef) :=
  [codecF documentIdCodec g!"externalDocumentId" (·.documentRefID) (fun b s => { s with documentRefID := b }),
   strF g!"spdxDocument" (·.uri) (fun b s => { s with uri := b }),
   codecF checksumCodec g!"checksum" (·.checksum) (fun b s => { s with checksum := b })]

/-- A reference to another document. -/
def externalDocCodec : Codec ExternalDocumentRef := structCodec externalDocFields

/-- `CreationInfo` (spdx/v2/v2_3/creation_info.go:10-27; same in v2_2, v2_1). -/
def creationInfoFields : List (Field CreationInfo) :=
  [strOptF g!"licenseListVersion" (·.licenseListVersion) (fun b s => { s with licenseListVersion := b }),
   codecF (listCodec {} creatorCodec) g!"creators" (·.creators) (fun b s => { s with creators := b }),
   strF g!"created" (·.created) (fun b s => { s with created := b }),
   strOptF g!"comment" (·.creatorComment) (fun b s => { s with creatorComment := b })]

/-- Creation information. -/
def creationInfoCodec : Codec CreationInfo := structCodec creationInfoFields

/-- `Annotation` (spdx/v2/v2_3/annotation.go:10-31; same in v2_2, v2_1). -/
def annotationFields : List (Field Annotation) :=
  [codecF annotatorCodec g!"annotator" (·.annotator) (fun b s => { s with annotator := b }),
   strF g!"annotationDate" (·.date) (fun b s => { s with date := b }),
   strF g!"annotationType" (·.type) (fun b s => { s with type := b }),
   strF g!"comment" (·.comment) (fun b s => { s with comment := b })]

/-- An annotation. -/
def annotationCodec : Codec Annotation := structCodec annotationFields

/-- `Relationship` (spdx/v2/v2_3/relationship.go:10-24; same in v2_2, v2_1). -/
def relationshipFields : List (Field Relationship) :=
  [codecF docElementIdCodec g!"spdxElementId" (·.refA) (fun b s => { s with refA := b }),
   codecF docElementIdCodec g!"relatedSpdxElement" (·.refB) (fun b s => { s with refB := b }),
   strF g!"relationshipType" (·.relationship) (fun b s => { s with relationship := b }),
   strOptF g!"comment" (·.comment) (fun b s => { s with comment := b })]

/-- A relationship. -/
def relationshipCodec : Codec Relationship := structCodec relationshipFields

/-- `OtherLicense` (spdx/v2/v2_3/other_license.go:6-30; same in v2_2, v2_1). -/
def otherLicenseFields : List (Field OtherLicense) :=
  [strF g!"licenseId" (·.licenseIdentifier) (fun b s => { s with licenseIdentifier := b }),
   strF g!"extractedText" (·.extractedText) (fun b s => { s with extractedText := b }),
   strOptF g!"name" (·.licenseName) (fun b s => { s with licenseName := b }),
   listOptF strsCodec g!"seeAlsos" (·.crossReferences) (fun b s => { s with crossReferences := b }),
   strOptF g!"comment" (·.comment) (fun b s => { s with comment := b })]

/-- Another license. -/
def otherLicenseCodec : Codec OtherLicense := structCodec otherLicenseFields

/-- `ArtifactOfProject` (spdx/v2/v2_3/file.go:82-98). -/
def artifactFields : List (Field ArtifactOfProject) :=
  [strF g!"name" (·.name) (fun b s => { s with name := b }),
   strF g!"homePage" (·.homePage) (fun b s => { s with homePage := b }),
   strF g!"URI" (·.uri) (fun b s => { s with uri := b })]

/-- An artifact of a project. -/
def artifactCodec : Codec ArtifactOfProject := structCodec artifactFields

/-- A string field that has `omitempty` in version 2.3 only. -/
def strOpt23F {σ : Type} (v : Version) (key : Str) (get : σ → Str) (set : Str → σ → σ) : Field σ :=
  { β := Str, key, get, set, isEmpty := fun s => v = .v23 && s.isEmpty, codec := strCodec }

/-- `Snippet` (spdx/v2/v2_3/snippet.go:10-50, v2_2/snippet.go:10-50, v2_1/snippet.go:10-46). -/
def snippetFields (v : Version) : List (Field Snippet) :=
  [codecF elementIdCodec g!"SPDXID" (·.spdxId) (fun b s => { s with spdxId := b }),
   codecF elementIdCodec g!"snippetFromFile" (·.fromFile) (fun b s => { s with fromFile := b }),
   codecF (listCodec {} rangeCodec) g!"ranges" (·.ranges) (fun b s => { s with ranges := b }),
   strOpt23F v g!"licenseConcluded" (·.licenseConcluded) (fun b s => { s with licenseConcluded := b }),
   listOptF strsCodec g!"licenseInfoInSnippets" (·.licenseInfo) (fun b s => { s with licenseInfo := b }),
   strOptF g!"licenseComments" (·.licenseComments) (fun b s => { s with licenseComments := b }),
   strF g!"copyrightText" (·.copyrightText) (fun b s => { s with copyrightText := b }),
   strOptF g!"comment" (·.comment) (fun b s => { s with comment := b }),
   strOptF g!"name" (·.name) (fun b s => { s with name := b })]

/-- A snippet. -/
def snippetCodec (v : Version) : Codec Snippet := structCodec (snippetFields v)

/-- A slice of strings that has `omitempty` in the given versions only. -/
def strsOptF {σ : Type} (b : Bool) (key : Str) (get : σ → List Str) (set : List Str → σ → σ) : Field σ :=
  { β := List Str, key, get, set, isEmpty := fun l => b && l.isEmpty, codec := strsCodec }

/-- `File` (spdx/v2/v2_3/file.go:10-76, v2_2/file.go:10-76, v2_1/file.go:10-72). -/
def fileFields (v : Version) : List (Field FileV) :=
  [strF g!"fileName" (·.name) (fun b s => { s with name := b }),
   codecF elementIdCodec g!"SPDXID" (·.spdxId) (fun b s => { s with spdxId := b }),
   listOptF strsCodec g!"fileTypes" (·.types) (fun b s => { s with types := b }),
   codecF (listCodec {} checksumCodec) g!"checksums" (·.checksums) (fun b s => { s with checksums := b }),
   strOpt23F v g!"licenseConcluded" (·.licenseConcluded) (fun b s => { s with licenseConcluded := b }),
   strsOptF (v = .v23) g!"licenseInfoInFiles" (·.licenseInfoInFiles) (fun b s => { s with licenseInfoInFiles := b }),
   strOptF g!"licenseComments" (·.licenseComments) (fun b s => { s with licenseComments := b }),
   strF g!"copyrightText" (·.copyrightText) (fun b s => { s with copyrightText := b })] ++
  only (v = .v23) (listOptF (ptrListCodec {} artifactCodec) g!"artifactOfs" (·.artifactOfProjects) (fun b s => { s with artifactOfProjects := b })) ++
  [strOptF g!"comment" (·.comment) (fun b s => { s with comment := b }),
   strOptF g!"noticeText" (·.notice) (fun b s => { s with notice := b }),
   listOptF strsCodec g!"fileContributors" (·.contributors) (fun b s => { s with contributors := b })] ++
  only (v ≠ .v21) (listOptF strsCodec g!"attributionTexts" (·.attributionTexts) (fun b s => { s with attributionTexts := b })) ++
  only (v = .v23) (listOptF strsCodec g!"fileDependencies" (·.dependencies) (fun b s => { s with dependencies := b })) ++
  [listOptF (listCodec {} annotationCodec) g!"annotations" (·.annotations) (fun b s => { s with annotations := b })]

/-- A file. -/
def fileCodec (v : Version) : Codec FileV := structCodec (fileFields v)

/-- `PackageExternalReference` (spdx/v2/v2_3/package.go:179-194; same in v2_2, v2_1). -/
def externalRefFields : List (Field PackageExternalRef) :=
  [strF g!"referenceCategory" (·.category) (fun b s => { s with category := b }),
   strF g!"referenceType" (·.refType) (fun b s => { s with refType := b }),
   strF g!"referenceLocator" (·.locator) (fun b s => { s with locator := b }),
   strOptF g!"comment" (·.comment) (fun b s => { s with comment := b })]

/-- `PackageExternalReference` with its `MarshalJSON` and `UnmarshalJSON` (spdx/v2/v2_3/package.go:198-222,
v2_2/package.go:206-231); 2.1 has none. -/
def externalRefCodec (v : Version) : Codec PackageExternalRef where
  enc r := (structCodec externalRefFields).enc <| match v with
    | .v21 => r
    | .v22 => { r with category := replaceChar '-' '_' r.category }
    | .v23 => { r with category := replaceChar '_' '-' r.category }
  dec j r0 := match v with
    | .v21 => (structCodec externalRefFields).dec j r0
    | .v22 | .v23 => do
      let r ← (structCodec externalRefFields).dec j {}
      .ok { r with category := replaceChar '_' '-' r.category }

/-- The verification code of 2.1 and 2.2 packages is a value, not a pointer; its zero value is `none`. -/
def codeValue (o : Option VerificationCode) : VerificationCode := o.getD {}
/-- The inverse. -/
def codeOption (c : VerificationCode) : Option VerificationCode := if c = {} then none else some c

/-- The key of the verification code. -/
def codeKey : Str := g!"packageVerificationCode"

/-- The field of the verification code (spdx/v2/v2_3/package.go:58, v2_2/package.go:57, v2_1/package.go:48).
`omitempty` has no effect on a struct. -/
def codeField (v : Version) : Field PackageV :=
  match v with
  | .v23 => ptrOptF (ptrCodec {} codeCodec) codeKey (·.verificationCode) (fun b s => { s with verificationCode := b })
  | _ => codecF codeCodec codeKey (fun s => codeValue s.verificationCode) (fun b s => { s with verificationCode := codeOption b })

/-- The fields before the verification code. -/
def packageFieldsA (v : Version) : List (Field PackageV) :=
  [strF g!"name" (·.name) (fun b s => { s with name := b }),
   codecF elementIdCodec g!"SPDXID" (·.spdxId) (fun b s => { s with spdxId := b }),
   strOptF g!"versionInfo" (·.version) (fun b s => { s with version := b }),
   strOptF g!"packageFileName" (·.fileName) (fun b s => { s with fileName := b }),
   ptrOptF (ptrCodec {} supplierCodec) g!"supplier" (·.supplier) (fun b s => { s with supplier := b }),
   ptrOptF (ptrCodec {} originatorCodec) g!"originator" (·.originator) (fun b s => { s with originator := b }),
   strF g!"downloadLocation" (·.downloadLocation) (fun b s => { s with downloadLocation := b }),
   { β := Bool, key := g!"filesAnalyzed", get := (·.filesAnalyzed), set := fun b s => { s with filesAnalyzed := b },
     isEmpty := fun b => v = .v21 && !b, codec := boolCodec }]

/-- The fields after the verification code. -/
def packageFieldsB (v : Version) : List (Field PackageV) :=
  [listOptF (listCodec {} checksumCodec) g!"checksums" (·.checksums) (fun b s => { s with checksums := b }),
   strOptF g!"homepage" (·.homePage) (fun b s => { s with homePage := b }),
   strOptF g!"sourceInfo" (·.sourceInfo) (fun b s => { s with sourceInfo := b }),
   strOpt23F v g!"licenseConcluded" (·.licenseConcluded) (fun b s => { s with licenseConcluded := b }),
   strsOptF (v ≠ .v21) g!"licenseInfoFromFiles" (·.licenseInfoFromFiles) (fun b s => { s with licenseInfoFromFiles := b }),
   strOpt23F v g!"licenseDeclared" (·.licenseDeclared) (fun b s => { s with licenseDeclared := b }),
   strOptF g!"licenseComments" (·.licenseComments) (fun b s => { s with licenseComments := b }),
   strOpt23F v g!"copyrightText" (·.copyrightText) (fun b s => { s with copyrightText := b }),
   strOptF g!"summary" (·.summary) (fun b s => { s with summary := b }),
   strOptF g!"description" (·.description) (fun b s => { s with description := b }),
   strOptF g!"comment" (·.comment) (fun b s => { s with comment := b }),
   listOptF (ptrListCodec {} (externalRefCodec v)) g!"externalRefs" (·.externalRefs) (fun b s => { s with externalRefs := b })] ++
  only (v ≠ .v21) (listOptF strsCodec g!"attributionTexts" (·.attributionTexts) (fun b s => { s with attributionTexts := b })) ++
  only (v = .v23) (strOptF g!"primaryPackagePurpose" (·.primaryPurpose) (fun b s => { s with primaryPurpose := b })) ++
  only (v = .v23) (strOptF g!"releaseDate" (·.releaseDate) (fun b s => { s with releaseDate := b })) ++
  only (v = .v23) (strOptF g!"builtDate" (·.builtDate) (fun b s => { s with builtDate := b })) ++
  only (v = .v23) (strOptF g!"validUntilDate" (·.validUntilDate) (fun b s => { s with validUntilDate := b })) ++
  [listOptF (ptrListCodec {} (fileCodec v)) g!"files" (·.files) (fun b s => { s with files := b }),
   listOptF (listCodec {} annotationCodec) g!"annotations" (·.annotations) (fun b s => { s with annotations := b })]

/-- `Package` (spdx/v2/v2_3/package.go:14-142, v2_2/package.go:14-124, v2_1/package.go:10-103). -/
def packageFields (v : Version) : List (Field PackageV) := packageFieldsA v ++ codeField v :: packageFieldsB v

/-- The extra fields `Package.UnmarshalJSON` looks for (spdx/v2/v2_3/package.go:146-149). -/
structure PackageExtras where
  hasFiles : List DocElementID := []
  filesAnalyzed : Option Bool := none

/-- Their keys. -/
def packageExtrasFields : List (Field PackageExtras) :=
  [codecF (listCodec {} docElementIdCodec) g!"hasFiles" (·.hasFiles) (fun b s => { s with hasFiles := b }),
   codecF (ptrCodec false boolCodec) g!"filesAnalyzed" (·.filesAnalyzed) (fun b s => { s with filesAnalyzed := b })]

/-- `Package.UnmarshalJSON` (spdx/v2/v2_3/package.go:144-173, v2_2/package.go:152-180); 2.1 has none.  The
second component is the unexported field `hasFiles`. -/
def decodePackage (v : Version) (j : Json) (p0 : PackageV × List DocElementID) : Res (PackageV × List DocElementID) :=
  match v with
  | .v21 => do
    let p ← (structCodec (packageFields v)).dec j p0.1
    .ok (p, [])
  | .v22 | .v23 => do
    let p ← (structCodec (packageFields v)).dec j {}
    let e ← (structCodec packageExtrasFields).dec j {}
    let p := match e.filesAnalyzed with
      | none => { p with filesAnalyzed := true }
      | some _ => { p with filesAnalyzedTagPresent := true }
    .ok (p, e.hasFiles)

/-- `Package.MarshalJSON` of 2.2 (spdx/v2/v2_2/package.go:126-150): a package without verification code is
decoded into a map and encoded again without its key.  2.1 and 2.3 have no such method.  Simplified: the code tests
the list of excluded files for nil; Model/EmptyLists.lean has empty lists that are not nil. -/
def encodePackage (so : Sorter) (v : Version) (p : PackageV × List DocElementID) : Res Json :=
  match v with
  | .v22 => do
    let es ← encodeFields p.1 (packageFields v)
    if codeValue p.1.verificationCode = {} then
      .ok (Json.sortKeys so (.obj (es.filter fun e => e.1 ≠ codeKey)))
    else .ok (.obj es)
  | _ => (structCodec (packageFields v)).enc p.1

/-- A package. -/
def packageCodec (so : Sorter) (v : Version) : Codec (PackageV × List DocElementID) where
  enc := encodePackage so v
  dec := decodePackage v

/-- The Go document with what the model's `Doc` lacks: null packages and relationships, and the files of
packages. -/
structure RawDoc where
  doc : Doc := {}
  packages : List (Option (PackageV × List DocElementID)) := []
  relationships : List (Option Relationship) := []

/-- `Document` (spdx/v2/v2_3/document.go:33-73, v2_2/document.go:34-74, v2_1/document.go:30-70). -/
def docFields (so : Sorter) (v : Version) : List (Field RawDoc) :=
  [strF g!"spdxVersion" (·.doc.spdxVersion) (fun b s => { s with doc := { s.doc with spdxVersion := b } }),
   strF g!"dataLicense" (·.doc.dataLicense) (fun b s => { s with doc := { s.doc with dataLicense := b } }),
   codecF elementIdCodec g!"SPDXID" (·.doc.spdxId) (fun b s => { s with doc := { s.doc with spdxId := b } }),
   strF g!"name" (·.doc.name) (fun b s => { s with doc := { s.doc with name := b } }),
   strF g!"documentNamespace" (·.doc.namespace_) (fun b s => { s with doc := { s.doc with namespace_ := b } }),
   listOptF (listCodec {} externalDocCodec) g!"externalDocumentRefs" (·.doc.externalDocumentRefs) (fun b s => { s with doc := { s.doc with externalDocumentRefs := b } }),
   strOptF g!"comment" (·.doc.comment) (fun b s => { s with doc := { s.doc with comment := b } }),
   codecF (ptrCodec {} creationInfoCodec) g!"creationInfo" (·.doc.creationInfo) (fun b s => { s with doc := { s.doc with creationInfo := b } }),
   listOptF (listCodec none (ptrCodec ({}, []) (packageCodec so v))) g!"packages" (·.packages) (fun b s => { s with packages := b }),
   listOptF (ptrListCodec {} (fileCodec v)) g!"files" (·.doc.files) (fun b s => { s with doc := { s.doc with files := b } }),
   listOptF (ptrListCodec {} otherLicenseCodec) g!"hasExtractedLicensingInfos" (·.doc.otherLicenses) (fun b s => { s with doc := { s.doc with otherLicenses := b } }),
   listOptF (listCodec none (ptrCodec {} relationshipCodec)) g!"relationships" (·.relationships) (fun b s => { s with relationships := b }),
   listOptF (ptrListCodec {} annotationCodec) g!"annotations" (·.doc.annotations) (fun b s => { s with doc := { s.doc with annotations := b } }),
   listOptF (listCodec {} (snippetCodec v)) g!"snippets" (·.doc.snippets) (fun b s => { s with doc := { s.doc with snippets := b } })]

/-- The extra field `Document.UnmarshalJSON` looks for (spdx/v2/v2_3/document.go:85-87). -/
def docExtrasFields : List (Field (List DocElementID)) :=
  [codecF (listCodec {} docElementIdCodec) g!"documentDescribes" (fun s => s) (fun b _ => b)]

/-- `serializeRel` (spdx/v2/v2_3/document.go:102-120). -/
def serializeRel (r : Relationship) : Str :=
  let (refA, rel, refB) :=
    if r.relationship = g!"CONTAINED_BY" then (r.refB, g!"CONTAINS", r.refA)
    else if r.relationship = g!"DESCRIBED_BY" then (r.refB, g!"DESCRIBES", r.refA)
    else (r.refA, r.relationship, r.refB)
  renderDocElementID refA ++ g!"-" ++ rel ++ g!"->" ++ renderDocElementID refB

/-- Adds relationships unless there is one with the same text (spdx/v2/v2_3/document.go:136-149 and
157-169).  `index` is the set of texts of relationships that exist. -/
def addRels : List Str → List Relationship → List Relationship → List Str × List Relationship
  | index, rels, [] => (index, rels)
  | index, rels, r :: rs =>
    if index.contains (serializeRel r) then addRels index rels rs
    else addRels (serializeRel r :: index) (rels ++ [r]) rs

/-- The relationships from `documentDescribes` (spdx/v2/v2_3/document.go:136-143). -/
def describesRels (spdxId : Str) (ids : List DocElementID) : List Relationship :=
  ids.map fun i => { refA := { elementRefID := spdxId }, refB := i, relationship := g!"DESCRIBES" }

/-- The relationships from the `hasFiles` of packages that are not null
(spdx/v2/v2_3/document.go:153-164). -/
def hasFilesRels : List (Option (PackageV × List DocElementID)) → List Relationship
  | [] => []
  | none :: ps => hasFilesRels ps
  | some (p, files) :: ps =>
    files.map (fun f => { refA := { elementRefID := p.spdxId }, refB := f, relationship := g!"CONTAINS" }) ++ hasFilesRels ps

/-- The relationships of a loaded document (spdx/v2/v2_3/document.go:122-172). -/
def loadRelationships (spdxId : Str) (relationships : List (Option Relationship)) (describes : List DocElementID)
    (packages : List (Option (PackageV × List DocElementID))) : List Relationship :=
  let rels := relationships.filterMap id
  let (index, rels) := addRels (rels.map serializeRel) rels (describesRels spdxId describes)
  (addRels index rels (hasFilesRels packages)).2

/-- All values, if none is missing. -/
def allSome {α : Type} : List (Option α) → Option (List α)
  | [] => some []
  | none :: _ => none
  | some a :: l => (allSome l).map (a :: ·)

/-- `Document.UnmarshalJSON` (spdx/v2/v2_3/document.go:83-175, v2_2/document.go:84-175); 2.1 has none.
Simplification: the Go document keeps null packages (and, in 2.1, null relationships), the model rejects
them at the end. -/
def decodeDoc (so : Sorter) (v : Version) (j : Json) : Res Doc :=
  match v with
  | .v21 => do
    let d ← (structCodec (docFields so v)).dec j {}
    let ps ← Res.ofOption (allSome d.packages)
    let rs ← Res.ofOption (allSome d.relationships)
    .ok { d.doc with packages := ps.map (·.1), relationships := rs }
  | .v22 | .v23 => do
    let d ← (structCodec (docFields so v)).dec j {}
    let describes ← (structCodec docExtrasFields).dec j []
    let rels := loadRelationships d.doc.spdxId d.relationships describes d.packages
    let ps ← Res.ofOption (allSome d.packages)
    .ok { d.doc with packages := ps.map (·.1), relationships := rels }

/-- `Write` (json/writer.go:27-33) on a document of version `v`; `html` is the encoder's `EscapeHTML` option,
by default true. -/
def writeJson (so : Sorter) (v : Version) (html : Bool) (d : Doc) : Res Json := do
  let j ← (structCodec (docFields so v)).enc
    { doc := d, packages := d.packages.map fun p => some (p, []), relationships := d.relationships.map some }
  .ok (if html then j.escapeHtml else j)

/-- The name of a version (spdx/v2/v2_3/document.go:14, v2_2/document.go:14, v2_1/document.go:10). -/
def versionName : Version → Str
  | .v21 => g!"SPDX-2.1"
  | .v22 => g!"SPDX-2.2"
  | .v23 => g!"SPDX-2.3"

/-- The version with that name, as in the switches of `ReadInto` (json/reader.go:56-80,
tagvalue/reader.go:46-68). -/
def versionNamed (s : Str) : Option Version :=
  if s = g!"SPDX-2.1" then some .v21
  else if s = g!"SPDX-2.2" then some .v22
  else if s = g!"SPDX-2.3" then some .v23
  else none

/-- The value of a key of an object decoded into a map: the last one counts. -/
def lastEntry (key : Str) : List (Str × Json) → Option Json
  | [] => none
  | (k, j) :: es => match lastEntry key es with
    | some j' => some j'
    | none => if k = key then some j else none

/-- The version conversions between `a` and `b` (convert/chain.go:16-22).  `copy a b` is what the library
`go-struct-converter` does between documents of adjacent versions, left open. -/
def convertSteps (copy : Version → Version → Doc → Doc) (a b : Version) (d : Doc) : Doc :=
  let step (a b : Version) (d : Doc) : Doc := { copy a b d with spdxVersion := versionName b }
  match a, b with
  | .v21, .v21 | .v22, .v22 | .v23, .v23 => d
  | .v21, .v22 => step .v21 .v22 d
  | .v21, .v23 => step .v22 .v23 (step .v21 .v22 d)
  | .v22, .v23 => step .v22 .v23 d
  | .v22, .v21 => step .v22 .v21 d
  | .v23, .v22 => step .v23 .v22 d
  | .v23, .v21 => step .v22 .v21 (step .v23 .v22 d)

/-- `convert.Document` (convert/chain.go:30-40) from version `a` into a variable of version `b`; `isPtr` says
whether the variable is given by pointer. -/
def convertDocument (copy : Version → Version → Doc → Doc) (isPtr : Bool) (a b : Version) (d : Doc) : Res Doc :=
  if !isPtr then .err else .ok (convertSteps copy a b d)

/-- `ReadInto` (json/reader.go:29-83) on the parsed text, into a variable of version `target`. -/
def readJsonInto (so : Sorter) (copy : Version → Version → Doc → Doc) (isPtr : Bool) (target : Version) (j : Json) : Res Doc :=
  if !isPtr then .err
  else match j with
    | .obj es =>
      match lastEntry g!"spdxVersion" es with
      | some (.str raw) =>
        match (unescape raw).bind versionNamed with
        | some v => do
          let d ← decodeDoc so v j
          convertDocument copy isPtr v target d
        | none => .err
      | _ => .err
    | _ => .err

end Verif
