import Verif.Model.EmptyLists
import Verif.Model.JsonText

/-!
# Reading JSON into memory that is used again

When a key of an object occurs twice, `encoding/json` decodes both values into the same variable.  For a slice this means
that the elements of the later array are decoded into the elements that the earlier one has left (`array` of
encoding/json/decode.go): `listCodec` starts from zero values instead.  Here are the decoders of Model/JsonDoc.lean once
more, with slices that are used again.
-/

namespace Verif

/-- What an element of a slice holds before something is decoded into it, given the zero value, the slice and the
position.  A slice that is nil or empty is allocated anew and has zero values; within the length of the slice the old
elements are found; beyond, where an earlier and longer array may have been, anything may be. -/
structure Reuse where
  get : {β : Type} → β → List β → Nat → β
  fresh : ∀ {β : Type} (zero : β) (i : Nat), get zero [] i = zero
  old : ∀ {β : Type} (zero : β) (l : List β) (i : Nat) (h : i < l.length), get zero l i = l[i]

/-- A Go slice that is used again (`array` of encoding/json/decode.go). -/
def reuseCodec {β : Type} (r : Reuse) (zero : β) (c : Codec β) : Codec (List β) where
  enc := (listCodec zero c).enc
  dec
    | .arr l, old => mapResAt (fun i j => c.dec j (r.get zero old i)) 0 l
    | .null, _ => .ok []
    | _, _ => .err

/-- A Go slice of pointers that is used again: what a pointer points to is overwritten.  Simplification as in
`ptrListCodec`. -/
def reusePtrCodec {β : Type} (r : Reuse) (zero : β) (c : Codec β) : Codec (List β) :=
  reuseCodec r zero { enc := c.enc, dec := fun j s => match j with | .null => .err | j => c.dec j s }

section
variable (r : Reuse)

/-- A slice of strings. -/
def strsCodecR : Codec (List Str) := reuseCodec r [] strCodec

/-- `common.PackageVerificationCode` (spdx/v2/common/package.go:96-104). -/
def codeFieldsR : List (Field VerificationCode) :=
  [strF g!"packageVerificationCodeValue" (·.value) (fun b s => { s with value := b }),
   listOptF (strsCodecR r) g!"packageVerificationCodeExcludedFiles" (·.excludedFiles) (fun b s => { s with excludedFiles := b })]

/-- A verification code. -/
def codeCodecR : Codec VerificationCode := structCodec (codeFieldsR r)

/-- `CreationInfo` (spdx/v2/v2_3/creation_info.go:10-27; same in v2_2, v2_1). -/
def creationInfoFieldsR : List (Field CreationInfo) :=
  [strOptF g!"licenseListVersion" (·.licenseListVersion) (fun b s => { s with licenseListVersion := b }),
   codecF (reuseCodec r {} creatorCodec) g!"creators" (·.creators) (fun b s => { s with creators := b }),
   strF g!"created" (·.created) (fun b s => { s with created := b }),
   strOptF g!"comment" (·.creatorComment) (fun b s => { s with creatorComment := b })]

/-- Creation information. -/
def creationInfoCodecR : Codec CreationInfo := structCodec (creationInfoFieldsR r)

/-- `OtherLicense` (spdx/v2/v2_3/other_license.go:6-30; same in v2_2, v2_1). -/
def otherLicenseFieldsR : List (Field OtherLicense) :=
  [strF g!"licenseId" (·.licenseIdentifier) (fun b s => { s with licenseIdentifier := b }),
   strF g!"extractedText" (·.extractedText) (fun b s => { s with extractedText := b }),
   strOptF g!"name" (·.licenseName) (fun b s => { s with licenseName := b }),
   listOptF (strsCodecR r) g!"seeAlsos" (·.crossReferences) (fun b s => { s with crossReferences := b }),
   strOptF g!"comment" (·.comment) (fun b s => { s with comment := b })]

/-- Another license. -/
def otherLicenseCodecR : Codec OtherLicense := structCodec (otherLicenseFieldsR r)

/-- `Snippet` (spdx/v2/v2_3/snippet.go:10-50, v2_2/snippet.go:10-50, v2_1/snippet.go:10-46). -/
def snippetFieldsR (v : Version) : List (Field Snippet) :=
  [codecF elementIdCodec g!"SPDXID" (·.spdxId) (fun b s => { s with spdxId := b }),
   codecF elementIdCodec g!"snippetFromFile" (·.fromFile) (fun b s => { s with fromFile := b }),
   codecF (reuseCodec r {} rangeCodec) g!"ranges" (·.ranges) (fun b s => { s with ranges := b }),
   strOpt23F v g!"licenseConcluded" (·.licenseConcluded) (fun b s => { s with licenseConcluded := b }),
   listOptF (strsCodecR r) g!"licenseInfoInSnippets" (·.licenseInfo) (fun b s => { s with licenseInfo := b }),
   strOptF g!"licenseComments" (·.licenseComments) (fun b s => { s with licenseComments := b }),
   strF g!"copyrightText" (·.copyrightText) (fun b s => { s with copyrightText := b }),
   strOptF g!"comment" (·.comment) (fun b s => { s with comment := b }),
   strOptF g!"name" (·.name) (fun b s => { s with name := b })]

/-- A snippet. -/
def snippetCodecR (v : Version) : Codec Snippet := structCodec (snippetFieldsR r v)

/-- A slice of strings that has `omitempty` in the given versions only. -/
def strsOptFR {σ : Type} (b : Bool) (key : Str) (get : σ → List Str) (set : List Str → σ → σ) : Field σ :=
  { β := List Str, key, get, set, isEmpty := fun l => b && l.isEmpty, codec := (strsCodecR r) }

/-- `File` (spdx/v2/v2_3/file.go:10-76, v2_2/file.go:10-76, v2_1/file.go:10-72). -/
def fileFieldsR (v : Version) : List (Field FileV) :=
  [strF g!"fileName" (·.name) (fun b s => { s with name := b }),
   codecF elementIdCodec g!"SPDXID" (·.spdxId) (fun b s => { s with spdxId := b }),
   listOptF (strsCodecR r) g!"fileTypes" (·.types) (fun b s => { s with types := b }),
   codecF (reuseCodec r {} checksumCodec) g!"checksums" (·.checksums) (fun b s => { s with checksums := b }),
   strOpt23F v g!"licenseConcluded" (·.licenseConcluded) (fun b s => { s with licenseConcluded := b }),
   strsOptFR r (v = .v23) g!"licenseInfoInFiles" (·.licenseInfoInFiles) (fun b s => { s with licenseInfoInFiles := b }),
   strOptF g!"licenseComments" (·.licenseComments) (fun b s => { s with licenseComments := b }),
   strF g!"copyrightText" (·.copyrightText) (fun b s => { s with copyrightText := b })] ++
  only (v = .v23) (listOptF (reusePtrCodec r {} artifactCodec) g!"artifactOfs" (·.artifactOfProjects) (fun b s => { s with artifactOfProjects := b })) ++
  [strOptF g!"comment" (·.comment) (fun b s => { s with comment := b }),
   strOptF g!"noticeText" (·.notice) (fun b s => { s with notice := b }),
   listOptF (strsCodecR r) g!"fileContributors" (·.contributors) (fun b s => { s with contributors := b })] ++
  only (v ≠ .v21) (listOptF (strsCodecR r) g!"attributionTexts" (·.attributionTexts) (fun b s => { s with attributionTexts := b })) ++
  only (v = .v23) (listOptF (strsCodecR r) g!"fileDependencies" (·.dependencies) (fun b s => { s with dependencies := b })) ++
  [listOptF (reuseCodec r {} annotationCodec) g!"annotations" (·.annotations) (fun b s => { s with annotations := b })]

/-- A file. -/
def fileCodecR (v : Version) : Codec FileV := structCodec (fileFieldsR r v)

/-- The field of the verification code (spdx/v2/v2_3/package.go:58, v2_2/package.go:57, v2_1/package.go:48).
`omitempty` has no effect on a struct. -/
def codeFieldR (v : Version) : Field PackageV :=
  match v with
  | .v23 => ptrOptF (ptrCodec {} (codeCodecR r)) codeKey (·.verificationCode) (fun b s => { s with verificationCode := b })
  | _ => codecF (codeCodecR r) codeKey (fun s => codeValue s.verificationCode) (fun b s => { s with verificationCode := codeOption b })

/-- The fields after the verification code. -/
def packageFieldsBR (v : Version) : List (Field PackageV) :=
  [listOptF (reuseCodec r {} checksumCodec) g!"checksums" (·.checksums) (fun b s => { s with checksums := b }),
   strOptF g!"homepage" (·.homePage) (fun b s => { s with homePage := b }),
   strOptF g!"sourceInfo" (·.sourceInfo) (fun b s => { s with sourceInfo := b }),
   strOpt23F v g!"licenseConcluded" (·.licenseConcluded) (fun b s => { s with licenseConcluded := b }),
   strsOptFR r (v ≠ .v21) g!"licenseInfoFromFiles" (·.licenseInfoFromFiles) (fun b s => { s with licenseInfoFromFiles := b }),
   strOpt23F v g!"licenseDeclared" (·.licenseDeclared) (fun b s => { s with licenseDeclared := b }),
   strOptF g!"licenseComments" (·.licenseComments) (fun b s => { s with licenseComments := b }),
   strOpt23F v g!"copyrightText" (·.copyrightText) (fun b s => { s with copyrightText := b }),
   strOptF g!"summary" (·.summary) (fun b s => { s with summary := b }),
   strOptF g!"description" (·.description) (fun b s => { s with description := b }),
   strOptF g!"comment" (·.comment) (fun b s => { s with comment := b }),
   listOptF (reusePtrCodec r {} (externalRefCodec v)) g!"externalRefs" (·.externalRefs) (fun b s => { s with externalRefs := b })] ++
  only (v ≠ .v21) (listOptF (strsCodecR r) g!"attributionTexts" (·.attributionTexts) (fun b s => { s with attributionTexts := b })) ++
  only (v = .v23) (strOptF g!"primaryPackagePurpose" (·.primaryPurpose) (fun b s => { s with primaryPurpose := b })) ++
  only (v = .v23) (strOptF g!"releaseDate" (·.releaseDate) (fun b s => { s with releaseDate := b })) ++
  only (v = .v23) (strOptF g!"builtDate" (·.builtDate) (fun b s => { s with builtDate := b })) ++
  only (v = .v23) (strOptF g!"validUntilDate" (·.validUntilDate) (fun b s => { s with validUntilDate := b })) ++
  [listOptF (reusePtrCodec r {} (fileCodecR r v)) g!"files" (·.files) (fun b s => { s with files := b }),
   listOptF (reuseCodec r {} annotationCodec) g!"annotations" (·.annotations) (fun b s => { s with annotations := b })]

/-- `Package` (spdx/v2/v2_3/package.go:14-142, v2_2/package.go:14-124, v2_1/package.go:10-103). -/
def packageFieldsR (v : Version) : List (Field PackageV) := packageFieldsA v ++ codeFieldR r v :: packageFieldsBR r v

/-- Their keys. -/
def packageExtrasFieldsR : List (Field PackageExtras) :=
  [codecF (reuseCodec r {} docElementIdCodec) g!"hasFiles" (·.hasFiles) (fun b s => { s with hasFiles := b }),
   codecF (ptrCodec false boolCodec) g!"filesAnalyzed" (·.filesAnalyzed) (fun b s => { s with filesAnalyzed := b })]

/-- `Package.UnmarshalJSON` (spdx/v2/v2_3/package.go:144-173, v2_2/package.go:152-180); 2.1 has none.  The
second component is the unexported field `hasFiles`. -/
def decodePackageR (v : Version) (j : Json) (p0 : PackageV × List DocElementID) : Res (PackageV × List DocElementID) :=
  match v with
  | .v21 => do
    let p ← (structCodec (packageFieldsR r v)).dec j p0.1
    .ok (p, [])
  | .v22 | .v23 => do
    let p ← (structCodec (packageFieldsR r v)).dec j {}
    let e ← (structCodec (packageExtrasFieldsR r)).dec j {}
    let p := match e.filesAnalyzed with
      | none => { p with filesAnalyzed := true }
      | some _ => { p with filesAnalyzedTagPresent := true }
    .ok (p, e.hasFiles)

/-- A package. -/
def packageCodecR (so : Sorter) (v : Version) : Codec (PackageV × List DocElementID) where
  enc := encodePackage so v
  dec := decodePackageR r v

/-- `Document` (spdx/v2/v2_3/document.go:33-73, v2_2/document.go:34-74, v2_1/document.go:30-70). -/
def docFieldsR (so : Sorter) (v : Version) : List (Field RawDoc) :=
  [strF g!"spdxVersion" (·.doc.spdxVersion) (fun b s => { s with doc := { s.doc with spdxVersion := b } }),
   strF g!"dataLicense" (·.doc.dataLicense) (fun b s => { s with doc := { s.doc with dataLicense := b } }),
   codecF elementIdCodec g!"SPDXID" (·.doc.spdxId) (fun b s => { s with doc := { s.doc with spdxId := b } }),
   strF g!"name" (·.doc.name) (fun b s => { s with doc := { s.doc with name := b } }),
   strF g!"documentNamespace" (·.doc.namespace_) (fun b s => { s with doc := { s.doc with namespace_ := b } }),
   listOptF (reuseCodec r {} externalDocCodec) g!"externalDocumentRefs" (·.doc.externalDocumentRefs) (fun b s => { s with doc := { s.doc with externalDocumentRefs := b } }),
   strOptF g!"comment" (·.doc.comment) (fun b s => { s with doc := { s.doc with comment := b } }),
   codecF (ptrCodec {} (creationInfoCodecR r)) g!"creationInfo" (·.doc.creationInfo) (fun b s => { s with doc := { s.doc with creationInfo := b } }),
   listOptF (reuseCodec r none (ptrCodec ({}, []) (packageCodecR r so v))) g!"packages" (·.packages) (fun b s => { s with packages := b }),
   listOptF (reusePtrCodec r {} (fileCodecR r v)) g!"files" (·.doc.files) (fun b s => { s with doc := { s.doc with files := b } }),
   listOptF (reusePtrCodec r {} (otherLicenseCodecR r)) g!"hasExtractedLicensingInfos" (·.doc.otherLicenses) (fun b s => { s with doc := { s.doc with otherLicenses := b } }),
   listOptF (reuseCodec r none (ptrCodec {} relationshipCodec)) g!"relationships" (·.relationships) (fun b s => { s with relationships := b }),
   listOptF (reusePtrCodec r {} annotationCodec) g!"annotations" (·.doc.annotations) (fun b s => { s with doc := { s.doc with annotations := b } }),
   listOptF (reuseCodec r {} (snippetCodecR r v)) g!"snippets" (·.doc.snippets) (fun b s => { s with doc := { s.doc with snippets := b } })]

/-- The extra field `Document.UnmarshalJSON` looks for (spdx/v2/v2_3/document.go:85-87). -/
def docExtrasFieldsR : List (Field (List DocElementID)) :=
  [codecF (reuseCodec r {} docElementIdCodec) g!"documentDescribes" (fun s => s) (fun b _ => b)]

/-- `Document.UnmarshalJSON` (spdx/v2/v2_3/document.go:83-175, v2_2/document.go:84-175); 2.1 has none.
Simplification: the Go document keeps null packages (and, in 2.1, null relationships), the model rejects
them at the end. -/
def decodeDocR (so : Sorter) (v : Version) (j : Json) : Res Doc :=
  match v with
  | .v21 => do
    let d ← (structCodec (docFieldsR r so v)).dec j {}
    let ps ← Res.ofOption (allSome d.packages)
    let rs ← Res.ofOption (allSome d.relationships)
    .ok { d.doc with packages := ps.map (·.1), relationships := rs }
  | .v22 | .v23 => do
    let d ← (structCodec (docFieldsR r so v)).dec j {}
    let describes ← (structCodec (docExtrasFieldsR r)).dec j []
    let rels := loadRelationships d.doc.spdxId d.relationships describes d.packages
    let ps ← Res.ofOption (allSome d.packages)
    .ok { d.doc with packages := ps.map (·.1), relationships := rels }

/-- `ReadInto` (json/reader.go:29-83) on the parsed text, into a variable of version `target`. -/
def readJsonIntoR (so : Sorter) (copy : Version → Version → Doc → Doc) (isPtr : Bool) (target : Version) (j : Json) : Res Doc :=
  if !isPtr then .err
  else match j with
    | .obj es =>
      match lastEntry g!"spdxVersion" es with
      | some (.str raw) =>
        match (unescape raw).bind versionNamed with
        | some v => do
          let d ← decodeDocR r so v j
          convertDocument copy isPtr v target d
        | none => .err
      | _ => .err
    | _ => .err

/-- `ReadInto` (json/reader.go:29-83) on a text, as `readJsonText`. -/
def readJsonTextR (so : Sorter) (copy : Version → Version → Doc → Doc) (float : Str → Bool) (odd : Str → Res Doc) (isPtr : Bool)
    (target : Version) (s : Str) : Res Doc :=
  if !isPtr then .err
  else match scanJson s with
    | none => .err
    | some j =>
      if !j.floats float then .err
      else if j.agentsPlain then readJsonIntoR r so copy isPtr target j else odd s

end

/-- Memory beyond the length of a slice is zero. -/
def Reuse.zeros : Reuse where
  get zero l i := (l[i]?).getD zero
  fresh _ _ := rfl
  old _ l i h := by rw [List.getElem?_eq_getElem h]; rfl

end Verif
