import Verif.Model.JsonText

/-!
# Writing JSON with lists that are empty but not nil

A Go slice without elements is nil or empty.  The rest of the model does not tell the two apart, because nothing
in the library does except the writing of JSON: encoding/json writes a nil slice as `null` and an empty slice as
`[]`, where the tag of the field does not say `omitempty`; and the packages of 2.2 test a slice for nil
(spdx/v2/v2_2/package.go:139).  Here a document comes with marks that tell which of its lists without elements
are empty rather than nil.  Only the lists for which it matters are marked.  A mark on a list with elements means
nothing.
-/

namespace Verif

/-- The lists of a file without `omitempty` (spdx/v2/v2_3/file.go:25, v2_2/file.go:25 and 33, v2_1/file.go:25 and
33); in 2.3 the mark of `licenseInfoInFiles`, which has `omitempty`, means nothing. -/
structure FileMarks where
  checksums : Bool := false
  licenseInfoInFiles : Bool := false

/-- The lists of a package: the excluded files of the verification code (spdx/v2/v2_2/package.go:139), those without
`omitempty` (spdx/v2/v2_1/package.go:69), and those of its files, by position. -/
structure PackageMarks where
  excludedFiles : Bool := false
  licenseInfoFromFiles : Bool := false
  files : Nat → FileMarks := fun _ => {}

/-- The lists of a document: the creators (spdx/v2/v2_3/creation_info.go:18, v2_2/creation_info.go:19,
v2_1/creation_info.go:19), the ranges of snippets (spdx/v2/v2_3/snippet.go:21, v2_2/snippet.go:21,
v2_1/snippet.go:21), and those of packages and files, by position. -/
structure DocMarks where
  creators : Bool := false
  packages : Nat → PackageMarks := fun _ => {}
  files : Nat → FileMarks := fun _ => {}
  snippets : Nat → Bool := fun _ => false

/-- A Go slice that is, if without elements, empty (`b`) or nil; decoding is not concerned. -/
def markCodec {β : Type} (b : Bool) (c : Codec (List β)) : Codec (List β) where
  enc l := if b && l.isEmpty then .ok (.arr []) else c.enc l
  dec := c.dec

/-- Encodes all elements, each with its position. -/
def mapResAt {α β : Type} (f : Nat → α → Res β) : Nat → List α → Res (List β)
  | _, [] => .ok []
  | n, a :: l => do
    let b ← f n a
    let m ← mapResAt f (n + 1) l
    .ok (b :: m)

/-- A Go slice whose elements are encoded with marks; decoding is not concerned.  All such slices have
`omitempty`, so that nil or empty does not matter for the slice itself. -/
def eachCodec {β : Type} (enc : Nat → β → Res Json) (c : Codec (List β)) : Codec (List β) where
  enc
    | [] => .ok .null
    | a :: l => do
      let js ← mapResAt enc 0 (a :: l)
      .ok (.arr js)
  dec := c.dec

/-- The fields with the one of the same key replaced. -/
def replaceField {σ : Type} (g : Field σ) (fs : List (Field σ)) : List (Field σ) :=
  fs.map fun f => if f.key = g.key then g else f

/-- `Checksums` (spdx/v2/v2_3/file.go:25; same in v2_2, v2_1). -/
def fileChecksumsM (m : FileMarks) : Field FileV :=
  codecF (markCodec m.checksums (listCodec {} checksumCodec)) g!"checksums" (·.checksums) (fun b s => { s with checksums := b })

/-- `LicenseInfoInFiles` (spdx/v2/v2_3/file.go:33; same in v2_2, v2_1). -/
def fileInfoM (v : Version) (m : FileMarks) : Field FileV :=
  { β := List Str, key := g!"licenseInfoInFiles", get := (·.licenseInfoInFiles), set := fun b s => { s with licenseInfoInFiles := b }
    isEmpty := fun l => v = .v23 && l.isEmpty, codec := markCodec m.licenseInfoInFiles strsCodec }

/-- `File` (spdx/v2/v2_3/file.go:10-76, v2_2/file.go:10-76, v2_1/file.go:10-72). -/
def fileFieldsM (v : Version) (m : FileMarks) : List (Field FileV) :=
  replaceField (fileChecksumsM m) (replaceField (fileInfoM v m) (fileFields v))

/-- A file. -/
def fileCodecM (v : Version) (m : FileMarks) : Codec FileV := structCodec (fileFieldsM v m)

/-- `Files` (spdx/v2/v2_3/package.go:135, v2_2/package.go:117, v2_1/package.go:100). -/
def packageFilesM (v : Version) (m : PackageMarks) : Field PackageV :=
  listOptF (eachCodec (fun i => (fileCodecM v (m.files i)).enc) (ptrListCodec {} (fileCodec v))) g!"files" (·.files) (fun b s => { s with files := b })

/-- `PackageLicenseInfoFromFiles` (spdx/v2/v2_3/package.go:79, v2_2/package.go:78, v2_1/package.go:69). -/
def packageInfoM (v : Version) (m : PackageMarks) : Field PackageV :=
  { β := List Str, key := g!"licenseInfoFromFiles", get := (·.licenseInfoFromFiles), set := fun b s => { s with licenseInfoFromFiles := b }
    isEmpty := fun l => v ≠ .v21 && l.isEmpty, codec := markCodec m.licenseInfoFromFiles strsCodec }

/-- The fields of a package after the verification code. -/
def packageFieldsBM (v : Version) (m : PackageMarks) : List (Field PackageV) :=
  replaceField (packageFilesM v m) (replaceField (packageInfoM v m) (packageFieldsB v))

/-- `Package` (spdx/v2/v2_3/package.go:14-142, v2_2/package.go:14-124, v2_1/package.go:10-103).  The excluded files of the
verification code have `omitempty`. -/
def packageFieldsM (v : Version) (m : PackageMarks) : List (Field PackageV) := packageFieldsA v ++ codeField v :: packageFieldsBM v m

/-- `Package.MarshalJSON` of 2.2 (spdx/v2/v2_2/package.go:126-150): the key of the verification code is removed if there
is no value and the slice of excluded files is nil.  2.1 and 2.3 have no such method. -/
def encodePackageM (so : Sorter) (v : Version) (m : PackageMarks) (p : PackageV × List DocElementID) : Res Json :=
  match v with
  | .v22 => do
    let es ← encodeFields p.1 (packageFieldsM v m)
    let c := codeValue p.1.verificationCode
    if c.value = [] ∧ c.excludedFiles = [] ∧ m.excludedFiles = false then
      .ok (Json.sortKeys so (.obj (es.filter fun e => e.1 ≠ codeKey)))
    else .ok (.obj es)
  | _ => (structCodec (packageFieldsM v m)).enc p.1

/-- `Creators` (spdx/v2/v2_3/creation_info.go:18, v2_2/creation_info.go:19, v2_1/creation_info.go:19). -/
def creatorsM (b : Bool) : Field CreationInfo :=
  codecF (markCodec b (listCodec {} creatorCodec)) g!"creators" (·.creators) (fun b s => { s with creators := b })

/-- `CreationInfo` (spdx/v2/v2_3/creation_info.go:9-28, v2_2/creation_info.go:9-29, v2_1/creation_info.go:9-29). -/
def creationInfoCodecM (b : Bool) : Codec CreationInfo := structCodec (replaceField (creatorsM b) creationInfoFields)

/-- `Ranges` (spdx/v2/v2_3/snippet.go:21; same in v2_2, v2_1). -/
def rangesM (b : Bool) : Field Snippet :=
  codecF (markCodec b (listCodec {} rangeCodec)) g!"ranges" (·.ranges) (fun b s => { s with ranges := b })

/-- `Snippet` (spdx/v2/v2_3/snippet.go:10-50, v2_2/snippet.go:10-50, v2_1/snippet.go:10-46). -/
def snippetCodecM (v : Version) (b : Bool) : Codec Snippet := structCodec (replaceField (rangesM b) (snippetFields v))

/-- What is written for a pointer to a package. -/
def encodePackagePtrM (so : Sorter) (v : Version) (m : PackageMarks) : Option (PackageV × List DocElementID) → Res Json
  | none => .ok .null
  | some p => encodePackageM so v m p

/-- What is written for a pointer to a creation info. -/
def creationInfoPtrM (b : Bool) : Codec (Option CreationInfo) where
  enc
    | none => .ok .null
    | some i => (creationInfoCodecM b).enc i
  dec := (ptrCodec {} creationInfoCodec).dec

/-- `CreationInfo` of `Document` (spdx/v2/v2_3/document.go:63). -/
def docInfoM (m : DocMarks) : Field RawDoc :=
  codecF (creationInfoPtrM m.creators) g!"creationInfo" (·.doc.creationInfo) (fun b s => { s with doc := { s.doc with creationInfo := b } })

/-- `Packages` of `Document` (spdx/v2/v2_3/document.go:64). -/
def docPackagesM (so : Sorter) (v : Version) (m : DocMarks) : Field RawDoc :=
  listOptF (eachCodec (fun i => encodePackagePtrM so v (m.packages i)) (listCodec none (ptrCodec ({}, []) (packageCodec so v)))) g!"packages"
    (·.packages) (fun b s => { s with packages := b })

/-- `Files` of `Document` (spdx/v2/v2_3/document.go:65). -/
def docFilesM (v : Version) (m : DocMarks) : Field RawDoc :=
  listOptF (eachCodec (fun i => (fileCodecM v (m.files i)).enc) (ptrListCodec {} (fileCodec v))) g!"files"
    (·.doc.files) (fun b s => { s with doc := { s.doc with files := b } })

/-- `Snippets` of `Document` (spdx/v2/v2_3/document.go:69). -/
def docSnippetsM (v : Version) (m : DocMarks) : Field RawDoc :=
  listOptF (eachCodec (fun i => (snippetCodecM v (m.snippets i)).enc) (listCodec {} (snippetCodec v))) g!"snippets"
    (·.doc.snippets) (fun b s => { s with doc := { s.doc with snippets := b } })

/-- `Document` (spdx/v2/v2_3/document.go:33-73, v2_2/document.go:34-74, v2_1/document.go:30-70). -/
def docFieldsM (so : Sorter) (v : Version) (m : DocMarks) : List (Field RawDoc) :=
  replaceField (docInfoM m) (replaceField (docPackagesM so v m) (replaceField (docFilesM v m) (replaceField (docSnippetsM v m) (docFields so v))))

/-- `Write` (json/writer.go:27-33) on a document of version `v` whose lists without elements are nil or empty as the
marks tell. -/
def writeJsonM (so : Sorter) (v : Version) (html : Bool) (m : DocMarks) (d : Doc) : Res Json := do
  let j ← (structCodec (docFieldsM so v m)).enc
    { doc := d, packages := d.packages.map fun p => some (p, []), relationships := d.relationships.map some }
  .ok (if html then j.escapeHtml else j)

/-- The text, as `writeJsonText`. -/
def writeJsonTextM (so : Sorter) (v : Version) (html : Bool) (indent : Str) (m : DocMarks) (d : Doc) : Res Str := do
  let j ← writeJsonM so v html m d
  .ok ((if indent = [] then j.text else j.indented indent 0) ++ g!"\n")

end Verif
