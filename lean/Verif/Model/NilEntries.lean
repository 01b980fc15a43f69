import Verif.Model.JsonDoc
import Verif.Model.TVWrite
import Verif.Model.SpdxLib

/-!
# Documents with nil entries

The slices of pointers of a document, and the map of snippets of a file, may hold nil pointers: an array of a JSON
text may have an entry `null`, and a caller may put them there.  `Doc` has no place for them.  Here the slices of
pointers are lists of options; everything else is as in `Doc`.  The structures below hold a value of the plain type
for the other fields: its own lists of pointers are empty and mean nothing.
-/

namespace Verif

/-- A file (spdx/v2/v2_3/file.go:10-76; same in v2_2, v2_1) whose artifacts and snippets may be nil. -/
structure NFile where
  file : FileV := {}
  artifacts : List (Option ArtifactOfProject) := []
  snippets : List (Str × Option Snippet) := []
  deriving DecidableEq

/-- A package (spdx/v2/v2_3/package.go:14-142; same in v2_2, v2_1) whose external references and files may be nil. -/
structure NPackage where
  pkg : PackageV := {}
  externalRefs : List (Option PackageExternalRef) := []
  files : List (Option NFile) := []
  deriving DecidableEq

/-- A document (spdx/v2/v2_3/document.go:33-81; same in v2_2, v2_1) whose parts may be nil. -/
structure NDoc where
  doc : Doc := {}
  packages : List (Option NPackage) := []
  files : List (Option NFile) := []
  otherLicenses : List (Option OtherLicense) := []
  relationships : List (Option Relationship) := []
  annotations : List (Option Annotation) := []
  reviews : List (Option Review) := []
  deriving DecidableEq

/-! ## The document without nil entries -/

/-- A file without nil entries as a plain file. -/
def NFile.whole (n : NFile) : Option FileV := do
  let as ← allSome n.artifacts
  let ss ← allSome (n.snippets.map fun e => e.2.map fun s => (e.1, s))
  some { n.file with artifactOfProjects := as, snippets := ss }

/-- A package without nil entries as a plain package. -/
def NPackage.whole (n : NPackage) : Option PackageV := do
  let rs ← allSome n.externalRefs
  let fs ← allSome (n.files.map fun f => f.bind NFile.whole)
  some { n.pkg with externalRefs := rs, files := fs }

/-- A document without nil entries as a plain document. -/
def NDoc.whole (n : NDoc) : Option Doc := do
  let ps ← allSome (n.packages.map fun p => p.bind NPackage.whole)
  let fs ← allSome (n.files.map fun f => f.bind NFile.whole)
  let ls ← allSome n.otherLicenses
  let rs ← allSome n.relationships
  let as ← allSome n.annotations
  let vs ← allSome n.reviews
  some { n.doc with packages := ps, files := fs, otherLicenses := ls, relationships := rs, annotations := as, reviews := vs }

/-! ## Reading JSON -/

section
variable {σ τ : Type}

/-- A field of a part of a structure. -/
def Field.lift (get : τ → σ) (set : σ → τ → τ) (f : Field σ) : Field τ :=
  { β := f.β, key := f.key, get := fun t => f.get (get t), set := fun b t => set (f.set b (get t)) t,
    isEmpty := f.isEmpty, codec := f.codec }
end

/-- A Go slice of pointers, with nil for `null`. -/
def nilListCodec {β : Type} (zero : β) (c : Codec β) : Codec (List (Option β)) := listCodec none (ptrCodec zero c)

/-- The artifacts of a file (spdx/v2/v2_3/file.go:46). -/
def artifactsField : Field NFile :=
  listOptF (nilListCodec {} artifactCodec) g!"artifactOfs" (·.artifacts) (fun b s => { s with artifacts := b })

/-- `File`, see `fileFields`. -/
def nFileFields (v : Version) : List (Field NFile) :=
  (fileFields v).map fun f =>
    if f.key = g!"artifactOfs" then artifactsField
    else f.lift (·.file) (fun b s => { s with file := b })

/-- A file. -/
def nFileCodec (v : Version) : Codec NFile := structCodec (nFileFields v)

/-- The external references of a package (spdx/v2/v2_3/package.go:107). -/
def externalRefsField (v : Version) : Field NPackage :=
  listOptF (nilListCodec {} (externalRefCodec v)) g!"externalRefs" (·.externalRefs) (fun b s => { s with externalRefs := b })

/-- The files of a package (spdx/v2/v2_3/package.go:135). -/
def packageFilesField (v : Version) : Field NPackage :=
  listOptF (nilListCodec {} (nFileCodec v)) g!"files" (·.files) (fun b s => { s with files := b })

/-- `Package`, see `packageFields`. -/
def nPackageFields (v : Version) : List (Field NPackage) :=
  (packageFields v).map fun f =>
    if f.key = g!"externalRefs" then externalRefsField v
    else if f.key = g!"files" then packageFilesField v
    else f.lift (·.pkg) (fun b s => { s with pkg := b })

/-- What `Package.UnmarshalJSON` does with the extra fields (spdx/v2/v2_3/package.go:162-170). -/
def setAnalyzed (o : Option Bool) (p : PackageV) : PackageV :=
  match o with
  | none => { p with filesAnalyzed := true }
  | some _ => { p with filesAnalyzedTagPresent := true }

/-- `Package.UnmarshalJSON` (spdx/v2/v2_3/package.go:144-173, v2_2/package.go:152-180); 2.1 has none.  The
second component is the unexported field `hasFiles`. -/
def decodeNPackage (v : Version) (j : Json) (p0 : NPackage × List DocElementID) : Res (NPackage × List DocElementID) :=
  match v with
  | .v21 => do
    let p ← (structCodec (nPackageFields v)).dec j p0.1
    .ok (p, [])
  | .v22 | .v23 => do
    let p ← (structCodec (nPackageFields v)).dec j {}
    let e ← (structCodec packageExtrasFields).dec j {}
    .ok ({ p with pkg := setAnalyzed e.filesAnalyzed p.pkg }, e.hasFiles)

/-- `Package.MarshalJSON` of 2.2 (spdx/v2/v2_2/package.go:126-150), see `encodePackage`. -/
def encodeNPackage (so : Sorter) (v : Version) (p : NPackage × List DocElementID) : Res Json :=
  match v with
  | .v22 => do
    let es ← encodeFields p.1 (nPackageFields v)
    if codeValue p.1.pkg.verificationCode = {} then
      .ok (Json.sortKeys so (.obj (es.filter fun e => e.1 ≠ codeKey)))
    else .ok (.obj es)
  | _ => (structCodec (nPackageFields v)).enc p.1

/-- A package. -/
def nPackageCodec (so : Sorter) (v : Version) : Codec (NPackage × List DocElementID) where
  enc := encodeNPackage so v
  dec := decodeNPackage v

/-- What the decoder fills before it completes the relationships. -/
structure NRaw where
  raw : RawDoc := {}
  packages : List (Option (NPackage × List DocElementID)) := []
  files : List (Option NFile) := []
  otherLicenses : List (Option OtherLicense) := []
  annotations : List (Option Annotation) := []

/-- The packages of a document (spdx/v2/v2_3/document.go:64). -/
def nPackagesField (so : Sorter) (v : Version) : Field NRaw :=
  listOptF (nilListCodec ({}, []) (nPackageCodec so v)) g!"packages" (·.packages) (fun b s => { s with packages := b })

/-- The files of a document (spdx/v2/v2_3/document.go:65). -/
def docFilesField (v : Version) : Field NRaw :=
  listOptF (nilListCodec {} (nFileCodec v)) g!"files" (·.files) (fun b s => { s with files := b })

/-- The extracted licenses of a document (spdx/v2/v2_3/document.go:66). -/
def otherLicensesField : Field NRaw :=
  listOptF (nilListCodec {} otherLicenseCodec) g!"hasExtractedLicensingInfos" (·.otherLicenses) (fun b s => { s with otherLicenses := b })

/-- The annotations of a document (spdx/v2/v2_3/document.go:68). -/
def annotationsField : Field NRaw :=
  listOptF (nilListCodec {} annotationCodec) g!"annotations" (·.annotations) (fun b s => { s with annotations := b })

/-- `Document`, see `docFields`. -/
def nDocFields (so : Sorter) (v : Version) : List (Field NRaw) :=
  (docFields so v).map fun f =>
    if f.key = g!"packages" then nPackagesField so v
    else if f.key = g!"files" then docFilesField v
    else if f.key = g!"hasExtractedLicensingInfos" then otherLicensesField
    else if f.key = g!"annotations" then annotationsField
    else f.lift (·.raw) (fun b s => { s with raw := b })

/-- What the relationships of a package need: the package and its `hasFiles`. -/
def plainOwner (x : NPackage × List DocElementID) : PackageV × List DocElementID := (x.1.pkg, x.2)

/-- `Document.UnmarshalJSON` (spdx/v2/v2_3/document.go:83-175, v2_2/document.go:84-175); 2.1 has none.  Nil
relationships are removed (lines 123-129), nil packages are passed over (line 154) and stay. -/
def decodeNDoc (so : Sorter) (v : Version) (j : Json) : Res NDoc :=
  match v with
  | .v21 => do
    let d ← (structCodec (nDocFields so v)).dec j {}
    .ok { doc := d.raw.doc, packages := d.packages.map (Option.map Prod.fst), files := d.files,
          otherLicenses := d.otherLicenses, relationships := d.raw.relationships, annotations := d.annotations }
  | .v22 | .v23 => do
    let d ← (structCodec (nDocFields so v)).dec j {}
    let describes ← (structCodec docExtrasFields).dec j []
    let rels := loadRelationships d.raw.doc.spdxId d.raw.relationships describes (d.packages.map (Option.map plainOwner))
    .ok { doc := d.raw.doc, packages := d.packages.map (Option.map Prod.fst), files := d.files,
          otherLicenses := d.otherLicenses, relationships := rels.map some, annotations := d.annotations }

/-! ## Writing JSON -/

/-- The document as the fields of `nDocFields` see it. -/
def nRawOf (n : NDoc) : NRaw :=
  { raw := { doc := n.doc, relationships := n.relationships }, packages := n.packages.map (Option.map fun p => (p, [])),
    files := n.files, otherLicenses := n.otherLicenses, annotations := n.annotations }

/-- `Write` (json/writer.go:27-33) on a document of version `v`, see `writeJson`. -/
def nWriteJson (so : Sorter) (v : Version) (html : Bool) (n : NDoc) : Res Json := do
  let j ← (structCodec (nDocFields so v)).enc (nRawOf n)
  .ok (if html then j.escapeHtml else j)

/-! ## Writing tag-value text -/

/-- All values of a slice of pointers: a nil pointer panics. -/
def derefAll {α : Type} (l : List (Option α)) : Res (List α) := mapRes deref l

/-- `sort.Slice` on a slice of pointers by a field of what they point to: with two entries or more every entry is
compared with another one. -/
def sortPointers {α : Type} (so : Sorter) (key : α → Str) (l : List (Option α)) : Res (List (Option α)) :=
  if l.length ≤ 1 then .ok l
  else do
    let m ← derefAll l
    .ok ((so.run key m).map some)

/-- The snippets of a file in the order they are written (save_file.go:68-78). -/
def nSnippetsInOrder (so : Sorter) (f : NFile) : List (Option Snippet) :=
  (so.run id (f.snippets.map Prod.fst)).map fun k => (mapGet k f.snippets).join

/-- `renderFile` (save_file.go:14-81).  What is printed before a panic is in `NilPrint`. -/
def nRenderFile (v : Version) (so : Sorter) (f : NFile) : Res (List Item) := do
  let as ← derefAll f.artifacts
  let ss ← derefAll (nSnippetsInOrder so f)
  .ok (renderFileFields v { f.file with artifactOfProjects := as } ++ ss.flatMap (renderSnippet v))

/-- The loops over files (save_document.go:58-60, save_package.go:124-126). -/
def nRenderFiles (v : Version) (so : Sorter) (l : List (Option NFile)) : Res (List (List Item)) :=
  mapRes (fun f => do let f ← deref f; nRenderFile v so f) l

/-- `renderPackage` (save_package.go:15-129). -/
def nRenderPackage (v : Version) (so : Sorter) (p : NPackage) : Res (List Item) := do
  let rs ← derefAll p.externalRefs
  let fs ← sortPointers so (·.file.spdxId) p.files
  let is ← nRenderFiles v so fs
  .ok (renderPackageFields v { p.pkg with externalRefs := rs } ++ is.flatten)

/-- A package with its heading (save_document.go:67-70). -/
def nRenderPackageGroup (v : Version) (so : Sorter) (p : Option NPackage) : Res (List Item) := do
  let p ← deref p
  let is ← nRenderPackage v so p
  .ok ([.line (g!"##### Package: " ++ p.pkg.name), .line []] ++ is)

/-- `RenderDocument` (save_document.go:19-103) with the concatenation of its pieces of text. -/
def nWriteTagValue (v : Version) (so : Sorter) (n : NDoc) : Res Str :=
  match n.doc.creationInfo with
  | none => .err
  | some ci => do
    let fs ← sortPointers so (·.file.spdxId) n.files
    let is ← nRenderFiles v so fs
    let ps ← sortPointers so (·.pkg.spdxId) n.packages
    let js ← mapRes (nRenderPackageGroup v so) ps
    let ls ← derefAll n.otherLicenses
    let rs ← derefAll n.relationships
    let as ← derefAll n.annotations
    let vs ← derefAll n.reviews
    .ok (emit (renderHeader so n.doc ++ renderCreationInfo ci ++ heading n.files g!"##### Unpackaged files" ++ is.flatten ++
      js.flatten ++ renderTail { n.doc with otherLicenses := ls, relationships := rs, annotations := as, reviews := vs }))

/-! ## spdxlib -/

/-- `ValidateDocument` (spdxlib/documents.go:14-39) on a document. -/
def nValidate (n : NDoc) : Res Unit :=
  validateDocument (n.packages.map (Option.map (·.pkg))) (n.files.map (Option.map (·.file))) n.relationships

end Verif
