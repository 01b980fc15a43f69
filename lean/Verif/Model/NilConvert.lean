import Verif.Model.NilEntries
import Verif.Model.Convert

/-!
# Copying a document with nil entries between versions

`convert/chain.go` on documents whose slices of pointers, or whose maps of snippets, hold nil pointers (`NDoc`).  The
struct types and the copying are those of Model/Convert; only the Go values of documents are richer.
-/

namespace Verif

/-- A struct with another value in one of its fields. -/
def GoVal.put (x : GoVal) (n : String) (w : GoVal) : GoVal :=
  match x with
  | .struct fs => .struct (fs.map fun f => if f.1 = n then (n, w) else f)
  | v => v

/-- A slice of pointers, some of them nil. -/
def ptrsVal {α : Type} (f : α → GoVal) (l : List (Option α)) : GoVal := .slice (l.map (ptrVal f))

/-- What a slice of pointers holds, with nil in its place. -/
def optsOfVal {α : Type} (f : GoVal → α) (v : GoVal) : List (Option α) := v.asList.map fun x => x.target.map f

/-- A Go value for a file of version `v` (spdx/v2/v2_3/file.go:10-76; same in v2_2, v2_1), see `fileVal`. -/
def nFileVal (v : Version) (n : NFile) : GoVal :=
  ((fileVal v n.file).put "ArtifactOfProjects" (ptrsVal artifactVal n.artifacts)).put "Snippets"
    (.map (n.snippets.map fun e => (e.1, ptrVal (snippetVal v) e.2)))

/-- A file from its Go value (spdx/v2/v2_3/file.go:10-76), see `fileOfVal`. -/
def nFileOfVal (x : GoVal) : NFile :=
  { file := { fileOfVal x with artifactOfProjects := [], snippets := [] }
    artifacts := optsOfVal artifactOfVal (x.fld "ArtifactOfProjects")
    snippets := (x.fld "Snippets").asMap.map fun e => (e.1, e.2.target.map snippetOfVal) }

/-- A Go value for a package of version `v` (spdx/v2/v2_3/package.go:14-142; same in v2_2, v2_1), see
`packageVal`. -/
def nPackageVal (v : Version) (n : NPackage) : GoVal :=
  ((packageVal v n.pkg).put "PackageExternalReferences" (ptrsVal externalRefVal n.externalRefs)).put "Files"
    (ptrsVal (nFileVal v) n.files)

/-- A package from its Go value (spdx/v2/v2_3/package.go:14-142), see `packageOfVal`. -/
def nPackageOfVal (v : Version) (x : GoVal) : NPackage :=
  { pkg := { packageOfVal v x with externalRefs := [], files := [] }
    externalRefs := optsOfVal externalRefOfVal (x.fld "PackageExternalReferences")
    files := optsOfVal nFileOfVal (x.fld "Files") }

/-- A Go value for a document of version `v` (spdx/v2/v2_3/document.go:33-73; same in v2_2, v2_1), see
`documentVal`. -/
def nDocumentVal (v : Version) (n : NDoc) : GoVal :=
  ((((((documentVal v n.doc).put "Packages" (ptrsVal (nPackageVal v) n.packages)).put "Files"
    (ptrsVal (nFileVal v) n.files)).put "OtherLicenses" (ptrsVal otherLicenseVal n.otherLicenses)).put "Relationships"
    (ptrsVal relationshipVal n.relationships)).put "Annotations" (ptrsVal annotationVal n.annotations)).put "Reviews"
    (ptrsVal reviewVal n.reviews)

/-- A document from its Go value (spdx/v2/v2_3/document.go:33-73), see `documentOfVal`. -/
def nDocumentOfVal (v : Version) (x : GoVal) : NDoc :=
  { doc := { documentOfVal v x with packages := [], files := [], otherLicenses := [], relationships := [], annotations := [],
                                    reviews := [] }
    packages := optsOfVal (nPackageOfVal v) (x.fld "Packages")
    files := optsOfVal nFileOfVal (x.fld "Files")
    otherLicenses := optsOfVal otherLicenseOfVal (x.fld "OtherLicenses")
    relationships := optsOfVal relationshipOfVal (x.fld "Relationships")
    annotations := optsOfVal annotationOfVal (x.fld "Annotations")
    reviews := optsOfVal reviewOfVal (x.fld "Reviews") }

/-- The copy of one conversion of the chain (convert/chain.go:16-22), see `structCopy`. -/
def nStructCopy (lib : Copier) (a b : Version) (n : NDoc) : Res NDoc := do
  let x ← lib.conv (.struct (documentStruct b)) (nDocumentVal a n)
  .ok (nDocumentOfVal b (x.getD (GoTy.struct (documentStruct b)).zero))

/-- One step of the chain, which sets the version after the copy (spdx/v2/v2_2/document.go:76-82,
spdx/v2/v2_3/document.go:75-81). -/
def nConvertStep (lib : Copier) (a b : Version) (n : NDoc) : Res NDoc := do
  let n' ← nStructCopy lib a b n
  .ok { n' with doc := { n'.doc with spdxVersion := versionName b } }

/-- `convert.Document` (convert/chain.go:30-40), see `convertWith`. -/
def nConvertWith (lib : Copier) (isPtr : Bool) (a b : Version) (n : NDoc) : Res NDoc :=
  if !isPtr then .err
  else match a, b with
    | .v21, .v21 | .v22, .v22 | .v23, .v23 => .ok n
    | .v21, .v22 => nConvertStep lib .v21 .v22 n
    | .v21, .v23 => do nConvertStep lib .v22 .v23 (← nConvertStep lib .v21 .v22 n)
    | .v22, .v23 => nConvertStep lib .v22 .v23 n
    | .v22, .v21 => nConvertStep lib .v22 .v21 n
    | .v23, .v22 => nConvertStep lib .v23 .v22 n
    | .v23, .v21 => do nConvertStep lib .v22 .v21 (← nConvertStep lib .v23 .v22 n)

/-- `ReadInto` (json/reader.go:29-83) on the parsed text, into a variable of version `target`, see
`readJsonInto`. -/
def nReadJsonInto (so : Sorter) (lib : Copier) (isPtr : Bool) (target : Version) (j : Json) : Res NDoc :=
  if !isPtr then .err
  else match j with
    | .obj es =>
      match lastEntry g!"spdxVersion" es with
      | some (.str raw) =>
        match (unescape raw).bind versionNamed with
        | some v => do
          let n ← decodeNDoc so v j
          nConvertWith lib isPtr v target n
        | none => .err
      | _ => .err
    | _ => .err

end Verif
