import Verif.Spec.JsonSays
import Verif.Spec.JsonDoc
import Verif.Model.NilEntries

/-!
# Documents with missing entries

What it means that an entry of a list of a document is missing, and what JSON says about lists with entries `null`.
-/

namespace Verif.Spec

/-! ## Missing entries -/

/-- An artifact or a snippet of a file is missing. -/
def FileLacks (f : NFile) : Prop := none ∈ f.artifacts ∨ ∃ e ∈ f.snippets, e.2 = none

/-- A file of a list is missing or lacks something. -/
def FilesLack (l : List (Option NFile)) : Prop := none ∈ l ∨ ∃ f, some f ∈ l ∧ FileLacks f

/-- An external reference or a file of a package is missing, or a file lacks something. -/
def PackageLacks (p : NPackage) : Prop := none ∈ p.externalRefs ∨ FilesLack p.files

/-- Anything in the document is missing that a list of the document has an entry for. -/
def Lacks (n : NDoc) : Prop :=
  FilesLack n.files ∨ (none ∈ n.packages ∨ ∃ p, some p ∈ n.packages ∧ PackageLacks p) ∨ none ∈ n.otherLicenses ∨
    none ∈ n.relationships ∨ none ∈ n.annotations ∨ none ∈ n.reviews

/-- A plain file as one that may lack something. -/
def ofFile (f : FileV) : NFile :=
  { file := { f with artifactOfProjects := [], snippets := [] }
    artifacts := f.artifactOfProjects.map some
    snippets := f.snippets.map fun e => (e.1, some e.2) }

/-- A plain package as one that may lack something. -/
def ofPackage (p : PackageV) : NPackage :=
  { pkg := { p with externalRefs := [], files := [] }
    externalRefs := p.externalRefs.map some
    files := p.files.map fun f => some (ofFile f) }

/-- A plain document as one that may lack something. -/
def ofDoc (d : Doc) : NDoc :=
  { doc := { d with packages := [], files := [], otherLicenses := [], relationships := [], annotations := [], reviews := [] }
    packages := d.packages.map fun p => some (ofPackage p)
    files := d.files.map fun f => some (ofFile f)
    otherLicenses := d.otherLicenses.map some
    relationships := d.relationships.map some
    annotations := d.annotations.map some
    reviews := d.reviews.map some }

/-- The snippets of a file are a map. -/
def SnippetMap (f : NFile) : Prop := (f.snippets.map Prod.fst).Nodup

/-- So are those of every file of the document. -/
def SnippetMaps (n : NDoc) : Prop :=
  (∀ f, some f ∈ n.files → SnippetMap f) ∧ ∀ p, some p ∈ n.packages → ∀ f, some f ∈ p.files → SnippetMap f

/-- Sorting only looks at the keys, as `sort.Slice` does, which sees no more than the outcome of comparisons. -/
def Blind (so : Sorter) : Prop :=
  ∀ {α β : Type} (f : α → β) (key : β → Str) (l : List α), so.run key (l.map f) = (so.run (key ∘ f) l).map f

/-! ## What JSON keeps -/

/-- The plain part of a file has no artifacts and snippets of its own. -/
def ProperFile (f : NFile) : Prop := f.file.artifactOfProjects = [] ∧ f.file.snippets = []

/-- The same for a package. -/
def ProperPackage (p : NPackage) : Prop :=
  p.pkg.externalRefs = [] ∧ p.pkg.files = [] ∧ ∀ f, some f ∈ p.files → ProperFile f

/-- The same for a document. -/
structure Proper (n : NDoc) : Prop where
  empty : n.doc.packages = [] ∧ n.doc.files = [] ∧ n.doc.otherLicenses = [] ∧ n.doc.relationships = [] ∧ n.doc.annotations = [] ∧
    n.doc.reviews = []
  packages : ∀ p, some p ∈ n.packages → ProperPackage p
  files : ∀ f, some f ∈ n.files → ProperFile f

/-- The identifiers, agents and numbers of what is there can be written in JSON, as in `JsonDocument`. -/
structure NJsonDocument (html : Bool) (n : NDoc) : Prop where
  rest : JsonDocument html n.doc
  packages : ∀ p, some p ∈ n.packages → JsonPackage html p.pkg ∧ ∀ f, some f ∈ p.files → JsonFile html f.file
  files : ∀ f, some f ∈ n.files → JsonFile html f.file
  relationships : ∀ r, some r ∈ n.relationships → JsonRefIn html r.refA ∧ JsonRefIn html r.refB
  annotations : ∀ a, some a ∈ n.annotations → JsonAnnotation html a

/-- What JSON keeps of a file. -/
def nKeptFile (v : Version) (f : NFile) : NFile :=
  { file := keptFile v f.file, artifacts := if v = .v23 then f.artifacts else [], snippets := [] }

/-- What JSON keeps of a package. -/
def nKeptPackage (v : Version) (p : NPackage) : NPackage :=
  { pkg := keptPackage v p.pkg
    externalRefs := p.externalRefs.map (Option.map (keptRef v))
    files := p.files.map (Option.map (nKeptFile v)) }

/-- What JSON keeps of a document: missing entries stay, but for missing relationships from version 2.2 on. -/
def nKeptDoc (v : Version) (n : NDoc) : NDoc :=
  { doc := keptDoc v n.doc
    packages := n.packages.map (Option.map (nKeptPackage v))
    files := n.files.map (Option.map (nKeptFile v))
    otherLicenses := n.otherLicenses
    relationships := if v = .v21 then n.relationships else n.relationships.filter (·.isSome)
    annotations := n.annotations.map (Option.map keptAnnotation)
    reviews := [] }

/-! ## What JSON says -/

/-- An object without some keys, in upper or lower case. -/
def without (keys : List Str) (es : List (Str × Json)) : List (Str × Json) :=
  es.filter fun e => !keys.any fun k => sameKey k e.1

/-- A list under a key whose entries are objects or `null`. -/
def HasOptions {β : Type} (es : List (Str × Json)) (key : Str) (says : List (Str × Json) → β → Prop) (unset : β)
    (l : List (Option β)) : Prop := Has es key (ListIs (OptionIs (ObjectIs says unset))) [] l

/-- A file.  Only version 2.3 has artifacts in JSON. -/
structure NFileIs (v : Version) (es : List (Str × Json)) (f : NFile) : Prop where
  rest : FileIs v (without [g!"artifactOfs"] es) f.file
  artifacts : if v = .v23 then HasOptions es g!"artifactOfs" ArtifactIs {} f.artifacts else f.artifacts = []
  snippets : f.snippets = []

/-- A package. -/
structure NPackageIs (v : Version) (es : List (Str × Json)) (p : NPackage) : Prop where
  rest : PackageIs v (without [g!"externalRefs", g!"files"] es) p.pkg
  externalRefs : HasOptions es g!"externalRefs" (ExternalRefIs v) {} p.externalRefs
  files : HasOptions es g!"files" (NFileIs v) {} p.files

/-- The relationships.  From version 2.2 on those that are `null` are left out, and the others are completed as in
`RelationshipsAre`. -/
def NRelationshipsAre (v : Version) (es : List (Str × Json)) (id : Str) (rels : List (Option Relationship)) : Prop :=
  ∃ own, HasOptions es g!"relationships" RelationshipIs {} own ∧
    if v = .v21 then rels = own
    else ∃ describes owners, Has es g!"documentDescribes" (ListIs RefIs) [] describes ∧
      HasOptions es g!"packages" HasFilesIs ([], []) owners ∧
      rels = (completed (own.filterMap fun o => o) (describes.map (ofElement id g!"DESCRIBES") ++
        (owners.filterMap fun o => o).flatMap fun o => o.2.map (ofElement o.1 g!"CONTAINS"))).map some

/-- A document. -/
structure NDocumentIs (v : Version) (es : List (Str × Json)) (n : NDoc) : Prop where
  rest : DocumentIs v (without [g!"packages", g!"files", g!"hasExtractedLicensingInfos", g!"relationships", g!"annotations",
    g!"documentDescribes"] es) n.doc
  packages : HasOptions es g!"packages" (NPackageIs v) {} n.packages
  files : HasOptions es g!"files" (NFileIs v) {} n.files
  licenses : HasOptions es g!"hasExtractedLicensingInfos" LicenseIs {} n.otherLicenses
  relationships : NRelationshipsAre v es n.doc.spdxId n.relationships
  annotations : HasOptions es g!"annotations" AnnotationIs {} n.annotations
  reviews : n.reviews = []

end Verif.Spec
