import Verif.Spec.RdfRead

/-!
# Which RDF graphs describe a document
-/

namespace Verif.Spec.Rdf

/-- A part of a document: a file or package by its node, a relationship by the statement that introduces it. -/
inductive Part where
  | file (n : RNode)
  | package (n : RNode)
  | relationship (t : Triple)

/-- The parts that the document and its snippets lead to. -/
inductive Leads (g : Graph) : Part → Prop
  | described {n t} : IsDocumentNode g n → t ∈ g.of n → t.pred = .describesPackage → Leads g (.package t.object)
  | ofDocument {n t} : IsDocumentNode g n → t ∈ g.of n → t.pred = .relationship → Leads g (.relationship t)
  | contained {n t} : Leads g (.package n) → t ∈ g.of n → t.pred = .hasFile → Leads g (.file t.object)
  | ofPackage {n t} : Leads g (.package n) → t ∈ g.of n → t.pred = .relationship → Leads g (.relationship t)
  | dependency {n t} : Leads g (.file n) → t ∈ g.of n → t.pred = .fileDependency → Leads g (.file t.object)
  | ofFile {n t} : Leads g (.file n) → t ∈ g.of n → t.pred = .relationship → Leads g (.relationship t)
  | relatedFile {u t c} : Leads g (.relationship u) → t ∈ g.of u.object → t.pred = .relatedSpdxElement →
      c ∈ g.of t.object → c.pred = .type_ → Cls.ofStr c.object.id = .file → Leads g (.file t.object)
  | relatedPackage {u t c} : Leads g (.relationship u) → t ∈ g.of u.object → t.pred = .relatedSpdxElement →
      c ∈ g.of t.object → c.pred = .type_ → Cls.ofStr c.object.id = .package → Leads g (.package t.object)
  | snippetFile {n t} : IsSnippetNode g n → t ∈ g.of n → t.pred = .snippetFromFile → Leads g (.file t.object)
  /-- The file of an end of a range, unless nothing is said about it. -/
  | rangeFile {n r p t u} : IsSnippetNode g n → r ∈ g.of n → r.pred = .range → p ∈ g.of r.object →
      (p.pred = .startPointer ∨ p.pred = .endPointer) → t ∈ g.of p.object → t.pred = .reference →
      Stated g t.object.id u → Leads g (.file t.object)

/-- The nodes whose annotations belong to the document. -/
inductive Annotatable (g : Graph) : RNode → Prop
  | document {n} : IsDocumentNode g n → Annotatable g n
  | file {n} : Leads g (.file n) → Annotatable g n
  | package {n} : Leads g (.package n) → Annotatable g n

/-- The graph describes one document, and everything that is said about each of its parts can be read as such a part. -/
structure Legal (v : Version) (g : Graph) : Prop where
  /-- Every root has one class. -/
  roots : ∀ r ∈ g.roots, ∃ t, g.triples.filter (fun t => t.subject.id = r.id && t.pred = .type_) = [t] ∧ t.subject = r
  document : ∃ n, IsDocumentNode g n ∧ (∀ m, IsDocumentNode g m → m = n) ∧ ∃ d : Doc, DocumentSays g n (g.of n) d
  files : ∀ n, Leads g (.file n) → ∃ f : FileV, FileIdOf n.id f.spdxId ∧ FileSays v g (g.of n) f
  packages : ∀ n, Leads g (.package n) → ∃ p : PackageV, PackageIdOf n.id p.spdxId ∧
    PackageSays v g (fun m f => FileIdOf m.id f.spdxId) (g.of n) p
  relationships : ∀ t, Leads g (.relationship t) → ∃ r, RelationshipSays g t.subject (g.of t.object) r
  annotations : ∀ n, Annotatable g n → ∀ t ∈ g.of n, t.pred = .annotation → ∃ a, AnnotationSays (g.of t.object) a
  /-- Every snippet is from a file, which it names like the file is named. -/
  snippets : ∀ n, IsSnippetNode g n → ∃ x, PackageIdOf n.id x.spdxId ∧ SnippetSays v g (g.of n) x ∧
    ∃ m ∈ vals (g.of n) .snippetFromFile, FileIdOf m.id x.fromFile

/-- Names of the files of snippets have no space around them. -/
def SnippetFilesTrimmed (g : Graph) : Prop := ∀ t ∈ g.triples, t.pred = .snippetFromFile → trimSpace t.object.id = t.object.id

/-- The first version that the graph gives is that of a format that can be read. -/
def SaysVersion (g : Graph) (v : Version) : Prop :=
  ∃ before t after, g.triples = before ++ t :: after ∧ (∀ u ∈ before, u.pred ≠ .specVersion) ∧ t.pred = .specVersion ∧
    ((v = .v22 ∧ t.object.id = g!"SPDX-2.2") ∨ (v = .v23 ∧ t.object.id = g!"SPDX-2.3"))

/-- Nodes used as licenses are not used as relationships. -/
def LicensesApart (g : Graph) : Prop := ∀ id, UsedAsLicense g id → ¬ UsedAsRelationship g id

end Verif.Spec.Rdf
