import Verif.Spec.RdfSnippets
import Verif.Spec.Parsed

/-!
# What a document that was read from an RDF graph contains
-/

namespace Verif.Spec.Rdf

/-- Nodes that files and packages are referred to by are told apart by their names. -/
def NamedNodes (g : Graph) : Prop := ∀ t ∈ g.triples, ∀ n, IsReferred g n → t.subject.id = n.id → t.subject = n

/-- A statement is about the node. -/
def IsSubject (g : Graph) (n : RNode) : Prop := ∃ t ∈ g.triples, t.subject = n

/-- A relationship belongs to one element. -/
def OneOwner (g : Graph) : Prop :=
  ∀ t ∈ g.triples, ∀ u ∈ g.triples, t.pred = .relationship → u.pred = .relationship → t.object.id = u.object.id → t = u

/-- The node is the document, or a file or package of it. -/
def InDocument (g : Graph) (d : Doc) (n : RNode) : Prop :=
  IsDocumentNode g n ∨ (UsedAsFile g n.id ∧ ∃ f ∈ allFiles d, FileIdOf n.id f.spdxId) ∨
    (UsedAsPackage g n.id ∧ ∃ p ∈ d.packages, PackageIdOf n.id p.spdxId)

/-- Snippets have different identifiers. -/
def DistinctSnippets (g : Graph) : Prop :=
  ∀ n m id, IsSnippetNode g n → IsSnippetNode g m → PackageIdOf n.id id → PackageIdOf m.id id → n = m

/-- A file is what the statements `ts` about its node say.  The node `x` may be read several times. -/
def FileFrom (v : Version) (g : Graph) (f : FileV) (x : Str) (ts : List Triple) : Prop :=
  UsedAsFile g x ∧ FileIdOf x f.spdxId ∧ (∃ ns : List RNode, ns ≠ [] ∧ (∀ n ∈ ns, n.id = x ∧ IsReferred g n) ∧ ts = ns.flatMap g.of) ∧ FileSays v g ts f

/-- A package is what the statements `ts` about its node say; its files have the names of the nodes given for them. -/
def PackageFrom (v : Version) (g : Graph) (p : PackageV) (x : Str) (ts : List Triple) : Prop :=
  UsedAsPackage g x ∧ PackageIdOf x p.spdxId ∧ (∃ ns : List RNode, ns ≠ [] ∧ (∀ n ∈ ns, n.id = x ∧ IsReferred g n) ∧ ts = ns.flatMap g.of) ∧
    PackageSays v g (fun n f => FileIdOf n.id f.spdxId) ts p

/-- A relationship is what a statement and the statements about its node say. -/
def RelationshipFrom (g : Graph) (r : Relationship) (u : Triple) : Prop :=
  u ∈ g.triples ∧ u.pred = .relationship ∧ RelationshipSays g u.subject (g.of u.object) r

def AnnotationFrom (g : Graph) (a : Annotation) (u : Triple) : Prop :=
  u ∈ g.triples ∧ u.pred = .annotation ∧ AnnotationSays (g.of u.object) a

/-- The document contains what the statements refer to. -/
structure Told (g : Graph) (d : Doc) (ts : List Triple) : Prop where
  annotations : ∀ t ∈ ts, t.pred = .annotation → ∃ a ∈ d.annotations, AnnotationSays (g.of t.object) a
  relationships : ∀ t ∈ ts, t.pred = .relationship → ∃ r ∈ d.relationships, ∃ u, u.object.id = t.object.id ∧ RelationshipFrom g r u
  dependencies : ∀ t ∈ ts, t.pred = .fileDependency → ∃ f ∈ allFiles d, FileIdOf t.object.id f.spdxId

/-- The document contains the files and packages that relationships are to. -/
def Related (g : Graph) (d : Doc) (ts : List Triple) : Prop :=
  ∀ t ∈ ts, t.pred = .relatedSpdxElement → ∀ u, typeTriples (g.of t.object) t.object.id = [u] →
    (Cls.ofStr u.object.id = .file → ∃ f ∈ allFiles d, FileIdOf t.object.id f.spdxId) ∧
    (Cls.ofStr u.object.id = .package → ∃ p ∈ d.packages, PackageIdOf t.object.id p.spdxId)

end Verif.Spec.Rdf
