import Verif.Spec.RdfLegal

/-!
# A document that has what its graph leads to, and nothing else
-/

namespace Verif.Spec.Rdf

/-- The file is the one that the node describes; it may be read several times, and its lists are then filled several times. -/
def FileOf (v : Version) (g : Graph) (n : RNode) (f : FileV) : Prop :=
  FileIdOf n.id f.spdxId ∧ ∃ k, 1 ≤ k ∧ FileSays v g (List.replicate k (g.of n)).flatten f

/-- The package is the one that the node describes. -/
def PackageOf (v : Version) (g : Graph) (n : RNode) (p : PackageV) : Prop :=
  PackageIdOf n.id p.spdxId ∧ ∃ k, 1 ≤ k ∧ PackageSays v g (fun m f => FileIdOf m.id f.spdxId) (List.replicate k (g.of n)).flatten p

/-- The document has the files, packages, relationships and annotations that it and its snippets lead to, and no others. -/
structure HasExactly (v : Version) (g : Graph) (d : Doc) : Prop where
  files : ∀ f ∈ allFiles d, ∃ n, Leads g (.file n) ∧ FileOf v g n f
  everyFile : ∀ n, Leads g (.file n) → ∃ f ∈ allFiles d, FileOf v g n f
  packages : ∀ p ∈ d.packages, ∃ n, Leads g (.package n) ∧ PackageOf v g n p
  everyPackage : ∀ n, Leads g (.package n) → ∃ p ∈ d.packages, PackageOf v g n p
  relationships : ∀ r ∈ d.relationships, ∃ t, Leads g (.relationship t) ∧ RelationshipSays g t.subject (g.of t.object) r
  everyRelationship : ∀ t, Leads g (.relationship t) → ∃ r ∈ d.relationships, RelationshipSays g t.subject (g.of t.object) r
  annotations : ∀ a ∈ d.annotations, ∃ n, Annotatable g n ∧ ∃ t ∈ g.of n, t.pred = .annotation ∧ AnnotationSays (g.of t.object) a
  everyAnnotation : ∀ n, Annotatable g n → ∀ t ∈ g.of n, t.pred = .annotation → ∃ a ∈ d.annotations, AnnotationSays (g.of t.object) a

end Verif.Spec.Rdf
