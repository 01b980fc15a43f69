import Verif.Spec.RdfExact

/-!
# Which names the relationships of a graph can use
-/

namespace Verif.Spec.Rdf

/-- A package that belongs to the document contains a file of that name. -/
def InsidePackage (g : Graph) (id : Str) : Prop :=
  ∃ n t, Leads g (.package n) ∧ t ∈ g.of n ∧ t.pred = .hasFile ∧ FileIdOf t.object.id id

/-- The name of the document, of one of its packages, or of one of its files that is in no package. -/
def NamedInGraph (g : Graph) (id : Str) : Prop :=
  id = g!"DOCUMENT" ∨ (∃ n, Leads g (.package n) ∧ PackageIdOf n.id id) ∨
    ((∃ n, Leads g (.file n) ∧ FileIdOf n.id id) ∧ ¬ InsidePackage g id)

/-- Both ends of the relationship that the statement introduces are named in the graph: its subject, and the last value of
`relatedSpdxElement`. -/
def EndsNamed (g : Graph) (t : Triple) : Prop :=
  (∀ x, ReferenceSays t.subject x → NamedInGraph g x.elementRefID) ∧
    ∀ x, LastOf (RelatedSays g) {} (vals (g.of t.object) .relatedSpdxElement) x → NamedInGraph g x.elementRefID

end Verif.Spec.Rdf
