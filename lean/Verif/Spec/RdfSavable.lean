import Verif.Spec.RdfRead
import Verif.Spec.JsonDoc
import Verif.Model.JsonDoc

/-!
# Specification: RDF graphs whose documents can be saved as JSON

Read off the statements of the graph alone.  The names of elements, and agents, are written in JSON as they are; what
is needed is given; all else is arbitrary.
-/

namespace Verif.Spec.Rdf

/-- A text that JSON writes as it is. -/
def Carried (html : Bool) (x : Str) : Prop := Plain x ∧ HtmlSafe html x

/-- The name of an element: no prefix is repeated in it. -/
structure CarriedName (html : Bool) (x : Str) : Prop where
  carried : Carried html x
  element : contains g!"SPDXRef-SPDXRef-" x = false
  document : contains g!"DocumentRef-DocumentRef-" x = false

/-- An agent with a name. -/
def CarriedAgent (html : Bool) (x : Str) : Prop := Carried html x ∧ ∀ kind name, ColonPair x kind name → name ≠ []

/-- A supplier or originator with a name, which is not NOASSERTION if there is a kind. -/
def CarriedParty (html : Bool) (x : Str) : Prop :=
  Carried html x ∧ ∀ kind name, ColonPair (trimSpace x) kind name → name ≠ [] ∧ name ≠ g!"NOASSERTION"

/-- A node with a statement of this property. -/
def Given (g : Graph) (n : RNode) (p : Pred) : Prop := ∃ t ∈ g.of n, t.pred = p

/-- A graph whose document can be saved as JSON. -/
structure SavableGraph (html : Bool) (g : Graph) : Prop where
  document : ∀ n, IsDocumentNode g n → CarriedName html n.id ∧
    ∀ a b, n.id = a ++ '#' :: b → '#' ∉ a → trimSpace b ≠ [] ∧ trimSpace b ≠ g!"SPDXRef-"
  file : ∀ x, UsedAsFile g x → CarriedName html x
  package : ∀ x, UsedAsPackage g x → CarriedName html x
  related : ∀ t ∈ g.triples, t.pred = .relationship → CarriedName html t.subject.id ∧ Given g t.object .relatedSpdxElement
  relatedTo : ∀ t ∈ g.triples, t.pred = .relatedSpdxElement → CarriedName html t.object.id
  external : ∀ t ∈ g.triples, t.pred = .externalDocumentRef → Given g t.object .externalDocumentId
  externalId : ∀ t ∈ g.triples, t.pred = .externalDocumentId →
    CarriedName html t.object.id ∧ t.object.id ≠ [] ∧ t.object.id ≠ g!"DocumentRef-"
  annotation : ∀ t ∈ g.triples, t.pred = .annotation → Given g t.object .annotator
  annotator : ∀ t ∈ g.triples, t.pred = .annotator → CarriedAgent html t.object.id
  creator : ∀ t ∈ g.triples, t.pred = .creator → CarriedAgent html t.object.id
  supplier : ∀ t ∈ g.triples, t.pred = .supplier → CarriedParty html t.object.id
  originator : ∀ t ∈ g.triples, t.pred = .originator → CarriedParty html t.object.id

/-- The document states its version, and no other. -/
def StatesVersion (g : Graph) (v : Version) : Prop :=
  (∀ t ∈ g.triples, t.pred = .specVersion → t.object.id = versionName v) ∧
  ∀ n, IsDocumentNode g n → Given g n .specVersion

/-! What comes back. -/

/-- Without the prefix. -/
def bare (pre id : Str) : Str := if hasPrefix pre id then id.drop pre.length else id

/-- The snippets of a file are lost; before 2.3 also its artifacts and dependencies. -/
def leftFile (v : Version) (f : FileV) : FileV :=
  { f with
    snippets := []
    artifactOfProjects := if v = .v23 then f.artifactOfProjects else []
    dependencies := if v = .v23 then f.dependencies else [] }

/-- The document after it was saved as JSON: snippets and reviews are lost, files-analyzed is present (JSON of 2.1 does not tell), and the prefixes
of the identifiers of the document and of external documents, which RDF keeps, are gone. -/
def leftInJson (v : Version) (d : Doc) : Doc :=
  { d with
    spdxId := bare g!"SPDXRef-" d.spdxId
    externalDocumentRefs := d.externalDocumentRefs.map fun r => { r with documentRefID := bare g!"DocumentRef-" r.documentRefID }
    packages := d.packages.map fun p => { p with filesAnalyzedTagPresent := decide (v ≠ .v21), files := p.files.map (leftFile v) }
    files := d.files.map (leftFile v)
    reviews := [] }

end Verif.Spec.Rdf
