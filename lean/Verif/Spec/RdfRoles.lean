import Verif.Model.Rdf

/-!
# What the nodes of an RDF graph are used as
-/

namespace Verif.Spec

/-- Some statement has one of the properties and the node as its value. -/
def UsedBy (g : Graph) (ps : List Pred) (id : Str) : Prop := ∃ t ∈ g.triples, t.pred ∈ ps ∧ t.object.id = id

/-- Some relationship is to the node, which has the class. -/
def RelatedAs (g : Graph) (c : Cls) (id : Str) : Prop :=
  ∃ t ∈ g.triples, t.pred = .relatedSpdxElement ∧ t.object.id = id ∧
    ∃ u ∈ g.triples, u.subject = t.object ∧ u.pred = .type_ ∧ Cls.ofStr u.object.id = c

/-- A statement refers to the node as to a file or package. -/
def IsReferred (g : Graph) (n : RNode) : Prop :=
  ∃ t ∈ g.triples, t.pred ∈ [.hasFile, .fileDependency, .snippetFromFile, .reference, .describesPackage, .relatedSpdxElement] ∧
    t.object = n

/-- The node is used as a file: of a package, as a dependency, of a snippet or a range, or in a relationship. -/
def UsedAsFile (g : Graph) (id : Str) : Prop :=
  UsedBy g [.hasFile, .fileDependency, .snippetFromFile, .reference] id ∨ RelatedAs g .file id

/-- The node is used as a package: of the document or in a relationship. -/
def UsedAsPackage (g : Graph) (id : Str) : Prop := UsedBy g [.describesPackage] id ∨ RelatedAs g .package id

/-- The node is used as a license. -/
def UsedAsLicense (g : Graph) (id : Str) : Prop :=
  UsedBy g [.licenseConcluded, .licenseInfoInFile, .licenseDeclared, .dataLicense, .licenseInfoInSnippet, .member] id

/-- The node is used as a relationship. -/
def UsedAsRelationship (g : Graph) (id : Str) : Prop := UsedBy g [.relationship] id

/-- Nodes used as files or packages are used as nothing else. -/
structure OneRole (g : Graph) : Prop where
  file : ∀ id, UsedAsFile g id → ¬ UsedAsPackage g id ∧ ¬ UsedAsLicense g id ∧ ¬ UsedAsRelationship g id
  package : ∀ id, UsedAsPackage g id → ¬ UsedAsLicense g id ∧ ¬ UsedAsRelationship g id

/-- Every root of the graph has a class. -/
def RootsTyped (g : Graph) : Prop := ∀ r ∈ g.roots, ∃ t ∈ g.triples, t.subject = r ∧ t.pred = .type_

/-- The node is a root of the graph and is said to be the document. -/
def IsDocumentNode (g : Graph) (n : RNode) : Prop :=
  n ∈ g.roots ∧ ∃ u ∈ g.triples, u.subject = n ∧ u.pred = .type_ ∧ Cls.ofStr u.object.id = .spdxDocument

/-- The name of a node ends in SPDXRef- and the identifier, after its last # or, if it has none, its last /. -/
def NamesElement (node id : Str) : Prop :=
  id ≠ [] ∧ ':' ∉ id ∧ ∃ pre, node = pre ++ g!"SPDXRef-" ++ id ∧
    (('#' ∉ id ∧ ∃ p, pre = p ++ ['#']) ∨ ('#' ∉ node ∧ '/' ∉ id ∧ (pre = [] ∨ ∃ p, pre = p ++ ['/'])))

/-- The identifier of a file in the document. -/
def FileIdOf (node id : Str) : Prop := extractElementID (lastPart (trimSpace node)) = .ok id

/-- The identifier of a package in the document. -/
def PackageIdOf (node id : Str) : Prop := extractElementID (lastPart node) = .ok id

/-- Different files have different identifiers in the document, and so have packages. -/
structure DistinctNames (g : Graph) : Prop where
  file : ∀ x y id, UsedAsFile g x → UsedAsFile g y → FileIdOf x id → FileIdOf y id → x = y
  package : ∀ x y id, UsedAsPackage g x → UsedAsPackage g y → PackageIdOf x id → PackageIdOf y id → x = y

end Verif.Spec
