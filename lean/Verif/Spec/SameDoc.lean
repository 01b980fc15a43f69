import Verif.Model.Types

/-!
# Specification: the same document up to order

Two documents with the same content, where packages, files, external document references and the
entries of the snippet map may come in a different order.
-/

namespace Verif.Spec

/-- Two lists of the same length, related element by element. -/
inductive Pointwise {α β : Type} (R : α → β → Prop) : List α → List β → Prop where
  | nil : Pointwise R [] []
  | cons {a b l m} : R a b → Pointwise R l m → Pointwise R (a :: l) (b :: m)

/-- The same file; the snippet map may list its entries in another order. -/
def SameFile (f g : FileV) : Prop :=
  g = { f with snippets := g.snippets } ∧ f.snippets.Perm g.snippets

/-- The same files in some order. -/
def SameFiles (l m : List FileV) : Prop := ∃ l', l.Perm l' ∧ Pointwise SameFile l' m

/-- The same package; its files may come in another order. -/
def SamePackage (p q : PackageV) : Prop := q = { p with files := q.files } ∧ SameFiles p.files q.files

/-- The same packages in some order. -/
def SamePackages (l m : List PackageV) : Prop := ∃ l', l.Perm l' ∧ Pointwise SamePackage l' m

/-- The same document up to the order of packages, files and external document references. -/
structure SameDoc (d e : Doc) : Prop where
  /-- every other field is equal, including the order of the other lists -/
  rest : e = { d with externalDocumentRefs := e.externalDocumentRefs, packages := e.packages, files := e.files }
  refs : d.externalDocumentRefs.Perm e.externalDocumentRefs
  files : SameFiles d.files e.files
  packages : SamePackages d.packages e.packages

/-- Listed in increasing order of a key. -/
def SortedBy {α : Type} (key : α → Str) (l : List α) : Prop := l.Pairwise fun a b => strLe (key a) (key b) = true

/-- The order in which documents are written: references, packages and files by identifier, the
snippets of a file by identifier. -/
structure InOrder (d : Doc) : Prop where
  refs : SortedBy (·.documentRefID) d.externalDocumentRefs
  files : SortedBy (·.spdxId) d.files
  packages : SortedBy (·.spdxId) d.packages
  packageFiles : ∀ p ∈ d.packages, SortedBy (·.spdxId) p.files
  snippets : ∀ f ∈ d.files ++ d.packages.flatMap (·.files), SortedBy (·.1) f.snippets

/-- Identifiers that decide the order are distinct: references, packages, unpackaged files, the files
of a package; the keys of a snippet map always are. -/
structure DistinctIds (d : Doc) : Prop where
  refs : (d.externalDocumentRefs.map (·.documentRefID)).Nodup
  files : (d.files.map (·.spdxId)).Nodup
  packages : (d.packages.map (·.spdxId)).Nodup
  packageFiles : ∀ p ∈ d.packages, (p.files.map (·.spdxId)).Nodup
  snippets : ∀ f ∈ d.files ++ d.packages.flatMap (·.files), (f.snippets.map (·.1)).Nodup

end Verif.Spec
