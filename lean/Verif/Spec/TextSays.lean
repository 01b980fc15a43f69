import Verif.Spec.LegalText

/-!
# Specification: what a tag-value text says

All of it: the document itself and the package, file and snippet sections.  The snippets of a file are a map,
which has no order.
-/

namespace Verif.Spec

/-- `d` is the document the pairs `tvs` describe. -/
structure TextSays (v : Version) (tvs : List TVPair) (d : Doc) : Prop where
  document : DocumentSays v tvs d
  files : Pointwise (FileSectionSays v) (listed FileSec.pairs (sectionsOf tvs).files) d.files
  packages : Pointwise (PackageSectionSays v) (listed PackageSec.pairs (sectionsOf tvs).packages) d.packages

/-- The same package up to the order of the snippet maps. -/
def SamePackageMaps (p q : PackageV) : Prop := q = { p with files := q.files } ∧ Pointwise SameFile p.files q.files

/-- The same document up to the order of the snippet maps, whose order does not count. -/
structure SameMaps (d e : Doc) : Prop where
  rest : e = { d with packages := e.packages, files := e.files }
  files : Pointwise SameFile d.files e.files
  packages : Pointwise SamePackageMaps d.packages e.packages

end Verif.Spec
