import Verif.Spec.NilPrint
import Verif.Spec.Words

/-!
# Specification: what comes before a gap inside a file or a package

Specification of C92_in_order: files and packages are printed in the order of their identifiers.
-/

namespace Verif.Spec

/-- No file is missing, and `m` are complete files whose identifiers come before those of all other files. -/
def SoonerFiles (l : List (Option NFile)) (m : List FileV) : Prop :=
  ∃ rest : List NFile,
    l.Perm ((m.map fun f => some (ofFile f)) ++ rest.map some) ∧
    (∀ f ∈ m, ∀ r ∈ rest, Before f.spdxId r.file.spdxId) ∧
    (m.map (·.spdxId)).Nodup

/-- A package of which no external reference is missing, with some of its files. -/
def BegunPackage (n : NPackage) (q : PackageV) : Prop :=
  q = { n.pkg with externalRefs := q.externalRefs, files := q.files } ∧
  n.externalRefs = q.externalRefs.map some ∧ SoonerFiles n.files q.files

/-- No package is missing, and `m` are complete packages whose identifiers come before those of all others, with or without
the next package as far as it is complete. -/
def SoonerPackages (l : List (Option NPackage)) (m : List PackageV) : Prop :=
  ∃ (whole : List PackageV) (next : Option (NPackage × PackageV)) (rest : List NPackage),
    m = whole ++ next.toList.map Prod.snd ∧
    l.Perm ((whole.map fun p => some (ofPackage p)) ++ (next.toList.map (fun e => some e.1) ++ rest.map some)) ∧
    (∀ e, next = some e → BegunPackage e.1 e.2) ∧
    (∀ e, next = some e → ∀ p ∈ whole, Before p.spdxId e.1.pkg.spdxId) ∧
    (∀ e, next = some e → ∀ r ∈ rest, Before e.1.pkg.spdxId r.pkg.spdxId) ∧
    (∀ p ∈ whole, ∀ r ∈ rest, Before p.spdxId r.pkg.spdxId) ∧
    (whole.map (·.spdxId)).Nodup

/-- A part of the document before a gap inside its files or packages. -/
structure SoonerDoc (n : NDoc) (d : Doc) : Prop where
  doc : SameHead n d
  sections : (SoonerFiles n.files d.files ∧ d.packages = []) ∨ (WholeFiles n.files d.files ∧ SoonerPackages n.packages d.packages)
  rest : d.otherLicenses = [] ∧ d.relationships = [] ∧ d.annotations = [] ∧ d.reviews = []

end Verif.Spec
