import Verif.Spec.NilEntries
import Verif.Spec.SameDoc

/-!
# Specification: documents whose missing entries are filled in, and documents up to a missing entry

Specification of C92.
-/

namespace Verif.Spec

/-- A list without missing entries: at the places of those that were there, what was there (in the sense of `R`); at the
other places anything. -/
def Filled {α β : Type} (R : α → β → Prop) (l : List (Option α)) (m : List β) : Prop :=
  Pointwise (fun o b => ∀ a, o = some a → R a b) l m

/-- A file with its missing artifacts and snippets filled in. -/
def FilledFile (n : NFile) (f : FileV) : Prop :=
  f = { n.file with artifactOfProjects := f.artifactOfProjects, snippets := f.snippets } ∧
  Filled Eq n.artifacts f.artifactOfProjects ∧
  Pointwise (fun o b => o.1 = b.1 ∧ ∀ a, o.2 = some a → a = b.2) n.snippets f.snippets

/-- A package with its missing references and files filled in. -/
def FilledPackage (n : NPackage) (p : PackageV) : Prop :=
  p = { n.pkg with externalRefs := p.externalRefs, files := p.files } ∧
  Filled Eq n.externalRefs p.externalRefs ∧ Filled FilledFile n.files p.files

/-- `d` says nothing else about itself than `n` does. -/
def SameHead (n : NDoc) (d : Doc) : Prop :=
  d = { n.doc with packages := d.packages, files := d.files, otherLicenses := d.otherLicenses, relationships := d.relationships,
                   annotations := d.annotations, reviews := d.reviews }

/-- A document with all that is missing filled in somehow. -/
structure FilledDoc (n : NDoc) (d : Doc) : Prop where
  doc : SameHead n d
  packages : Filled FilledPackage n.packages d.packages
  files : Filled FilledFile n.files d.files
  otherLicenses : Filled Eq n.otherLicenses d.otherLicenses
  relationships : Filled Eq n.relationships d.relationships
  annotations : Filled Eq n.annotations d.annotations
  reviews : Filled Eq n.reviews d.reviews

/-- The files, if nothing of them is missing. -/
def WholeFiles (l : List (Option NFile)) (m : List FileV) : Prop := l = m.map fun f => some (ofFile f)

/-- The packages, if nothing of them is missing. -/
def WholePackages (l : List (Option NPackage)) (m : List PackageV) : Prop := l = m.map fun p => some (ofPackage p)

/-- A part of the document before the first missing entry, in the order of the sections of the text: files, packages,
licenses, relationships, annotations, reviews.  A section is there only if those before it are complete. -/
structure PartBefore (n : NDoc) (d : Doc) : Prop where
  doc : SameHead n d
  files : d.files = [] ∨ WholeFiles n.files d.files
  packages : d.packages = [] ∨ (WholeFiles n.files d.files ∧ WholePackages n.packages d.packages)
  otherLicenses : d.otherLicenses = [] ∨ (WholeFiles n.files d.files ∧ WholePackages n.packages d.packages ∧
    d.otherLicenses.map some <+: n.otherLicenses)
  relationships : d.relationships = [] ∨ (WholeFiles n.files d.files ∧ WholePackages n.packages d.packages ∧
    n.otherLicenses = d.otherLicenses.map some ∧ d.relationships.map some <+: n.relationships)
  annotations : d.annotations = [] ∨ (WholeFiles n.files d.files ∧ WholePackages n.packages d.packages ∧
    n.otherLicenses = d.otherLicenses.map some ∧ n.relationships = d.relationships.map some ∧ d.annotations.map some <+: n.annotations)
  reviews : d.reviews = [] ∨ (WholeFiles n.files d.files ∧ WholePackages n.packages d.packages ∧
    n.otherLicenses = d.otherLicenses.map some ∧ n.relationships = d.relationships.map some ∧
    n.annotations = d.annotations.map some ∧ d.reviews.map some <+: n.reviews)

end Verif.Spec
