import Verif.Lemmas.WriteRead
import Verif.Lemmas.SimDoc
import Verif.Spec.Outline

/-!
# The writer never prints an empty package name
-/

namespace Verif
open Spec

/-- An item that does not print an empty package name. -/
def NamedItem (i : Item) : Prop := ∀ p ∈ i.pairs, p.tag = g!"PackageName" → p.value ≠ []

/-- All items of a list are such. -/
def Named (is : List Item) : Prop := ∀ i ∈ is, NamedItem i

theorem named_nil : Named [] := by simp [Named]
theorem named_append {a b : List Item} : Named (a ++ b) ↔ Named a ∧ Named b := by
  simp only [Named, List.mem_append]
  exact ⟨fun h => ⟨fun i hi => h i (.inl hi), fun i hi => h i (.inr hi)⟩, fun h i hi => hi.elim (h.1 i) (h.2 i)⟩
theorem named_cons {a : Item} {b : List Item} : Named (a :: b) ↔ NamedItem a ∧ Named b := by
  simp [Named]
theorem named_opt {t v : Str} : Named (opt t v) := by
  unfold opt; split <;> simp_all [Named, NamedItem, Item.pairs]
theorem named_optText {t v : Str} (h : t ≠ g!"PackageName") : Named (optText t v) := by
  unfold optText; split <;> simp [Named, NamedItem, Item.pairs, h]
theorem named_optId {t v : Str} (h : t ≠ g!"PackageName") : Named (optId t v) := by
  unfold optId; split <;> simp [Named, NamedItem, Item.pairs, h]
theorem named_each {t : Str} {l : List Str} (h : t ≠ g!"PackageName") : Named (each t l) := by
  simp [each, Named, NamedItem, Item.pairs, h]
theorem named_eachText {t : Str} {l : List Str} (h : t ≠ g!"PackageName") : Named (eachText t l) := by
  simp [eachText, Named, NamedItem, Item.pairs, h]
theorem named_eachChecksum {t : Str} {l : List Checksum} (h : t ≠ g!"PackageName") : Named (eachChecksum t l) := by
  simp [eachChecksum, Named, NamedItem, Item.pairs, h]
theorem named_flatMap {α : Type} {l : List α} {g : α → List Item} (h : ∀ a ∈ l, Named (g a)) :
    Named (l.flatMap g) := by
  intro i hi
  obtain ⟨a, ha, hi⟩ := List.mem_flatMap.1 hi
  exact h a ha i hi
theorem named_map {α : Type} {l : List α} {t : Str} {g : α → Str} (h : t ≠ g!"PackageName") :
    Named (l.map fun a => .field t (g a)) := by
  simp [Named, NamedItem, Item.pairs, h]
theorem named_field {t v : Str} (h : t ≠ g!"PackageName") : Named [.field t v] := by
  simp [Named, NamedItem, Item.pairs, h]
theorem named_ite {c : Prop} [Decidable c] {a b : List Item} (h1 : Named a) (h2 : Named b) :
    Named (if c then a else b) := by split <;> assumption
theorem named_blank : Named [.line []] := by simp [Named, NamedItem, Item.pairs]
theorem named_heading {α : Type} (l : List α) (t : Str) : Named (heading l ('#' :: t)) := by
  unfold heading; split <;> simp [Named, NamedItem, Item.pairs]

/-- Discharges `Named` goals. -/
macro "named" : tactic => `(tactic|
  repeat' (first
    | with_reducible refine named_append.2 ⟨?_, ?_⟩
    | with_reducible refine named_ite ?_ ?_
    | with_reducible exact named_nil | with_reducible exact named_blank | with_reducible exact named_heading _ _
    | with_reducible assumption
    | with_reducible exact named_opt
    | (with_reducible refine named_optText ?_); decide
    | (with_reducible refine named_optId ?_); decide
    | (with_reducible refine named_each ?_); decide
    | (with_reducible refine named_eachText ?_); decide
    | (with_reducible refine named_eachChecksum ?_); decide
    | (with_reducible refine named_field ?_); decide
    | (with_reducible refine named_map ?_); decide))

theorem named_creationInfo (c : CreationInfo) : Named (renderCreationInfo c) := by
  unfold renderCreationInfo; named

theorem named_range (r : SnippetRange) : Named (renderRange r) := by
  unfold renderRange; named

theorem named_snippet (v : Version) (s : Snippet) : Named (renderSnippet v s) := by
  unfold renderSnippet
  have := named_flatMap (l := s.ranges) fun r _ => named_range r
  named

theorem named_artifact (a : ArtifactOfProject) : Named (renderArtifact a) := by
  unfold renderArtifact; named

theorem named_file (v : Version) (so : Sorter) (f : FileV) : Named (renderFile v so f) := by
  unfold renderFile renderFileFields
  have := named_flatMap (l := f.artifactOfProjects) fun r _ => named_artifact r
  have := named_flatMap (l := snippetsInOrder so f) fun r _ => named_snippet v r
  named

theorem named_externalRef (r : PackageExternalRef) : Named (renderExternalRef r) := by
  unfold renderExternalRef; named

theorem named_package (v : Version) (so : Sorter) (p : PackageV) : Named (renderPackageGroup v so p) := by
  unfold renderPackageGroup renderPackage renderPackageFields
  have h1 := named_flatMap (l := p.externalRefs) fun r _ => named_externalRef r
  have h2 := named_flatMap (l := (sortPackageFiles so p).files) fun r _ => named_file v so r
  have h3 : Named (renderSupplier p.supplier) := by unfold renderSupplier; split <;> named
  have h4 : Named (renderOriginator p.originator) := by unfold renderOriginator; split <;> named
  have h5 : Named (renderFilesAnalyzed p.filesAnalyzed p.filesAnalyzedTagPresent) := by
    unfold renderFilesAnalyzed; named
  have h6 : Named (renderVerificationCode p.filesAnalyzed p.verificationCode) := by
    unfold renderVerificationCode; split <;> named
  have h7 : Named [.line (g!"##### Package: " ++ p.name), .line []] := by simp [Named, NamedItem, Item.pairs]
  named

theorem named_otherLicense (l : OtherLicense) : Named (renderOtherLicense l) := by
  unfold renderOtherLicense; named
theorem named_relationship (l : Relationship) : Named (renderRelationship l) := by
  unfold renderRelationship; named
theorem named_annotation (l : Annotation) : Named (renderAnnotation l) := by
  unfold renderAnnotation; named
theorem named_review (l : Review) : Named (renderReview l) := by
  unfold renderReview; named

theorem packagesNamed_body (v : Version) (so : Sorter) (d : Doc) (ci : CreationInfo) : Named (renderBody v so d ci) := by
  unfold renderBody renderHeader renderTail renderRelationships
  have h0 := named_creationInfo ci
  have h1 := named_flatMap (l := so.run (·.documentRefID) d.externalDocumentRefs) (g := renderExternalDocRef)
    fun r _ => by unfold renderExternalDocRef; named
  have h2 := named_flatMap (l := so.run (·.spdxId) d.files) fun r _ => named_file v so r
  have h3 := named_flatMap (l := so.run (·.spdxId) d.packages) fun r _ => named_package v so r
  have h4 := named_flatMap (l := d.otherLicenses) fun r _ => named_otherLicense r
  have h5 := named_flatMap (l := d.relationships) fun r _ => named_relationship r
  have h6 := named_flatMap (l := d.annotations) (g := fun a => renderAnnotation a ++ [.line []])
    fun r _ => named_append.2 ⟨named_annotation r, named_blank⟩
  have h7 := named_flatMap (l := d.reviews) fun r _ => named_review r
  named

theorem packagesNamed_pairs {is : List Item} (h : Named is) : PackagesNamed (pairsOf is) := by
  intro p hp
  obtain ⟨i, hi, hp⟩ := List.mem_flatMap.1 hp
  exact h i hi p hp

end Verif
