import Verif.Lemmas.WriteRead
import Verif.Lemmas.Composite

/-!
# The items written for a representable document are clean
-/

namespace Verif
open Spec

/-- All items of a list are clean. -/
def Clean (is : List Item) : Prop := ∀ i ∈ is, CleanItem i

theorem clean_nil : Clean [] := by simp [Clean]
theorem clean_append {a b : List Item} (ha : Clean a) (hb : Clean b) : Clean (a ++ b) := by
  intro i hi
  rcases List.mem_append.1 hi with hi | hi
  · exact ha i hi
  · exact hb i hi
theorem clean_opt {t v : Str} (h : OneLine v) : Clean (opt t v) := by
  unfold opt; split <;> simp [Clean, CleanItem, h]
theorem clean_optText {t v : Str} (h : GoodValue v) : Clean (optText t v) := by
  unfold optText; split <;> simp [Clean, CleanItem, h]
theorem clean_optId {t v : Str} (h : v = [] ∨ Ident v) : Clean (optId t v) := by
  unfold optId
  split
  · exact clean_nil
  · rename_i hv
    have := line1_renderElementID (h.resolve_left hv).1
    simp [Clean, CleanItem, this.2]
theorem clean_each {t : Str} {l : List Str} (h : ∀ x ∈ l, OneLine x) : Clean (each t l) := by
  simpa [each, Clean, CleanItem] using h
theorem clean_eachText {t : Str} {l : List Str} (h : ∀ x ∈ l, GoodValue x) : Clean (eachText t l) := by
  simpa [eachText, Clean, CleanItem] using h
theorem clean_map {α : Type} {t : Str} {l : List α} {g : α → Str} (h : ∀ x ∈ l, OneLine (g x)) :
    Clean (l.map fun a => .field t (g a)) := by
  simpa [Clean, CleanItem] using h
theorem clean_eachChecksum {v : Version} {t : Str} {l : List Checksum} (h : ∀ x ∈ l, RepChecksum v x) :
    Clean (eachChecksum t l) :=
  clean_map fun c hc => (line1_pairValue (algorithm_line1 (h c hc).1).1 (h c hc).2).2
theorem clean_flatMap {α : Type} {l : List α} {g : α → List Item} (h : ∀ a ∈ l, Clean (g a)) :
    Clean (l.flatMap g) := by
  intro i hi
  obtain ⟨a, ha, hi⟩ := List.mem_flatMap.1 hi
  exact h a ha i hi
theorem clean_field {t v : Str} (h : OneLine v) : Clean [.field t v] := by
  simpa [Clean, CleanItem] using h
theorem clean_ite {c : Prop} [Decidable c] {a b : List Item} (h1 : c → Clean a) (h2 : Clean b) :
    Clean (if c then a else b) := by
  split
  · exact h1 (by assumption)
  · exact h2
theorem clean_blank : Clean [.line []] := by simp [Clean, CleanItem]
theorem clean_heading {α : Type} (l : List α) {t : Str} (h : '\n' ∉ t) : Clean (heading l t) := by
  unfold heading; split <;> simp [Clean, CleanItem, h]

theorem line1_agent {k x : Str} (h : RepAgent k x) : OneLine (pairValue k x) :=
  (line1_pairValue (kind_line1 h.1).1.1 h.2).2

/-- Splits appends and closes what hypotheses of the context decide. -/
macro "clean" : tactic => `(tactic|
  repeat' (first
    | with_reducible assumption
    | with_reducible refine clean_append ?_ ?_
    | with_reducible exact clean_nil | with_reducible exact clean_blank
    | with_reducible refine clean_opt ?_
    | with_reducible refine clean_optText ?_
    | with_reducible refine clean_optId ?_
    | with_reducible refine clean_each ?_
    | with_reducible refine clean_eachText ?_))

theorem clean_creationInfo {c : CreationInfo} (h : RepCreationInfo c) : Clean (renderCreationInfo c) := by
  obtain ⟨-, h1, h2, h3, h4⟩ := h
  have := clean_map (t := g!"Creator") fun x hx => line1_agent (h2 x hx)
  unfold renderCreationInfo
  clean

theorem clean_range (r : SnippetRange) : Clean (renderRange r) := by
  unfold renderRange
  exact clean_append (clean_ite (fun _ => clean_field (line1_range _ _).2) clean_nil)
    (clean_ite (fun _ => clean_field (line1_range _ _).2) clean_nil)

theorem clean_snippet {v : Version} {s : Snippet} (h : RepSnippet v s) : Clean (renderSnippet v s) := by
  obtain ⟨h1, h2, h3, h4, h5, h6, h7, h8, h9, h10, h11⟩ := h
  have a1 := clean_flatMap (l := s.ranges) fun r _ => clean_range r
  have a2 : Clean [.field g!"SnippetFromFileSPDXID" (renderElementID s.fromFile)] :=
    clean_field (line1_renderElementID h2.1).2
  have a3 : Clean (if v = .v21 then [] else eachText g!"SnippetAttributionText" s.attributionTexts) :=
    clean_ite (fun _ => clean_nil) (clean_eachText h10)
  have a4 := Or.inr (a := s.spdxId = []) h1
  unfold renderSnippet
  clean

theorem clean_artifact {a : ArtifactOfProject} (h : RepArtifact a) : Clean (renderArtifact a) := by
  obtain ⟨h1, h2, h3⟩ := h
  have := clean_field (t := g!"ArtifactOfProjectName") h1
  unfold renderArtifact
  clean

theorem mem_snippetsInOrder {so : Sorter} {f : FileV} {s : Snippet} (h : s ∈ snippetsInOrder so f) :
    ∃ k, (k, s) ∈ f.snippets := by
  unfold snippetsInOrder at h
  obtain ⟨k, _, hk⟩ := List.mem_filterMap.1 h
  have key : ∀ m : List (Str × Snippet), mapGet k m = some s → (k, s) ∈ m := by
    intro m
    induction m with
    | nil => simp [mapGet]
    | cons p m ih =>
      obtain ⟨a, b⟩ := p
      simp only [mapGet]
      split
      · rename_i e; subst e; intro h; simp at h; simp [h]
      · intro h; exact List.mem_cons_of_mem _ (ih h)
  exact ⟨k, key _ hk⟩

theorem clean_file {v : Version} (so : Sorter) {f : FileV} (h : RepFile v f) : Clean (renderFile v so f) := by
  have a0 := h.snippets
  obtain ⟨h1, h2, h3, h4, h5, h6, h7, h8, h9, h10, h11, h12, h13, h14, h15, h16, h17, h18⟩ := h
  have a1 := clean_flatMap fun a ha => clean_artifact (h9 a ha)
  have a2 : Clean ((snippetsInOrder so f).flatMap (renderSnippet v)) := by
    apply clean_flatMap
    intro s hs
    obtain ⟨k, hk⟩ := mem_snippetsInOrder hs
    exact clean_snippet (h16 _ hk).2
  have a3 : Clean (if v = .v21 then [] else eachText g!"FileAttributionText" f.attributionTexts) :=
    clean_ite (fun _ => clean_nil) (clean_eachText h13)
  have a4 := Or.inr (a := f.spdxId = []) h2
  have a5 := h1.2
  have a6 := clean_eachChecksum (t := g!"FileChecksum") h4
  unfold renderFile renderFileFields
  clean

theorem line1_party {k x : Str} (h : RepParty k x) :
    x ≠ [] ∧ OneLine (if k = [] then x else pairValue k x) := by
  rcases h with ⟨h1, h2⟩ | ⟨rfl, rfl⟩
  · have := (partyKind_line1 h1).1.1
    simp only [this.1, if_false]
    exact ⟨h2.1, (line1_pairValue this h2).2⟩
  · decide

theorem clean_externalRef {r : PackageExternalRef} (h : RepRef3 r) : Clean (renderExternalRef r) := by
  unfold renderExternalRef
  exact clean_append (clean_field (line1_three h.category h.refType h.locator).2) (clean_optText h.comment)

theorem clean_package {v : Version} (so : Sorter) {p : PackageV} (h : RepPackage v p) :
    Clean (renderPackageGroup v so p) := by
  obtain ⟨h1, h2, h3, h4, h5, h6, h7, h8, h9, h10, h11, h12, h13, h14, h15, h16, h17, h18, h19, h20, h21, h22,
    h23, h24, h25, h26, h27, h28, h29, h30, h31, h32⟩ := h
  have a1 := clean_flatMap fun r hr => clean_externalRef (h23 r hr)
  have a2 : Clean ((sortPackageFiles so p).files.flatMap (renderFile v so)) :=
    clean_flatMap fun f hf => clean_file so (h31 f ((so.mem _ _ _).1 hf))
  have a3 : Clean (renderSupplier p.supplier) := by
    unfold renderSupplier
    split
    · exact clean_nil
    · rename_i s hs
      have := line1_party (h6 s hs)
      rw [if_neg this.1]
      have h2 := this.2
      split <;> simp_all [Clean, CleanItem]
  have a4 : Clean (renderOriginator p.originator) := by
    unfold renderOriginator
    split
    · exact clean_nil
    · rename_i s hs
      have := line1_party (h7 s hs)
      rw [if_neg this.1]
      have h2 := this.2
      split <;> simp_all [Clean, CleanItem]
  have a5 : Clean (renderFilesAnalyzed p.filesAnalyzed p.filesAnalyzedTagPresent) := by
    unfold renderFilesAnalyzed
    split
    · split
      · exact clean_field (by decide)
      · exact clean_nil
    · exact clean_field (by decide)
  have a6 : Clean (renderVerificationCode p.filesAnalyzed p.verificationCode) := by
    unfold renderVerificationCode
    split
    · exact clean_nil
    · rename_i c hc
      exact clean_ite (fun _ => clean_field (line1_verification (h10 c hc).2).2) clean_nil
  have a7 : Clean [.line (g!"##### Package: " ++ p.name), .line []] := by
    simp [Clean, CleanItem, h2.2.1]
  have a8 : Clean (if v = .v21 then [] else eachText g!"PackageAttributionText" p.attributionTexts) :=
    clean_ite (fun _ => clean_nil) (clean_eachText h24)
  have a9 := Or.inr (a := p.spdxId = []) h3
  have a10 := h2.2
  have a13 := clean_eachChecksum (t := g!"PackageChecksum") h11
  have a11 : Clean (if p.filesAnalyzed then each g!"PackageLicenseInfoFromFiles" p.licenseInfoFromFiles else []) :=
    clean_ite (fun _ => clean_each h15) clean_nil
  have a12 : Clean (if v = .v23 then
    opt g!"PrimaryPackagePurpose" p.primaryPurpose ++
    opt g!"ReleaseDate" p.releaseDate ++
    opt g!"BuiltDate" p.builtDate ++
    opt g!"ValidUntilDate" p.validUntilDate
   else []) := clean_ite (fun _ => by clean) clean_nil
  unfold renderPackageGroup renderPackage renderPackageFields
  clean

theorem clean_otherLicense {l : OtherLicense} (h : RepOtherLicense l) : Clean (renderOtherLicense l) := by
  obtain ⟨h1, h2, h3, h4, h5⟩ := h
  have := h1.2
  unfold renderOtherLicense
  clean

theorem refB_word {v : Version} {r : Relationship} (h : RepRelationship v r) : Word (renderDocElementID r.refB) := by
  rcases h.refB with hb | hb
  · exact word_renderRef hb
  · exact specialRef_word hb.2

theorem clean_relationship {v : Version} {r : Relationship} (h : RepRelationship v r) : Clean (renderRelationship r) := by
  unfold renderRelationship
  exact clean_append
    (clean_ite (fun _ => clean_field (line1_three (word_renderRef h.refA) h.relationship (refB_word h)).2) clean_nil)
    (clean_optText h.comment)

theorem clean_annotation {a : Annotation} (h : RepAnnotation a) : Clean (renderAnnotation a) := by
  obtain ⟨h1, h2, h3, h4, h5⟩ := h
  have a1 : Clean (if a.annotator.annotator ≠ [] ∧ a.annotator.annotatorType ≠ [] then
      [.field g!"Annotator" (pairValue a.annotator.annotatorType a.annotator.annotator)] else []) :=
    clean_ite (fun _ => clean_field (line1_agent h1)) clean_nil
  have a2 : Clean (if renderDocElementID a.spdxId ≠ g!"SPDXRef-" then
    [.field g!"SPDXREF" (renderDocElementID a.spdxId)] else []) := by
    refine clean_ite (fun hne => clean_field ?_) clean_nil
    rcases h4 with h4 | h4
    · rw [h4] at hne; exact absurd rfl hne
    · exact (line1_of_word (word_renderRef h4)).2
  unfold renderAnnotation
  clean

theorem clean_review {r : Review} (h : RepReview r) : Clean (renderReview r) := by
  obtain ⟨h1, h2, h3⟩ := h
  have a1 : Clean (if r.reviewer ≠ [] ∧ r.reviewerType ≠ [] then
      [.field g!"Reviewer" (pairValue r.reviewerType r.reviewer)] else []) :=
    clean_ite (fun _ => clean_field (line1_agent h1)) clean_nil
  unfold renderReview
  clean

theorem clean_externalDocRef {e : ExternalDocumentRef} (h : RepExternalDocRef e) : Clean (renderExternalDocRef e) := by
  unfold renderExternalDocRef
  rw [edr_text]
  exact clean_field (line1_three (edr_words h).1 h.uri (edr_words h).2).2

theorem clean_body {v : Version} (so : Sorter) {d : Doc} (h : Representable v d) {ci : CreationInfo}
    (hci : RepCreationInfo ci) : Clean (renderBody v so d ci) := by
  obtain ⟨h1, h2, h3, h4, h5, h6, h7, -, h8, h9, h10, h11, h12, -, h13⟩ := h
  have a0 := clean_creationInfo hci
  have a1 := clean_flatMap (l := so.run (·.documentRefID) d.externalDocumentRefs)
    fun r hr => clean_externalDocRef (h6 r ((so.mem _ _ _).1 hr))
  have a2 := clean_flatMap (l := so.run (·.spdxId) d.files) fun r hr => clean_file so (h9 r ((so.mem _ _ _).1 hr))
  have a3 := clean_flatMap (l := so.run (·.spdxId) d.packages)
    fun r hr => clean_package so (h8 r ((so.mem _ _ _).1 hr))
  have a4 := clean_flatMap fun r hr => clean_otherLicense (h10 r hr)
  have a5 := clean_flatMap fun r hr => clean_relationship (h11 r hr)
  have a6 := clean_flatMap (g := fun a => renderAnnotation a ++ [.line []])
    fun r hr => clean_append (clean_annotation (h12 r hr)) clean_blank
  have a7 := clean_flatMap fun r hr => clean_review (h13 r hr)
  have b1 := clean_heading d.otherLicenses (t := g!"##### Other Licenses") (by decide)
  have b2 := clean_heading d.relationships (t := g!"##### Relationships") (by decide)
  have b3 := clean_heading d.annotations (t := g!"##### Annotations") (by decide)
  have b4 := clean_heading d.reviews (t := g!"##### Reviews") (by decide)
  have b5 := clean_heading d.files (t := g!"##### Unpackaged files") (by decide)
  have b6 : Clean (if d.relationships = [] then [] else [.line []]) := clean_ite (fun _ => clean_nil) clean_blank
  unfold renderBody renderHeader renderTail renderRelationships
  clean

end Verif
