import Verif.Lemmas.Upgrade
import Verif.Lemmas.RdfSavable
import Verif.Lemmas.RdfTextable
import Verif.Props.C62_Convert
import Verif.Props.C68_JsonLoadSave

/-!
# Lemmas: documents of one version saved as JSON of another
-/

namespace Verif
open Spec Spec.Rdf

/-! ## What JSON carries is carried in every version -/

theorem jsonFile_in {html : Bool} {u : Version} {f : FileV} (h : JsonFile html f) : JsonFile html (fileIn u f) := ⟨h.id, h.annotations⟩

theorem jsonPackage_in {html : Bool} {u : Version} {p : PackageV} (h : JsonPackage html p) : JsonPackage html (packageIn u p) where
  id := h.id
  supplier := h.supplier
  originator := h.originator
  files f hf := by
    obtain ⟨f', hf', rfl⟩ := List.mem_map.1 hf
    exact jsonFile_in (h.files f' hf')
  annotations := h.annotations

theorem jsonSnippet_in {html : Bool} {u : Version} {s : Snippet} (h : JsonSnippet html s) : JsonSnippet html (snippetIn u s) := by
  unfold snippetIn
  split
  · exact ⟨h.id, h.fromFile, h.ranges⟩
  · exact h

theorem jsonDocument_in {html : Bool} (v w : Version) {d : Doc} (h : JsonDocument html d) : JsonDocument html (inVersion v w d) where
  id := h.id
  refs := h.refs
  creators := h.creators
  packages p hp := by
    obtain ⟨p', hp', rfl⟩ := List.mem_map.1 (show p ∈ d.packages.map _ from hp)
    exact jsonPackage_in (h.packages p' hp')
  files f hf := by
    obtain ⟨f', hf', rfl⟩ := List.mem_map.1 (show f ∈ d.files.map _ from hf)
    exact jsonFile_in (h.files f' hf')
  relationships := h.relationships
  annotations := h.annotations
  snippets s hs := by
    obtain ⟨s', hs', rfl⟩ := List.mem_map.1 (show s ∈ d.snippets.map _ from hs)
    exact jsonSnippet_in (h.snippets s' hs')

theorem jsonDocument_plain {html : Bool} {d : Doc} (h : JsonDocument html d) : JsonDocument html (plainCodes d) where
  id := h.id
  refs := h.refs
  creators := h.creators
  packages p hp := by
    obtain ⟨p', hp', rfl⟩ := List.mem_map.1 (show p ∈ d.packages.map _ from hp)
    have := h.packages p' hp'
    exact ⟨this.id, this.supplier, this.originator, this.files, this.annotations⟩
  files := h.files
  relationships := h.relationships
  annotations := h.annotations
  snippets := h.snippets

theorem jsonDocument_unplain {html : Bool} {d : Doc} (h : JsonDocument html (plainCodes d)) : JsonDocument html d where
  id := h.id
  refs := h.refs
  creators := h.creators
  packages p hp := by
    have := h.packages (plainCode p) (List.mem_map.2 ⟨p, hp, rfl⟩)
    exact ⟨this.id, this.supplier, this.originator, this.files, this.annotations⟩
  files := h.files
  relationships := h.relationships
  annotations := h.annotations
  snippets := h.snippets

/-! ## What JSON keeps -/

theorem keptPackage_plain (w : Version) (p : PackageV) : plainCode (keptPackage w p) = keptPackage w (plainCode p) := by
  unfold plainCode keptPackage
  cases w <;> by_cases hc : p.verificationCode = some {} <;> simp [hc]

theorem keptDoc_plain (w : Version) (d : Doc) : plainCodes (keptDoc w d) = keptDoc w (plainCodes d) := by
  unfold keptDoc plainCodes
  simp only [List.map_map, Function.comp_def, keptPackage_plain]

theorem keptFile_in (w : Version) (f : FileV) : keptFile w (fileIn w f) = keptFile w f := by
  unfold keptFile fileIn
  cases w <;> simp

theorem keptPackage_in (w : Version) (p : PackageV) : keptPackage w (packageIn w p) = keptPackage w p := by
  unfold keptPackage packageIn
  simp only [List.map_map, Function.comp_def, keptFile_in]
  cases w <;> simp

theorem keptSnippet_in (w : Version) (s : Snippet) : keptSnippet (snippetIn w s) = keptSnippet s := by
  unfold keptSnippet snippetIn
  split <;> rfl

theorem keptDoc_in (w : Version) (d : Doc) : keptDoc w (documentIn w d) = keptDoc w d := by
  unfold keptDoc documentIn
  simp only [List.map_map, Function.comp_def, keptFile_in, keptPackage_in, keptSnippet_in]

/-- What is kept of a converted document. -/
theorem kept_converted {v w : Version} {d e : Doc} (h : ConvertedDoc v w d e) (hv : d.spdxVersion = versionName v) :
    e.spdxVersion = versionName w ∧ keptDoc w (plainCodes e) = keptDoc w (plainCodes (inVersion v w d)) := by
  by_cases hvw : v = w
  · subst hvw
    have hu : older v v = v := by cases v <;> rfl
    rw [h.1 rfl]
    refine ⟨hv, ?_⟩
    rw [← keptDoc_plain, ← keptDoc_plain, inVersion, hu, ← hv]
    exact congrArg plainCodes (keptDoc_in v d).symm
  · obtain ⟨h1, h2⟩ := h.2 hvw
    have h3 : e.spdxVersion = versionName w := by
      rcases h1 with ⟨e, rfl⟩ | ⟨e, rfl⟩ | ⟨e, rfl⟩ <;> exact e
    refine ⟨h3, ?_⟩
    rw [h2, h3]
    rfl

theorem json_converted {html : Bool} {v w : Version} {d e : Doc} (h : ConvertedDoc v w d e) (hj : JsonDocument html d) : JsonDocument html e := by
  by_cases hvw : v = w
  · rw [h.1 hvw]; exact hj
  · have h2 := (h.2 hvw).2
    refine jsonDocument_unplain ?_
    rw [h2]
    have := jsonDocument_plain (jsonDocument_in v w hj)
    exact ⟨this.id, this.refs, this.creators, this.packages, this.files, this.relationships, this.annotations, this.snippets⟩

/-! ## To a newer version -/

theorem replace_twice (r : Str) : replaceChar '_' '-' (replaceChar '_' '-' r) = replaceChar '_' '-' r := by
  unfold replaceChar
  rw [List.map_map]
  refine List.map_congr_left fun c _ => ?_
  by_cases h : c = '_' <;> simp [h]

theorem keptFile_newer {v w : Version} (hn : older v w = v) (f : FileV) : keptFile w (fileIn v (keptFile v f)) = keptFile v f := by
  unfold keptFile fileIn
  cases v <;> cases w <;> simp_all [older, keptAnnotation]

theorem keptPackage_newer {v w : Version} (hn : older v w = v) {p : PackageV} (hp : v ≠ .v21 ∨ w = .v21 ∨ ∀ r ∈ p.externalRefs, '_' ∉ r.category) :
    keptPackage w (packageIn v (keptPackage v p)) = { keptPackage v p with filesAnalyzedTagPresent := decide (w ≠ .v21) } := by
  have hr : (p.externalRefs.map (keptRef v)).map (keptRef w) = p.externalRefs.map (keptRef v) := by
    rw [List.map_map]
    refine List.map_congr_left fun r hr => ?_
    unfold keptRef
    rcases hp with h | h | h
    · have hw : w ≠ .v21 := by rintro rfl; cases v <;> simp [older] at hn h
      simp [h, hw, replace_twice]
    · simp [h]
    · have : replaceChar '_' '-' r.category = r.category := by
        unfold replaceChar
        conv => rhs; rw [← List.map_id r.category]
        refine List.map_congr_left fun c hc => if_neg ?_
        rintro rfl
        exact h r hr hc
      simp [this]
  have hf : ((p.files.map (keptFile v)).map (fileIn v)).map (keptFile w) = p.files.map (keptFile v) := by
    simp only [List.map_map, Function.comp_def, keptFile_newer hn]
  have ha : (p.annotations.map keptAnnotation).map keptAnnotation = p.annotations.map keptAnnotation := by
    rw [List.map_map]; rfl
  unfold keptPackage packageIn
  simp only [hr, hf, ha]
  by_cases hc : p.verificationCode = some {} <;> cases v <;> cases w <;> simp_all [older]

theorem keptDoc_newer {v w : Version} (hn : older v w = v) {d : Doc}
    (hp : v ≠ .v21 ∨ w = .v21 ∨ ∀ p ∈ d.packages, ∀ r ∈ p.externalRefs, '_' ∉ r.category) :
    keptDoc w (documentIn v (keptDoc v d)) = flagged w (keptDoc v d) := by
  unfold flagged keptDoc documentIn
  have e1 : (((d.packages.map (keptPackage v)).map (packageIn v)).map (keptPackage w)) =
      (d.packages.map (keptPackage v)).map fun p => { p with filesAnalyzedTagPresent := decide (w ≠ .v21) } := by
    simp only [List.map_map]
    refine List.map_congr_left fun p hm => keptPackage_newer hn ?_
    rcases hp with h | h | h
    · exact .inl h
    · exact .inr (.inl h)
    · exact .inr (.inr (h p hm))
  have e2 : ((d.files.map (keptFile v)).map (fileIn v)).map (keptFile w) = d.files.map (keptFile v) := by
    simp only [List.map_map, Function.comp_def, keptFile_newer hn]
  have e3 : (d.annotations.map keptAnnotation).map keptAnnotation = d.annotations.map keptAnnotation := by
    rw [List.map_map]; rfl
  have e4 : ((d.snippets.map keptSnippet).map (snippetIn v)).map keptSnippet = d.snippets.map keptSnippet := by
    simp only [List.map_map, Function.comp_def, keptSnippet_in]; rfl
  simp only [e1, e2, e3, e4]

/-- Of a document that was loaded from JSON everything is kept. -/
theorem kept_newer {v w : Version} {es : List (Str × Json)} {d : Doc} (h : DocumentIs v es d) (hn : older v w = v)
    (hp : v ≠ .v21 ∨ w = .v21 ∨ ∀ p ∈ d.packages, ∀ r ∈ p.externalRefs, '_' ∉ r.category) :
    keptDoc w (inVersion v w d) = flagged w (restated (versionName w) d) := by
  have h1 : keptDoc w (documentIn v (flagged v d)) = keptDoc w (documentIn v d) := by
    unfold keptDoc documentIn flagged
    simp only [List.map_map, Function.comp_def]
    rfl
  have h2 := keptDoc_newer (w := w) hn hp
  rw [keptDoc_loaded h, h1] at h2
  rw [inVersion, hn]
  have h3 : keptDoc w (restated (versionName w) (documentIn v d)) = restated (versionName w) (keptDoc w (documentIn v d)) := rfl
  rw [h3, h2]
  unfold flagged restated
  simp only [List.map_map, Function.comp_def]

/-! ## Documents from RDF -/

section
variable {v : Version} {o : MapOrder} {g : Graph} {d : Doc} (h : loadGraph v o g = .ok d) (hv : v ≠ .v21)
  (h1 : OneRole g) (h2 : DistinctNames g)

include h hv h1 h2

omit hv in
theorem rdf_keptFile_in (w : Version) : ∀ f ∈ allFiles d, keptFile w (fileIn (older v w) f) = leftFile w (fileIn (older v w) f) := by
  intro f hf
  obtain ⟨x, ts, _, _, _, hsay⟩ := C50_files v o g d h h1 h2 f hf
  unfold keptFile leftFile fileIn
  rw [hsay.annotations]
  cases v <;> cases w <;> rfl

theorem rdf_keptPackage_in (w : Version) : ∀ p ∈ d.packages,
    keptPackage w (plainCode (packageIn (older v w) p)) =
      { plainCode (packageIn (older v w) p) with filesAnalyzedTagPresent := decide (w ≠ .v21), files := (packageIn (older v w) p).files.map (leftFile w) } := by
  intro p hp
  obtain ⟨x, ts, _, _, ⟨ns, _, _, rfl⟩, hsay⟩ := C51_packages v o g d h h1 h2 p hp
  have hf : (p.files.map (fileIn (older v w))).map (keptFile w) = (p.files.map (fileIn (older v w))).map (leftFile w) := by
    rw [List.map_map, List.map_map]
    exact List.map_congr_left fun f hf =>
      rdf_keptFile_in h h1 h2 w f (List.mem_append.2 (.inr (List.mem_flatMap.2 ⟨p, hp, hf⟩)))
  have hr : p.externalRefs.map (keptRef w) = p.externalRefs := by
    conv => rhs; rw [← List.map_id p.externalRefs]
    refine List.map_congr_left fun r hr => ?_
    obtain ⟨m, _, hm⟩ := pointwise_right hsay.externalRefs r hr
    by_cases hw : w = .v21
    · simp [keptRef, hw]
    · exact rdf_keptRef hw hm
  have hu := hsay.unpackaged
  have ha := hsay.annotations
  unfold keptPackage plainCode packageIn
  simp only [hf, hr, ha, hu]
  by_cases hc : p.verificationCode = some {} <;> cases v <;> cases w <;> simp_all [older]

theorem rdf_kept_in (w : Version) :
    keptDoc w (bareIds (plainCodes (inVersion v w d))) = leftInJson w (plainCodes (inVersion v w d)) := by
  obtain ⟨n, hn, _⟩ := C49_one_document v o g d h h1 h2
  have D := C49_document v o g d h h1 h2 n hn
  have e1 : ((d.packages.map (packageIn (older v w))).map plainCode).map (keptPackage w) = ((d.packages.map (packageIn (older v w))).map plainCode).map
      fun p => { p with filesAnalyzedTagPresent := decide (w ≠ .v21), files := p.files.map (leftFile w) } := by
    simp only [List.map_map]
    exact List.map_congr_left fun p hp => rdf_keptPackage_in h hv h1 h2 w p hp
  have e2 : (d.files.map (fileIn (older v w))).map (keptFile w) = (d.files.map (fileIn (older v w))).map (leftFile w) := by
    simp only [List.map_map]
    exact List.map_congr_left fun f hf => rdf_keptFile_in h h1 h2 w f (List.mem_append.2 (.inl hf))
  have e3 : d.annotations.map keptAnnotation = d.annotations := by
    conv => rhs; rw [← List.map_id d.annotations]
    refine List.map_congr_left fun a ha => ?_
    obtain ⟨u, _, _, hsay⟩ := C52_annotations v o g d h h1 h2 a ha
    unfold keptAnnotation
    rw [← hsay.subject]
    rfl
  have e4 : d.snippets = [] := D.snippets
  unfold keptDoc leftInJson
  simp only [bareIds, inVersion, restated, documentIn, plainCodes, e1, e2, e3, e4, List.map_nil]

end

end Verif
