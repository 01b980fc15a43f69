import Verif.Lemmas.NilRead

/-!
# Texts without `null` say the same with and without nil entries
-/

namespace Verif
open Spec

variable {β γ : Type}

theorem if_map {p : Prop} [Decidable p] {a b a' b' : Prop} (h : if p then a else b) (ha : a → a') (hb : b → b') :
    if p then a' else b' := by
  by_cases hp : p
  · rw [if_pos hp] at h ⊢
    exact ha h
  · rw [if_neg hp] at h ⊢
    exact hb h

theorem file_split {v : Version} {es : List (Str × Json)} {f : FileV} : FileIs v es f ↔
    FileIs v (without [g!"artifactOfs"] es) { f with artifactOfProjects := [] } ∧
      (if v = .v23 then HasObjects es g!"artifactOfs" ArtifactIs {} f.artifactOfProjects else f.artifactOfProjects = []) := by
  have c : ∀ {β : Type} {key : Str} {says : Json → β → Prop} {unset x : β}, ([g!"artifactOfs"].any fun k => sameKey k key) = false →
      (Has (without [g!"artifactOfs"] es) key says unset x ↔ Has es key says unset x) := fun h => has_without h
  constructor
  · intro h
    exact ⟨{
      name := (c (by decide)).2 h.name,
      id := (c (by decide)).2 h.id,
      types := (c (by decide)).2 h.types,
      checksums := (c (by decide)).2 h.checksums,
      licenseConcluded := (c (by decide)).2 h.licenseConcluded,
      licenseInfo := (c (by decide)).2 h.licenseInfo,
      licenseComments := (c (by decide)).2 h.licenseComments,
      copyright := (c (by decide)).2 h.copyright,
      comment := (c (by decide)).2 h.comment,
      notice := (c (by decide)).2 h.notice,
      contributors := (c (by decide)).2 h.contributors,
      annotations := (c (by decide)).2 h.annotations,
      attributions := if_map h.attributions _root_.id (c (by decide)).2,
      dependencies := if_map h.dependencies (c (by decide)).2 _root_.id,
      snippets := h.snippets
      artifacts := if_map h.artifacts (fun _ => (has_without_mem (by decide)).2 rfl) (fun _ => rfl) }, h.artifacts⟩
  · rintro ⟨h, ha⟩
    exact {
      name := (c (by decide)).1 h.name,
      id := (c (by decide)).1 h.id,
      types := (c (by decide)).1 h.types,
      checksums := (c (by decide)).1 h.checksums,
      licenseConcluded := (c (by decide)).1 h.licenseConcluded,
      licenseInfo := (c (by decide)).1 h.licenseInfo,
      licenseComments := (c (by decide)).1 h.licenseComments,
      copyright := (c (by decide)).1 h.copyright,
      comment := (c (by decide)).1 h.comment,
      notice := (c (by decide)).1 h.notice,
      contributors := (c (by decide)).1 h.contributors,
      annotations := (c (by decide)).1 h.annotations,
      attributions := if_map h.attributions _root_.id (c (by decide)).1,
      dependencies := if_map h.dependencies (c (by decide)).1 _root_.id,
      snippets := h.snippets
      artifacts := ha }

theorem package_split {v : Version} {es : List (Str × Json)} {p : PackageV} : PackageIs v es p ↔
    PackageIs v (without [g!"externalRefs", g!"files"] es) { p with externalRefs := [], files := [] } ∧
      HasObjects es g!"externalRefs" (ExternalRefIs v) {} p.externalRefs ∧ HasObjects es g!"files" (FileIs v) {} p.files := by
  have c : ∀ {β : Type} {key : Str} {says : Json → β → Prop} {unset x : β},
      ([g!"externalRefs", g!"files"].any fun k => sameKey k key) = false →
      (Has (without [g!"externalRefs", g!"files"] es) key says unset x ↔ Has es key says unset x) := fun h => has_without h
  constructor
  · intro h
    exact ⟨{
      name := (c (by decide)).2 h.name,
      id := (c (by decide)).2 h.id,
      version := (c (by decide)).2 h.version,
      fileName := (c (by decide)).2 h.fileName,
      supplier := (c (by decide)).2 h.supplier,
      originator := (c (by decide)).2 h.originator,
      downloadLocation := (c (by decide)).2 h.downloadLocation,
      checksums := (c (by decide)).2 h.checksums,
      homePage := (c (by decide)).2 h.homePage,
      sourceInfo := (c (by decide)).2 h.sourceInfo,
      licenseConcluded := (c (by decide)).2 h.licenseConcluded,
      licenseInfo := (c (by decide)).2 h.licenseInfo,
      licenseDeclared := (c (by decide)).2 h.licenseDeclared,
      licenseComments := (c (by decide)).2 h.licenseComments,
      copyright := (c (by decide)).2 h.copyright,
      summary := (c (by decide)).2 h.summary,
      description := (c (by decide)).2 h.description,
      comment := (c (by decide)).2 h.comment,
      annotations := (c (by decide)).2 h.annotations,
      attributions := if_map h.attributions _root_.id (c (by decide)).2,
      purpose := if_map h.purpose (c (by decide)).2 _root_.id,
      released := if_map h.released (c (by decide)).2 _root_.id,
      built := if_map h.built (c (by decide)).2 _root_.id,
      validUntil := if_map h.validUntil (c (by decide)).2 _root_.id,
      unpackaged := h.unpackaged
      analyzed := by
        obtain ⟨o, h1, h2⟩ := h.analyzed
        exact ⟨o, (c (by decide)).2 h1, h2⟩
      code := by
        obtain ⟨o, h1, h2⟩ := h.code
        exact ⟨o, (c (by decide)).2 h1, h2⟩
      externalRefs := (has_without_mem (by decide)).2 rfl
      files := (has_without_mem (by decide)).2 rfl }, h.externalRefs, h.files⟩
  · rintro ⟨h, h1, h2⟩
    exact {
      name := (c (by decide)).1 h.name,
      id := (c (by decide)).1 h.id,
      version := (c (by decide)).1 h.version,
      fileName := (c (by decide)).1 h.fileName,
      supplier := (c (by decide)).1 h.supplier,
      originator := (c (by decide)).1 h.originator,
      downloadLocation := (c (by decide)).1 h.downloadLocation,
      checksums := (c (by decide)).1 h.checksums,
      homePage := (c (by decide)).1 h.homePage,
      sourceInfo := (c (by decide)).1 h.sourceInfo,
      licenseConcluded := (c (by decide)).1 h.licenseConcluded,
      licenseInfo := (c (by decide)).1 h.licenseInfo,
      licenseDeclared := (c (by decide)).1 h.licenseDeclared,
      licenseComments := (c (by decide)).1 h.licenseComments,
      copyright := (c (by decide)).1 h.copyright,
      summary := (c (by decide)).1 h.summary,
      description := (c (by decide)).1 h.description,
      comment := (c (by decide)).1 h.comment,
      annotations := (c (by decide)).1 h.annotations,
      attributions := if_map h.attributions _root_.id (c (by decide)).1,
      purpose := if_map h.purpose (c (by decide)).1 _root_.id,
      released := if_map h.released (c (by decide)).1 _root_.id,
      built := if_map h.built (c (by decide)).1 _root_.id,
      validUntil := if_map h.validUntil (c (by decide)).1 _root_.id,
      unpackaged := h.unpackaged
      analyzed := by
        obtain ⟨o, h1, h2⟩ := h.analyzed
        exact ⟨o, (c (by decide)).1 h1, h2⟩
      code := by
        obtain ⟨o, h1, h2⟩ := h.code
        exact ⟨o, (c (by decide)).1 h1, h2⟩
      externalRefs := h1
      files := h2 }

theorem document_split {v : Version} {es : List (Str × Json)} {d : Doc} : DocumentIs v es d ↔
    DocumentIs v (without partKeys es) { d with packages := [], files := [], otherLicenses := [], relationships := [], annotations := [] } ∧
      HasObjects es g!"packages" (PackageIs v) {} d.packages ∧ HasObjects es g!"files" (FileIs v) {} d.files ∧
      HasObjects es g!"hasExtractedLicensingInfos" LicenseIs {} d.otherLicenses ∧ RelationshipsAre v es d.spdxId d.relationships ∧
      HasObjects es g!"annotations" AnnotationIs {} d.annotations := by
  have c : ∀ {β : Type} {key : Str} {says : Json → β → Prop} {unset x : β}, (partKeys.any fun k => sameKey k key) = false →
      (Has (without partKeys es) key says unset x ↔ Has es key says unset x) := fun h => has_without h
  constructor
  · intro h
    exact ⟨{
      version := (c (by decide)).2 h.version,
      license := (c (by decide)).2 h.license,
      id := (c (by decide)).2 h.id,
      name := (c (by decide)).2 h.name,
      namespace_ := (c (by decide)).2 h.namespace_,
      externalDocuments := (c (by decide)).2 h.externalDocuments,
      comment := (c (by decide)).2 h.comment,
      creation := (c (by decide)).2 h.creation,
      snippets := (c (by decide)).2 h.snippets,
      packages := (has_without_mem (by decide)).2 rfl
      files := (has_without_mem (by decide)).2 rfl
      licenses := (has_without_mem (by decide)).2 rfl
      relationships := relationships_without.2 rfl
      annotations := (has_without_mem (by decide)).2 rfl
      reviews := h.reviews }, h.packages, h.files, h.licenses, h.relationships, h.annotations⟩
  · rintro ⟨h, h1, h2, h3, h4, h5⟩
    exact {
      version := (c (by decide)).1 h.version,
      license := (c (by decide)).1 h.license,
      id := (c (by decide)).1 h.id,
      name := (c (by decide)).1 h.name,
      namespace_ := (c (by decide)).1 h.namespace_,
      externalDocuments := (c (by decide)).1 h.externalDocuments,
      comment := (c (by decide)).1 h.comment,
      creation := (c (by decide)).1 h.creation,
      snippets := (c (by decide)).1 h.snippets,
      packages := h1
      files := h2
      licenses := h3
      relationships := h4
      annotations := h5
      reviews := h.reviews }

/-! ## Lists -/

theorem has_tidy_iff {P : Json → β → Prop} {Q : Json → γ → Prop} {f : β → γ} {es : List (Str × Json)} {key : Str}
    (ht : tidy (.obj es) = true) (h : ∀ j, tidy j = true → j ≠ .null → ∀ x, Q j x ↔ ∃ z, P j z ∧ x = f z) {l : List γ} :
    Has es key (ListIs Q) [] l ↔ ∃ m, Has es key (ListIs P) [] m ∧ l = m.map f := by
  have hp : ∀ {js : List Json}, (∀ j ∈ js, tidy j = true ∧ j ≠ .null) → ∀ {l : List γ},
      (Pointwise Q js l ↔ ∃ m, Pointwise P js m ∧ l = m.map f) := by
    intro js
    induction js with
    | nil =>
      intro _ l
      constructor
      · intro h; cases h; exact ⟨[], .nil, rfl⟩
      · rintro ⟨m, hm, rfl⟩; cases hm; exact .nil
    | cons j js ih =>
      intro hj l
      constructor
      · intro hl
        cases hl with
        | cons h1 h2 =>
          obtain ⟨m, hm, rfl⟩ := (ih fun j h => hj j (by simp [h])).1 h2
          obtain ⟨z, hz, rfl⟩ := (h j (hj j (by simp)).1 (hj j (by simp)).2 _).1 h1
          exact ⟨z :: m, .cons hz hm, rfl⟩
      · rintro ⟨m, hm, rfl⟩
        cases hm with
        | cons h1 h2 =>
          exact .cons ((h j (hj j (by simp)).1 (hj j (by simp)).2 _).2 ⟨_, h1, rfl⟩) ((ih fun j h => hj j (by simp [h])).2 ⟨_, h2, rfl⟩)
  constructor
  · rintro (⟨h1, rfl⟩ | ⟨j, h1, ⟨js, rfl, h2⟩ | ⟨rfl, rfl⟩⟩)
    · exact ⟨[], .inl ⟨h1, rfl⟩, rfl⟩
    · have hl := tidy_list (by have := tidy_entry ht h1; rwa [tidy] at this)
      obtain ⟨m, hm, rfl⟩ := (hp fun j hj => ⟨(hl j hj).1, (hl j hj).2 rfl⟩).1 h2
      exact ⟨m, .inr ⟨_, h1, .inl ⟨js, rfl, hm⟩⟩, rfl⟩
    · exact ⟨[], .inr ⟨_, h1, .inr ⟨rfl, rfl⟩⟩, rfl⟩
  · rintro ⟨m, ⟨h1, rfl⟩ | ⟨j, h1, ⟨js, rfl, h2⟩ | ⟨rfl, rfl⟩⟩, rfl⟩
    · exact .inl ⟨h1, rfl⟩
    · have hl := tidy_list (by have := tidy_entry ht h1; rwa [tidy] at this)
      exact .inr ⟨_, h1, .inl ⟨js, rfl, (hp fun j hj => ⟨(hl j hj).1, (hl j hj).2 rfl⟩).2 ⟨m, h2, rfl⟩⟩⟩
    · exact .inr ⟨_, h1, .inr ⟨rfl, rfl⟩⟩

theorem options_iff {P : List (Str × Json) → β → Prop} {Q : List (Str × Json) → γ → Prop} {f : β → γ} {a : β} {b : γ}
    {es : List (Str × Json)} {key : Str} (ht : tidy (.obj es) = true)
    (h : ∀ es, tidy (.obj es) = true → ∀ x, Q es x ↔ ∃ z, P es z ∧ x = f z) {l : List (Option γ)} :
    HasOptions es key Q b l ↔ ∃ m, HasObjects es key P a m ∧ l = m.map fun x => some (f x) := by
  unfold HasOptions HasObjects
  rw [has_somes ht]
  have := fun l => has_tidy_iff (P := ObjectIs P a) (Q := ObjectIs Q b) (f := f) (key := key) ht (l := l) (by
    intro j hj hn x
    constructor
    · rintro (⟨es, rfl, hx⟩ | ⟨rfl, _⟩)
      · obtain ⟨z, hz, rfl⟩ := (h es hj x).1 hx
        exact ⟨z, .inl ⟨es, rfl, hz⟩, rfl⟩
      · exact absurd rfl hn
    · rintro ⟨z, ⟨es, rfl, hz⟩ | ⟨rfl, _⟩, rfl⟩
      · exact .inl ⟨es, rfl, (h es hj _).2 ⟨z, hz, rfl⟩⟩
      · exact absurd rfl hn)
  simp only [this]
  constructor
  · rintro ⟨_, rfl, m, hm, rfl⟩; exact ⟨m, hm, by rw [List.map_map]; rfl⟩
  · rintro ⟨m, hm, rfl⟩; exact ⟨_, by rw [List.map_map]; rfl, m, hm, rfl⟩

theorem options_same {P : List (Str × Json) → β → Prop} {b : β} {es : List (Str × Json)} {key : Str} (ht : tidy (.obj es) = true)
    {l : List (Option β)} : HasOptions es key P b l ↔ ∃ m, HasObjects es key P b m ∧ l = m.map some := by
  unfold HasOptions HasObjects
  rw [has_somes ht]
  exact ⟨fun ⟨m, a, b⟩ => ⟨m, b, a⟩, fun ⟨m, a, b⟩ => ⟨m, b, a⟩⟩

/-! ## The parts -/

theorem nfile_plain {v : Version} {es : List (Str × Json)} (ht : tidy (.obj es) = true) (x : NFile) :
    NFileIs v es x ↔ ∃ f, FileIs v es f ∧ x = ofFile f := by
  constructor
  · rintro ⟨h1, h2, h3⟩
    obtain ⟨f, as, ss⟩ := x
    have hs := h1.snippets
    have ha : f.artifactOfProjects = [] := by
      have := h1.artifacts
      split at this
      · exact (has_without_mem (by decide)).1 this
      · exact this
    have : ∃ m : List ArtifactOfProject, (if v = .v23 then HasObjects es g!"artifactOfs" ArtifactIs {} m else m = []) ∧ as = m.map some := by
      by_cases hv : v = .v23
      · rw [if_pos hv] at h2
        obtain ⟨m, hm, e⟩ := (options_same ht).1 h2
        exact ⟨m, by rw [if_pos hv]; exact hm, e⟩
      · rw [if_neg hv] at h2
        exact ⟨[], by rw [if_neg hv], h2⟩
    obtain ⟨m, hm, rfl⟩ := this
    refine ⟨{ f with artifactOfProjects := m }, file_split.2 ⟨?_, hm⟩, ?_⟩
    · cases f
      cases ha
      exact h1
    · cases f
      cases ha
      cases hs
      cases h3
      rfl
  · rintro ⟨f, hf, rfl⟩
    obtain ⟨h1, h2⟩ := file_split.1 hf
    have hs := hf.snippets
    refine ⟨?_, if_map h2 (fun h => (options_same ht).2 ⟨_, h, rfl⟩) (fun h => by show List.map some _ = []; rw [h]; rfl), ?_⟩
    · cases f
      cases hs
      exact h1
    · show List.map _ f.snippets = []
      rw [hs]
      rfl

theorem npackage_plain {v : Version} {es : List (Str × Json)} (ht : tidy (.obj es) = true) (x : NPackage) :
    NPackageIs v es x ↔ ∃ p, PackageIs v es p ∧ x = ofPackage p := by
  constructor
  · rintro ⟨h1, h2, h3⟩
    obtain ⟨p, rs, fs⟩ := x
    obtain ⟨m, hm, h4⟩ := (options_same ht).1 h2
    obtain ⟨m', hm', h5⟩ := (options_iff (a := {}) ht fun es ht x => nfile_plain ht x).1 h3
    have e1 : p.externalRefs = [] := (has_without_mem (by decide)).1 h1.externalRefs
    have e2 : p.files = [] := (has_without_mem (by decide)).1 h1.files
    cases h4
    cases h5
    refine ⟨{ p with externalRefs := m, files := m' }, package_split.2 ⟨?_, hm, hm'⟩, ?_⟩
    · cases p
      cases e1
      cases e2
      exact h1
    · cases p
      cases e1
      cases e2
      rfl
  · rintro ⟨p, hp, rfl⟩
    obtain ⟨h1, h2, h3⟩ := package_split.1 hp
    exact ⟨h1, (options_same ht).2 ⟨_, h2, rfl⟩, (options_iff (a := {}) ht fun es ht x => nfile_plain ht x).2 ⟨_, h3, rfl⟩⟩

theorem filterMap_somes (m : List β) : ((m.map some).filterMap fun o => o) = m := by
  induction m with
  | nil => rfl
  | cons a m ih => simpa using ih

theorem nrelationships_plain {v : Version} {es : List (Str × Json)} (ht : tidy (.obj es) = true) {id : Str}
    {l : List (Option Relationship)} : NRelationshipsAre v es id l ↔ ∃ m, RelationshipsAre v es id m ∧ l = m.map some := by
  unfold NRelationshipsAre RelationshipsAre
  simp only [options_same ht]
  by_cases hv : v = .v21
  · simp only [if_pos hv]
    constructor
    · rintro ⟨_, ⟨m, hm, rfl⟩, rfl⟩; exact ⟨m, ⟨m, hm, rfl⟩, rfl⟩
    · rintro ⟨_, ⟨m, hm, rfl⟩, rfl⟩; exact ⟨_, ⟨_, hm, rfl⟩, rfl⟩
  · simp only [if_neg hv]
    constructor
    · rintro ⟨_, ⟨m, hm, rfl⟩, ds, _, hd, ⟨ws, hw, rfl⟩, rfl⟩
      exact ⟨_, ⟨m, hm, ds, ws, hd, hw, rfl⟩, by rw [filterMap_somes, filterMap_somes]⟩
    · rintro ⟨_, ⟨m, hm, ds, ws, hd, hw, rfl⟩, rfl⟩
      exact ⟨_, ⟨m, hm, rfl⟩, ds, _, hd, ⟨ws, hw, rfl⟩, by rw [filterMap_somes, filterMap_somes]⟩

theorem ndocument_plain {v : Version} {es : List (Str × Json)} (ht : tidy (.obj es) = true) (x : NDoc) :
    NDocumentIs v es x ↔ ∃ d, DocumentIs v es d ∧ x = ofDoc d := by
  constructor
  · rintro ⟨h1, h2, h3, h4, h5, h6, h7⟩
    obtain ⟨d, ps, fs, ls, rs, as, vs⟩ := x
    obtain ⟨m1, hm1, e1⟩ := (options_iff (a := {}) ht fun es ht x => npackage_plain ht x).1 h2
    obtain ⟨m2, hm2, e2⟩ := (options_iff (a := {}) ht fun es ht x => nfile_plain ht x).1 h3
    obtain ⟨m3, hm3, e3⟩ := (options_same ht).1 h4
    obtain ⟨m4, hm4, e4⟩ := (nrelationships_plain ht).1 h5
    obtain ⟨m5, hm5, e5⟩ := (options_same ht).1 h6
    cases e1; cases e2; cases e3; cases e4; cases e5; cases h7
    have z1 : d.packages = [] := (has_without_mem (by decide)).1 h1.packages
    have z2 : d.files = [] := (has_without_mem (by decide)).1 h1.files
    have z3 : d.otherLicenses = [] := (has_without_mem (by decide)).1 h1.licenses
    have z4 : d.relationships = [] := relationships_without.1 h1.relationships
    have z5 : d.annotations = [] := (has_without_mem (by decide)).1 h1.annotations
    have z6 : d.reviews = [] := h1.reviews
    refine ⟨{ d with packages := m1, files := m2, otherLicenses := m3, relationships := m4, annotations := m5 },
      document_split.2 ⟨?_, hm1, hm2, hm3, hm4, hm5⟩, ?_⟩
    · cases d
      cases z1; cases z2; cases z3; cases z4; cases z5
      exact h1
    · cases d
      cases z1; cases z2; cases z3; cases z4; cases z5; cases z6
      rfl
  · rintro ⟨d, hd, rfl⟩
    have hr := hd.reviews
    obtain ⟨h1, h2, h3, h4, h5, h6⟩ := document_split.1 hd
    refine ⟨?_, (options_iff (a := {}) ht fun es ht x => npackage_plain ht x).2 ⟨_, h2, rfl⟩,
      (options_iff (a := {}) ht fun es ht x => nfile_plain ht x).2 ⟨_, h3, rfl⟩, (options_same ht).2 ⟨_, h4, rfl⟩,
      (nrelationships_plain ht).2 ⟨_, h5, rfl⟩, (options_same ht).2 ⟨_, h6, rfl⟩, ?_⟩
    · cases d
      cases hr
      exact h1
    · show List.map some d.reviews = []
      rw [hr]
      rfl

end Verif
