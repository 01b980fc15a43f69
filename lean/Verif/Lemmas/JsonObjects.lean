import Verif.Lemmas.JsonSays

/-!
# Decoders read what JSON objects say
-/

namespace Verif
open Spec

variable {σ : Type} {n : Bool}

theorem peel_of {f : Field σ} {fs : List (Field σ)} {es : List (Str × Json)} {s r : σ} {says : Json → f.β → Prop}
    (ht : tidy (.obj es) n = true) (h : decodeFields es (f :: fs) s = .ok r) (hs : f.set (f.get s) s = s)
    (hr : JReads f.codec (f.get s) says n) : ∃ x, Has es f.key says (f.get s) x ∧ decodeFields es fs (f.set x s) = .ok r :=
  (peel ht hs hr).1 h

/-- Either no `null` is allowed or the keys are not there. -/
def Absent (n : Bool) (es : List (Str × Json)) (keys : List Str) : Prop := n = false ∨ ∀ k ∈ keys, entries k es = []

theorem Absent.key {es : List (Str × Json)} {keys : List Str} (h : Absent n es keys) {k : Str} (hk : k ∈ keys := by decide) :
    n = false ∨ entries k es = [] := h.imp_right fun h => h k hk

theorem peel_of' {f : Field σ} {fs : List (Field σ)} {es : List (Str × Json)} {s r : σ} {says : Json → f.β → Prop}
    (ht : tidy (.obj es) n = true) (hn : n = false ∨ entries f.key es = []) (h : decodeFields es (f :: fs) s = .ok r)
    (hs : f.set (f.get s) s = s) (hr : JReads f.codec (f.get s) says) :
    ∃ x, Has es f.key says (f.get s) x ∧ decodeFields es fs (f.set x s) = .ok r :=
  (peel_absent ht hn hs hr).1 h

theorem unpeel' {f : Field σ} {fs : List (Field σ)} {es : List (Str × Json)} {s r : σ} {says : Json → f.β → Prop} {x : f.β}
    (ht : tidy (.obj es) n = true) (hn : n = false ∨ entries f.key es = []) (hs : f.set (f.get s) s = s)
    (hr : JReads f.codec (f.get s) says) (hx : Has es f.key says (f.get s) x) (h : decodeFields es fs (f.set x s) = .ok r) :
    decodeFields es (f :: fs) s = .ok r :=
  (peel_absent ht hn hs hr).2 ⟨x, hx, h⟩

theorem reads_texts : JReads strsCodec [] (ListIs TextIs) n := reads_list reads_text

theorem reads_checksum : JReads checksumCodec {} (ObjectIs ChecksumIs {}) n := by
  refine reads_object fun es ht x => ⟨fun h => ?_, fun ⟨h1, h2⟩ => ?_⟩
  · obtain ⟨a, h1, h⟩ := peel_of ht h rfl reads_text
    obtain ⟨b, h2, h⟩ := peel_of ht h rfl reads_text
    cases h
    exact ⟨h1, h2⟩
  · refine unpeel ht rfl reads_text h1 ?_
    refine unpeel ht rfl reads_text h2 ?_
    rfl

theorem reads_code : JReads codeCodec {} (ObjectIs CodeIs {}) n := by
  refine reads_object fun es ht x => ⟨fun h => ?_, fun ⟨h1, h2⟩ => ?_⟩
  · obtain ⟨a, h1, h⟩ := peel_of ht h rfl reads_text
    obtain ⟨b, h2, h⟩ := peel_of ht h rfl reads_texts
    cases h
    exact ⟨h1, h2⟩
  · refine unpeel ht rfl reads_text h1 ?_
    refine unpeel ht rfl reads_texts h2 ?_
    rfl

theorem reads_pointer : JReads pointerCodec {} (ObjectIs PointerIs {}) n := by
  refine reads_object fun es ht x => ⟨fun h => ?_, fun ⟨h1, h2, h3⟩ => ?_⟩
  · obtain ⟨a, h1, h⟩ := peel_of ht h rfl reads_number
    obtain ⟨b, h2, h⟩ := peel_of ht h rfl reads_number
    obtain ⟨c, h3, h⟩ := peel_of ht h rfl reads_elementId
    cases h
    exact ⟨h1, h2, h3⟩
  · refine unpeel ht rfl reads_number h1 ?_
    refine unpeel ht rfl reads_number h2 ?_
    refine unpeel ht rfl reads_elementId h3 ?_
    rfl

theorem reads_range : JReads rangeCodec {} (ObjectIs RangeIs {}) n := by
  refine reads_object fun es ht x => ⟨fun h => ?_, fun ⟨h1, h2⟩ => ?_⟩
  · obtain ⟨a, h1, h⟩ := peel_of ht h rfl reads_pointer
    obtain ⟨b, h2, h⟩ := peel_of ht h rfl reads_pointer
    cases h
    exact ⟨h1, h2⟩
  · refine unpeel ht rfl reads_pointer h1 ?_
    refine unpeel ht rfl reads_pointer h2 ?_
    rfl

theorem reads_externalDocument : JReads externalDocCodec {} (ObjectIs ExternalDocumentIs {}) n := by
  refine reads_object fun es ht x => ⟨fun h => ?_, fun ⟨h1, h2, h3⟩ => ?_⟩
  · obtain ⟨a, h1, h⟩ := peel_of ht h rfl reads_documentId
    obtain ⟨b, h2, h⟩ := peel_of ht h rfl reads_text
    obtain ⟨c, h3, h⟩ := peel_of ht h rfl reads_checksum
    cases h
    exact ⟨h1, h2, h3⟩
  · refine unpeel ht rfl reads_documentId h1 ?_
    refine unpeel ht rfl reads_text h2 ?_
    refine unpeel ht rfl reads_checksum h3 ?_
    rfl

theorem reads_creation : JReads creationInfoCodec {} (ObjectIs CreationIs {}) n := by
  refine reads_object fun es ht x => ⟨fun h => ?_, fun ⟨h1, h2, h3, h4⟩ => ?_⟩
  · obtain ⟨a, h1, h⟩ := peel_of ht h rfl reads_text
    obtain ⟨b, h2, h⟩ := peel_of ht h rfl (reads_list reads_creator)
    obtain ⟨c, h3, h⟩ := peel_of ht h rfl reads_text
    obtain ⟨d, h4, h⟩ := peel_of ht h rfl reads_text
    cases h
    exact ⟨h1, h2, h3, h4⟩
  · refine unpeel ht rfl reads_text h1 ?_
    refine unpeel ht rfl (reads_list reads_creator) h2 ?_
    refine unpeel ht rfl reads_text h3 ?_
    refine unpeel ht rfl reads_text h4 ?_
    rfl

theorem reads_annotation : JReads annotationCodec {} (ObjectIs AnnotationIs {}) n := by
  refine reads_object fun es ht x => ⟨fun h => ?_, fun ⟨h1, h2, h3, h4, h5⟩ => ?_⟩
  · obtain ⟨a, h1, h⟩ := peel_of ht h rfl reads_annotator
    obtain ⟨b, h2, h⟩ := peel_of ht h rfl reads_text
    obtain ⟨c, h3, h⟩ := peel_of ht h rfl reads_text
    obtain ⟨d, h4, h⟩ := peel_of ht h rfl reads_text
    cases h
    exact ⟨h1, h2, h3, h4, rfl⟩
  · cases x
    cases h5
    refine unpeel ht rfl reads_annotator h1 ?_
    refine unpeel ht rfl reads_text h2 ?_
    refine unpeel ht rfl reads_text h3 ?_
    refine unpeel ht rfl reads_text h4 ?_
    rfl

theorem reads_relationship : JReads relationshipCodec {} (ObjectIs RelationshipIs {}) n := by
  refine reads_object fun es ht x => ⟨fun h => ?_, fun ⟨h1, h2, h3, h4⟩ => ?_⟩
  · obtain ⟨a, h1, h⟩ := peel_of ht h rfl reads_ref
    obtain ⟨b, h2, h⟩ := peel_of ht h rfl reads_ref
    obtain ⟨c, h3, h⟩ := peel_of ht h rfl reads_text
    obtain ⟨d, h4, h⟩ := peel_of ht h rfl reads_text
    cases h
    exact ⟨h1, h2, h3, h4⟩
  · refine unpeel ht rfl reads_ref h1 ?_
    refine unpeel ht rfl reads_ref h2 ?_
    refine unpeel ht rfl reads_text h3 ?_
    refine unpeel ht rfl reads_text h4 ?_
    rfl

theorem reads_license : JReads otherLicenseCodec {} (ObjectIs LicenseIs {}) n := by
  refine reads_object fun es ht x => ⟨fun h => ?_, fun ⟨h1, h2, h3, h4, h5⟩ => ?_⟩
  · obtain ⟨a, h1, h⟩ := peel_of ht h rfl reads_text
    obtain ⟨b, h2, h⟩ := peel_of ht h rfl reads_text
    obtain ⟨c, h3, h⟩ := peel_of ht h rfl reads_text
    obtain ⟨d, h4, h⟩ := peel_of ht h rfl reads_texts
    obtain ⟨d, h5, h⟩ := peel_of ht h rfl reads_text
    cases h
    exact ⟨h1, h2, h3, h4, h5⟩
  · refine unpeel ht rfl reads_text h1 ?_
    refine unpeel ht rfl reads_text h2 ?_
    refine unpeel ht rfl reads_text h3 ?_
    refine unpeel ht rfl reads_texts h4 ?_
    refine unpeel ht rfl reads_text h5 ?_
    rfl

theorem reads_artifact : JReads artifactCodec {} (ObjectIs ArtifactIs {}) n := by
  refine reads_object fun es ht x => ⟨fun h => ?_, fun ⟨h1, h2, h3⟩ => ?_⟩
  · obtain ⟨a, h1, h⟩ := peel_of ht h rfl reads_text
    obtain ⟨b, h2, h⟩ := peel_of ht h rfl reads_text
    obtain ⟨c, h3, h⟩ := peel_of ht h rfl reads_text
    cases h
    exact ⟨h1, h2, h3⟩
  · refine unpeel ht rfl reads_text h1 ?_
    refine unpeel ht rfl reads_text h2 ?_
    refine unpeel ht rfl reads_text h3 ?_
    rfl

theorem reads_snippet (v : Version) : JReads (snippetCodec v) {} (ObjectIs SnippetIs {}) n := by
  refine reads_object fun es ht x => ⟨fun h => ?_, fun ⟨h1, h2, h3, h4, h5, h6, h7, h8, h9, h10⟩ => ?_⟩
  · obtain ⟨_, h1, h⟩ := peel_of ht h rfl reads_elementId
    obtain ⟨_, h2, h⟩ := peel_of ht h rfl reads_elementId
    obtain ⟨_, h3, h⟩ := peel_of ht h rfl (reads_list reads_range)
    obtain ⟨_, h4, h⟩ := peel_of ht h rfl reads_text
    obtain ⟨_, h5, h⟩ := peel_of ht h rfl reads_texts
    obtain ⟨_, h6, h⟩ := peel_of ht h rfl reads_text
    obtain ⟨_, h7, h⟩ := peel_of ht h rfl reads_text
    obtain ⟨_, h8, h⟩ := peel_of ht h rfl reads_text
    obtain ⟨_, h9, h⟩ := peel_of ht h rfl reads_text
    cases h
    exact ⟨h1, h2, h3, h4, h5, h6, h7, h8, h9, rfl⟩
  · cases x
    cases h10
    refine unpeel ht rfl reads_elementId h1 ?_
    refine unpeel ht rfl reads_elementId h2 ?_
    refine unpeel ht rfl (reads_list reads_range) h3 ?_
    refine unpeel ht rfl reads_text h4 ?_
    refine unpeel ht rfl reads_texts h5 ?_
    refine unpeel ht rfl reads_text h6 ?_
    refine unpeel ht rfl reads_text h7 ?_
    refine unpeel ht rfl reads_text h8 ?_
    refine unpeel ht rfl reads_text h9 ?_
    rfl


theorem json_file_iff : ∀ (v : Version) {es : List (Str × Json)} {x : FileV}, tidy (.obj es) n = true →
    Absent n es [g!"artifactOfs"] →
    (decodeFields es (fileFields v) {} = .ok x ↔ FileIs v es x)
  | .v21, es, x, ht, _ => by
    constructor
    · intro h
      obtain ⟨_, h1, h⟩ := peel_of ht h rfl reads_text
      obtain ⟨_, h2, h⟩ := peel_of ht h rfl reads_elementId
      obtain ⟨_, h3, h⟩ := peel_of ht h rfl reads_texts
      obtain ⟨_, h4, h⟩ := peel_of ht h rfl (reads_list reads_checksum)
      obtain ⟨_, h5, h⟩ := peel_of ht h rfl reads_text
      obtain ⟨_, h6, h⟩ := peel_of ht h rfl reads_texts
      obtain ⟨_, h7, h⟩ := peel_of ht h rfl reads_text
      obtain ⟨_, h8, h⟩ := peel_of ht h rfl reads_text
      obtain ⟨_, h10, h⟩ := peel_of ht h rfl reads_text
      obtain ⟨_, h11, h⟩ := peel_of ht h rfl reads_text
      obtain ⟨_, h12, h⟩ := peel_of ht h rfl reads_texts
      obtain ⟨_, h16, h⟩ := peel_of ht h rfl (reads_list reads_annotation)
      cases h
      exact ⟨h1, h2, h3, h4, h5, h6, h7, h8, rfl, h10, h11, h12, rfl, rfl, rfl, h16⟩
    · rintro ⟨h1, h2, h3, h4, h5, h6, h7, h8, h9, h10, h11, h12, h13, h14, h15, h16⟩
      cases x
      cases h9
      cases h13
      cases h14
      cases h15
      refine unpeel ht rfl reads_text h1 ?_
      refine unpeel ht rfl reads_elementId h2 ?_
      refine unpeel ht rfl reads_texts h3 ?_
      refine unpeel ht rfl (reads_list reads_checksum) h4 ?_
      refine unpeel ht rfl reads_text h5 ?_
      refine unpeel ht rfl reads_texts h6 ?_
      refine unpeel ht rfl reads_text h7 ?_
      refine unpeel ht rfl reads_text h8 ?_
      refine unpeel ht rfl reads_text h10 ?_
      refine unpeel ht rfl reads_text h11 ?_
      refine unpeel ht rfl reads_texts h12 ?_
      refine unpeel ht rfl (reads_list reads_annotation) h16 ?_
      rfl
  | .v22, es, x, ht, _ => by
    constructor
    · intro h
      obtain ⟨_, h1, h⟩ := peel_of ht h rfl reads_text
      obtain ⟨_, h2, h⟩ := peel_of ht h rfl reads_elementId
      obtain ⟨_, h3, h⟩ := peel_of ht h rfl reads_texts
      obtain ⟨_, h4, h⟩ := peel_of ht h rfl (reads_list reads_checksum)
      obtain ⟨_, h5, h⟩ := peel_of ht h rfl reads_text
      obtain ⟨_, h6, h⟩ := peel_of ht h rfl reads_texts
      obtain ⟨_, h7, h⟩ := peel_of ht h rfl reads_text
      obtain ⟨_, h8, h⟩ := peel_of ht h rfl reads_text
      obtain ⟨_, h10, h⟩ := peel_of ht h rfl reads_text
      obtain ⟨_, h11, h⟩ := peel_of ht h rfl reads_text
      obtain ⟨_, h12, h⟩ := peel_of ht h rfl reads_texts
      obtain ⟨_, h13, h⟩ := peel_of ht h rfl reads_texts
      obtain ⟨_, h16, h⟩ := peel_of ht h rfl (reads_list reads_annotation)
      cases h
      exact ⟨h1, h2, h3, h4, h5, h6, h7, h8, rfl, h10, h11, h12, h13, rfl, rfl, h16⟩
    · rintro ⟨h1, h2, h3, h4, h5, h6, h7, h8, h9, h10, h11, h12, h13, h14, h15, h16⟩
      cases x
      cases h9
      cases h14
      cases h15
      refine unpeel ht rfl reads_text h1 ?_
      refine unpeel ht rfl reads_elementId h2 ?_
      refine unpeel ht rfl reads_texts h3 ?_
      refine unpeel ht rfl (reads_list reads_checksum) h4 ?_
      refine unpeel ht rfl reads_text h5 ?_
      refine unpeel ht rfl reads_texts h6 ?_
      refine unpeel ht rfl reads_text h7 ?_
      refine unpeel ht rfl reads_text h8 ?_
      refine unpeel ht rfl reads_text h10 ?_
      refine unpeel ht rfl reads_text h11 ?_
      refine unpeel ht rfl reads_texts h12 ?_
      refine unpeel ht rfl reads_texts h13 ?_
      refine unpeel ht rfl (reads_list reads_annotation) h16 ?_
      rfl
  | .v23, es, x, ht, hn => by
    constructor
    · intro h
      obtain ⟨_, h1, h⟩ := peel_of ht h rfl reads_text
      obtain ⟨_, h2, h⟩ := peel_of ht h rfl reads_elementId
      obtain ⟨_, h3, h⟩ := peel_of ht h rfl reads_texts
      obtain ⟨_, h4, h⟩ := peel_of ht h rfl (reads_list reads_checksum)
      obtain ⟨_, h5, h⟩ := peel_of ht h rfl reads_text
      obtain ⟨_, h6, h⟩ := peel_of ht h rfl reads_texts
      obtain ⟨_, h7, h⟩ := peel_of ht h rfl reads_text
      obtain ⟨_, h8, h⟩ := peel_of ht h rfl reads_text
      obtain ⟨_, h9, h⟩ := peel_of' ht hn.key h rfl (reads_ptrList reads_artifact.some)
      obtain ⟨_, h10, h⟩ := peel_of ht h rfl reads_text
      obtain ⟨_, h11, h⟩ := peel_of ht h rfl reads_text
      obtain ⟨_, h12, h⟩ := peel_of ht h rfl reads_texts
      obtain ⟨_, h13, h⟩ := peel_of ht h rfl reads_texts
      obtain ⟨_, h14, h⟩ := peel_of ht h rfl reads_texts
      obtain ⟨_, h16, h⟩ := peel_of ht h rfl (reads_list reads_annotation)
      cases h
      exact ⟨h1, h2, h3, h4, h5, h6, h7, h8, h9, h10, h11, h12, h13, h14, rfl, h16⟩
    · rintro ⟨h1, h2, h3, h4, h5, h6, h7, h8, h9, h10, h11, h12, h13, h14, h15, h16⟩
      cases x
      cases h15
      refine unpeel ht rfl reads_text h1 ?_
      refine unpeel ht rfl reads_elementId h2 ?_
      refine unpeel ht rfl reads_texts h3 ?_
      refine unpeel ht rfl (reads_list reads_checksum) h4 ?_
      refine unpeel ht rfl reads_text h5 ?_
      refine unpeel ht rfl reads_texts h6 ?_
      refine unpeel ht rfl reads_text h7 ?_
      refine unpeel ht rfl reads_text h8 ?_
      refine unpeel' ht hn.key rfl (reads_ptrList reads_artifact.some) h9 ?_
      refine unpeel ht rfl reads_text h10 ?_
      refine unpeel ht rfl reads_text h11 ?_
      refine unpeel ht rfl reads_texts h12 ?_
      refine unpeel ht rfl reads_texts h13 ?_
      refine unpeel ht rfl reads_texts h14 ?_
      refine unpeel ht rfl (reads_list reads_annotation) h16 ?_
      rfl

theorem reads_file (v : Version) : JReads (fileCodec v) {} (ObjectIs (FileIs v) {}) :=
  reads_object fun _ ht _ => json_file_iff v ht (.inl rfl)

theorem jsonExternalRef_iff {es : List (Str × Json)} {x : PackageExternalRef} (ht : tidy (.obj es) n = true) :
    decodeFields es externalRefFields {} = .ok x ↔ HasText es g!"referenceCategory" x.category ∧
      HasText es g!"referenceType" x.refType ∧ HasText es g!"referenceLocator" x.locator ∧ HasText es g!"comment" x.comment := by
  constructor
  · intro h
    obtain ⟨_, h1, h⟩ := peel_of ht h rfl reads_text
    obtain ⟨_, h2, h⟩ := peel_of ht h rfl reads_text
    obtain ⟨_, h3, h⟩ := peel_of ht h rfl reads_text
    obtain ⟨_, h4, h⟩ := peel_of ht h rfl reads_text
    cases h
    exact ⟨h1, h2, h3, h4⟩
  · rintro ⟨h1, h2, h3, h4⟩
    cases x
    refine unpeel ht rfl reads_text h1 ?_
    refine unpeel ht rfl reads_text h2 ?_
    refine unpeel ht rfl reads_text h3 ?_
    refine unpeel ht rfl reads_text h4 ?_
    rfl

theorem reads_externalRef (v : Version) : JReads (externalRefCodec v) {} (ObjectIs (ExternalRefIs v) {}) n := by
  by_cases hv : v = .v21
  · subst hv
    refine reads_object fun es ht x => (jsonExternalRef_iff ht).trans ⟨fun ⟨h1, h2, h3, h4⟩ => ⟨⟨_, h1, rfl⟩, h2, h3, h4⟩, ?_⟩
    rintro ⟨⟨c, h1, rfl⟩, h2, h3, h4⟩
    exact ⟨h1, h2, h3, h4⟩
  · have hd : ∀ j, (externalRefCodec v).dec j {} = (do
        let r ← (structCodec externalRefFields).dec j {}
        .ok { r with category := replaceChar '_' '-' r.category }) := by
      intro j
      cases v
      · exact absurd rfl hv
      · rfl
      · rfl
    intro j hj x
    rw [hd, bind_eq_ok]
    unfold ObjectIs
    cases j with
    | obj es =>
      have : ∀ r, (structCodec externalRefFields).dec (.obj es) {} = .ok r ↔ _ := fun r => jsonExternalRef_iff hj
      simp only [this, Json.obj.injEq, reduceCtorEq, false_and, or_false, exists_eq_left']
      constructor
      · rintro ⟨r, ⟨h1, h2, h3, h4⟩, h⟩
        cases h
        exact ⟨⟨_, h1, by rw [if_neg hv]; rfl⟩, h2, h3, h4⟩
      · rintro ⟨⟨c, h1, h5⟩, h2, h3, h4⟩
        rw [if_neg hv] at h5
        cases x
        cases h5
        exact ⟨⟨c, _, _, _⟩, ⟨h1, h2, h3, h4⟩, rfl⟩
    | null =>
      have : (structCodec externalRefFields).dec .null {} = .ok ({} : PackageExternalRef) := rfl
      simp [this, eq_comm, replaceChar]
    | _ => simp [structCodec]

/-- All fields of a package but those about its files being analyzed. -/
structure PackageRest (v : Version) (es : List (Str × Json)) (p : PackageV) : Prop where
  unpackaged : p.isUnpackaged = false
  name : HasText es g!"name" p.name
  id : HasId es g!"SPDXID" p.spdxId
  version : HasText es g!"versionInfo" p.version
  fileName : HasText es g!"packageFileName" p.fileName
  supplier : Has es g!"supplier" (OptionIs SupplierIs) none p.supplier
  originator : Has es g!"originator" (OptionIs OriginatorIs) none p.originator
  downloadLocation : HasText es g!"downloadLocation" p.downloadLocation
  /-- Before version 2.3 an empty code is none. -/
  code : ∃ o, Has es g!"packageVerificationCode" (OptionIs (ObjectIs CodeIs {})) none o ∧
    p.verificationCode = if v ≠ .v23 ∧ o = some {} then none else o
  checksums : HasObjects es g!"checksums" ChecksumIs {} p.checksums
  homePage : HasText es g!"homepage" p.homePage
  sourceInfo : HasText es g!"sourceInfo" p.sourceInfo
  licenseConcluded : HasText es g!"licenseConcluded" p.licenseConcluded
  licenseInfo : HasTexts es g!"licenseInfoFromFiles" p.licenseInfoFromFiles
  licenseDeclared : HasText es g!"licenseDeclared" p.licenseDeclared
  licenseComments : HasText es g!"licenseComments" p.licenseComments
  copyright : HasText es g!"copyrightText" p.copyrightText
  summary : HasText es g!"summary" p.summary
  description : HasText es g!"description" p.description
  comment : HasText es g!"comment" p.comment
  externalRefs : HasObjects es g!"externalRefs" (ExternalRefIs v) {} p.externalRefs
  attributions : if v = .v21 then p.attributionTexts = [] else HasTexts es g!"attributionTexts" p.attributionTexts
  purpose : if v = .v23 then HasText es g!"primaryPackagePurpose" p.primaryPurpose else p.primaryPurpose = []
  released : if v = .v23 then HasText es g!"releaseDate" p.releaseDate else p.releaseDate = []
  built : if v = .v23 then HasText es g!"builtDate" p.builtDate else p.builtDate = []
  validUntil : if v = .v23 then HasText es g!"validUntilDate" p.validUntilDate else p.validUntilDate = []
  files : HasObjects es g!"files" (FileIs v) {} p.files
  annotations : HasObjects es g!"annotations" AnnotationIs {} p.annotations

theorem json_package_rest {v : Version} {es : List (Str × Json)} {p : PackageV} : PackageIs v es p ↔ PackageRest v es p ∧
    ∃ o, Has es g!"filesAnalyzed" (OptionIs FlagIs) none o ∧ p.filesAnalyzed = o.getD (v ≠ .v21) ∧
      p.filesAnalyzedTagPresent = (decide (v ≠ .v21) && o.isSome) := by
  constructor
  · intro h
    exact ⟨{ h with }, h.analyzed⟩
  · rintro ⟨h, ha⟩
    exact { h with analyzed := ha }

theorem has_code {es : List (Str × Json)} {c : VerificationCode} :
    Has es g!"packageVerificationCode" (ObjectIs CodeIs {}) {} c ↔
      ∃ o, Has es g!"packageVerificationCode" (OptionIs (ObjectIs CodeIs {})) none o ∧ c = o.getD {} := by
  unfold Has OptionIs
  constructor
  · rintro (⟨h, rfl⟩ | ⟨j, h, h'⟩)
    · exact ⟨none, .inl ⟨h, rfl⟩, rfl⟩
    · by_cases hj : j = .null
      · refine ⟨none, .inr ⟨j, h, .inl ⟨hj, rfl⟩⟩, ?_⟩
        subst hj
        rcases h' with ⟨_, h', _⟩ | ⟨_, h'⟩
        · cases h'
        · exact h'
      · exact ⟨some c, .inr ⟨j, h, .inr ⟨hj, c, rfl, h'⟩⟩, rfl⟩
  · rintro ⟨o, ⟨h, rfl⟩ | ⟨j, h, ⟨rfl, rfl⟩ | ⟨hj, x, rfl, h'⟩⟩, rfl⟩
    · exact .inl ⟨h, rfl⟩
    · exact .inr ⟨_, h, .inr ⟨rfl, rfl⟩⟩
    · exact .inr ⟨_, h, h'⟩

theorem codeOption_getD {v : Version} (hv : v ≠ .v23) (o : Option VerificationCode) :
    codeOption (o.getD {}) = if v ≠ .v23 ∧ o = some {} then none else o := by
  unfold codeOption
  simp only [ne_eq, hv, not_false_eq_true, true_and]
  cases o with
  | none => simp
  | some c => by_cases h : c = {} <;> simp [h]

theorem json_package_iff : ∀ (v : Version) {es : List (Str × Json)} {x : PackageV}, tidy (.obj es) n = true →
    Absent n es [g!"externalRefs", g!"files"] →
    (decodeFields es (packageFields v) {} = .ok x ↔ PackageRest v es x ∧ Has es g!"filesAnalyzed" FlagIs false x.filesAnalyzed ∧
      x.filesAnalyzedTagPresent = false)
  | .v21, es, x, ht, hn => by
    constructor
    · intro h
      obtain ⟨_, h_name, h⟩ := peel_of ht h rfl reads_text
      obtain ⟨_, h_id, h⟩ := peel_of ht h rfl reads_elementId
      obtain ⟨_, h_version, h⟩ := peel_of ht h rfl reads_text
      obtain ⟨_, h_fileName, h⟩ := peel_of ht h rfl reads_text
      obtain ⟨_, h_supplier, h⟩ := peel_of ht h rfl (reads_ptr reads_supplier.some)
      obtain ⟨_, h_originator, h⟩ := peel_of ht h rfl (reads_ptr reads_originator.some)
      obtain ⟨_, h_downloadLocation, h⟩ := peel_of ht h rfl reads_text
      obtain ⟨_, h_ANALYZED, h⟩ := peel_of ht h rfl reads_flag
      obtain ⟨_, h_code, h⟩ := peel_of ht h rfl reads_code
      obtain ⟨_, h_checksums, h⟩ := peel_of ht h rfl (reads_list reads_checksum)
      obtain ⟨_, h_homePage, h⟩ := peel_of ht h rfl reads_text
      obtain ⟨_, h_sourceInfo, h⟩ := peel_of ht h rfl reads_text
      obtain ⟨_, h_licenseConcluded, h⟩ := peel_of ht h rfl reads_text
      obtain ⟨_, h_licenseInfo, h⟩ := peel_of ht h rfl reads_texts
      obtain ⟨_, h_licenseDeclared, h⟩ := peel_of ht h rfl reads_text
      obtain ⟨_, h_licenseComments, h⟩ := peel_of ht h rfl reads_text
      obtain ⟨_, h_copyright, h⟩ := peel_of ht h rfl reads_text
      obtain ⟨_, h_summary, h⟩ := peel_of ht h rfl reads_text
      obtain ⟨_, h_description, h⟩ := peel_of ht h rfl reads_text
      obtain ⟨_, h_comment, h⟩ := peel_of ht h rfl reads_text
      obtain ⟨_, h_externalRefs, h⟩ := peel_of' ht hn.key h rfl (reads_ptrList (reads_externalRef .v21).some)
      obtain ⟨_, h_files, h⟩ := peel_of' ht hn.key h rfl (reads_ptrList (reads_file .v21).some)
      obtain ⟨_, h_annotations, h⟩ := peel_of ht h rfl (reads_list reads_annotation)
      cases h
      have h_code' := has_code.1 h_code
      obtain ⟨o, h_code, ho⟩ := h_code'
      rw [ho]
      exact ⟨⟨rfl, h_name, h_id, h_version, h_fileName, h_supplier, h_originator, h_downloadLocation, ⟨o, h_code, codeOption_getD (by decide) o⟩, h_checksums, h_homePage, h_sourceInfo, h_licenseConcluded, h_licenseInfo, h_licenseDeclared, h_licenseComments, h_copyright, h_summary, h_description, h_comment, h_externalRefs, rfl, rfl, rfl, rfl, rfl, h_files, h_annotations⟩, h_ANALYZED, rfl⟩
    · rintro ⟨⟨h_unpackaged, h_name, h_id, h_version, h_fileName, h_supplier, h_originator, h_downloadLocation, ⟨o, h_code, ho⟩, h_checksums, h_homePage, h_sourceInfo, h_licenseConcluded, h_licenseInfo, h_licenseDeclared, h_licenseComments, h_copyright, h_summary, h_description, h_comment, h_externalRefs, h_attributions, h_purpose, h_released, h_built, h_validUntil, h_files, h_annotations⟩, h_ANALYZED, h_t⟩
      cases x
      cases h_unpackaged
      cases h_purpose
      cases h_released
      cases h_built
      cases h_validUntil
      cases h_attributions
      cases h_t
      cases (codeOption_getD (by decide) o).trans ho.symm
      refine unpeel ht rfl reads_text h_name ?_
      refine unpeel ht rfl reads_elementId h_id ?_
      refine unpeel ht rfl reads_text h_version ?_
      refine unpeel ht rfl reads_text h_fileName ?_
      refine unpeel ht rfl (reads_ptr reads_supplier.some) h_supplier ?_
      refine unpeel ht rfl (reads_ptr reads_originator.some) h_originator ?_
      refine unpeel ht rfl reads_text h_downloadLocation ?_
      refine unpeel ht rfl reads_flag h_ANALYZED ?_
      refine unpeel ht rfl reads_code (has_code.2 ⟨o, h_code, rfl⟩) ?_
      refine unpeel ht rfl (reads_list reads_checksum) h_checksums ?_
      refine unpeel ht rfl reads_text h_homePage ?_
      refine unpeel ht rfl reads_text h_sourceInfo ?_
      refine unpeel ht rfl reads_text h_licenseConcluded ?_
      refine unpeel ht rfl reads_texts h_licenseInfo ?_
      refine unpeel ht rfl reads_text h_licenseDeclared ?_
      refine unpeel ht rfl reads_text h_licenseComments ?_
      refine unpeel ht rfl reads_text h_copyright ?_
      refine unpeel ht rfl reads_text h_summary ?_
      refine unpeel ht rfl reads_text h_description ?_
      refine unpeel ht rfl reads_text h_comment ?_
      refine unpeel' ht hn.key rfl (reads_ptrList (reads_externalRef .v21).some) h_externalRefs ?_
      refine unpeel' ht hn.key rfl (reads_ptrList (reads_file .v21).some) h_files ?_
      refine unpeel ht rfl (reads_list reads_annotation) h_annotations ?_
      rfl
  | .v22, es, x, ht, hn => by
    constructor
    · intro h
      obtain ⟨_, h_name, h⟩ := peel_of ht h rfl reads_text
      obtain ⟨_, h_id, h⟩ := peel_of ht h rfl reads_elementId
      obtain ⟨_, h_version, h⟩ := peel_of ht h rfl reads_text
      obtain ⟨_, h_fileName, h⟩ := peel_of ht h rfl reads_text
      obtain ⟨_, h_supplier, h⟩ := peel_of ht h rfl (reads_ptr reads_supplier.some)
      obtain ⟨_, h_originator, h⟩ := peel_of ht h rfl (reads_ptr reads_originator.some)
      obtain ⟨_, h_downloadLocation, h⟩ := peel_of ht h rfl reads_text
      obtain ⟨_, h_ANALYZED, h⟩ := peel_of ht h rfl reads_flag
      obtain ⟨_, h_code, h⟩ := peel_of ht h rfl reads_code
      obtain ⟨_, h_checksums, h⟩ := peel_of ht h rfl (reads_list reads_checksum)
      obtain ⟨_, h_homePage, h⟩ := peel_of ht h rfl reads_text
      obtain ⟨_, h_sourceInfo, h⟩ := peel_of ht h rfl reads_text
      obtain ⟨_, h_licenseConcluded, h⟩ := peel_of ht h rfl reads_text
      obtain ⟨_, h_licenseInfo, h⟩ := peel_of ht h rfl reads_texts
      obtain ⟨_, h_licenseDeclared, h⟩ := peel_of ht h rfl reads_text
      obtain ⟨_, h_licenseComments, h⟩ := peel_of ht h rfl reads_text
      obtain ⟨_, h_copyright, h⟩ := peel_of ht h rfl reads_text
      obtain ⟨_, h_summary, h⟩ := peel_of ht h rfl reads_text
      obtain ⟨_, h_description, h⟩ := peel_of ht h rfl reads_text
      obtain ⟨_, h_comment, h⟩ := peel_of ht h rfl reads_text
      obtain ⟨_, h_externalRefs, h⟩ := peel_of' ht hn.key h rfl (reads_ptrList (reads_externalRef .v22).some)
      obtain ⟨_, h_attributions, h⟩ := peel_of ht h rfl reads_texts
      obtain ⟨_, h_files, h⟩ := peel_of' ht hn.key h rfl (reads_ptrList (reads_file .v22).some)
      obtain ⟨_, h_annotations, h⟩ := peel_of ht h rfl (reads_list reads_annotation)
      cases h
      have h_code' := has_code.1 h_code
      obtain ⟨o, h_code, ho⟩ := h_code'
      rw [ho]
      exact ⟨⟨rfl, h_name, h_id, h_version, h_fileName, h_supplier, h_originator, h_downloadLocation, ⟨o, h_code, codeOption_getD (by decide) o⟩, h_checksums, h_homePage, h_sourceInfo, h_licenseConcluded, h_licenseInfo, h_licenseDeclared, h_licenseComments, h_copyright, h_summary, h_description, h_comment, h_externalRefs, h_attributions, rfl, rfl, rfl, rfl, h_files, h_annotations⟩, h_ANALYZED, rfl⟩
    · rintro ⟨⟨h_unpackaged, h_name, h_id, h_version, h_fileName, h_supplier, h_originator, h_downloadLocation, ⟨o, h_code, ho⟩, h_checksums, h_homePage, h_sourceInfo, h_licenseConcluded, h_licenseInfo, h_licenseDeclared, h_licenseComments, h_copyright, h_summary, h_description, h_comment, h_externalRefs, h_attributions, h_purpose, h_released, h_built, h_validUntil, h_files, h_annotations⟩, h_ANALYZED, h_t⟩
      cases x
      cases h_unpackaged
      cases h_purpose
      cases h_released
      cases h_built
      cases h_validUntil
      cases h_t
      cases (codeOption_getD (by decide) o).trans ho.symm
      refine unpeel ht rfl reads_text h_name ?_
      refine unpeel ht rfl reads_elementId h_id ?_
      refine unpeel ht rfl reads_text h_version ?_
      refine unpeel ht rfl reads_text h_fileName ?_
      refine unpeel ht rfl (reads_ptr reads_supplier.some) h_supplier ?_
      refine unpeel ht rfl (reads_ptr reads_originator.some) h_originator ?_
      refine unpeel ht rfl reads_text h_downloadLocation ?_
      refine unpeel ht rfl reads_flag h_ANALYZED ?_
      refine unpeel ht rfl reads_code (has_code.2 ⟨o, h_code, rfl⟩) ?_
      refine unpeel ht rfl (reads_list reads_checksum) h_checksums ?_
      refine unpeel ht rfl reads_text h_homePage ?_
      refine unpeel ht rfl reads_text h_sourceInfo ?_
      refine unpeel ht rfl reads_text h_licenseConcluded ?_
      refine unpeel ht rfl reads_texts h_licenseInfo ?_
      refine unpeel ht rfl reads_text h_licenseDeclared ?_
      refine unpeel ht rfl reads_text h_licenseComments ?_
      refine unpeel ht rfl reads_text h_copyright ?_
      refine unpeel ht rfl reads_text h_summary ?_
      refine unpeel ht rfl reads_text h_description ?_
      refine unpeel ht rfl reads_text h_comment ?_
      refine unpeel' ht hn.key rfl (reads_ptrList (reads_externalRef .v22).some) h_externalRefs ?_
      refine unpeel ht rfl reads_texts h_attributions ?_
      refine unpeel' ht hn.key rfl (reads_ptrList (reads_file .v22).some) h_files ?_
      refine unpeel ht rfl (reads_list reads_annotation) h_annotations ?_
      rfl
  | .v23, es, x, ht, hn => by
    constructor
    · intro h
      obtain ⟨_, h_name, h⟩ := peel_of ht h rfl reads_text
      obtain ⟨_, h_id, h⟩ := peel_of ht h rfl reads_elementId
      obtain ⟨_, h_version, h⟩ := peel_of ht h rfl reads_text
      obtain ⟨_, h_fileName, h⟩ := peel_of ht h rfl reads_text
      obtain ⟨_, h_supplier, h⟩ := peel_of ht h rfl (reads_ptr reads_supplier.some)
      obtain ⟨_, h_originator, h⟩ := peel_of ht h rfl (reads_ptr reads_originator.some)
      obtain ⟨_, h_downloadLocation, h⟩ := peel_of ht h rfl reads_text
      obtain ⟨_, h_ANALYZED, h⟩ := peel_of ht h rfl reads_flag
      obtain ⟨_, h_code, h⟩ := peel_of ht h rfl (reads_ptr reads_code.some)
      obtain ⟨_, h_checksums, h⟩ := peel_of ht h rfl (reads_list reads_checksum)
      obtain ⟨_, h_homePage, h⟩ := peel_of ht h rfl reads_text
      obtain ⟨_, h_sourceInfo, h⟩ := peel_of ht h rfl reads_text
      obtain ⟨_, h_licenseConcluded, h⟩ := peel_of ht h rfl reads_text
      obtain ⟨_, h_licenseInfo, h⟩ := peel_of ht h rfl reads_texts
      obtain ⟨_, h_licenseDeclared, h⟩ := peel_of ht h rfl reads_text
      obtain ⟨_, h_licenseComments, h⟩ := peel_of ht h rfl reads_text
      obtain ⟨_, h_copyright, h⟩ := peel_of ht h rfl reads_text
      obtain ⟨_, h_summary, h⟩ := peel_of ht h rfl reads_text
      obtain ⟨_, h_description, h⟩ := peel_of ht h rfl reads_text
      obtain ⟨_, h_comment, h⟩ := peel_of ht h rfl reads_text
      obtain ⟨_, h_externalRefs, h⟩ := peel_of' ht hn.key h rfl (reads_ptrList (reads_externalRef .v23).some)
      obtain ⟨_, h_attributions, h⟩ := peel_of ht h rfl reads_texts
      obtain ⟨_, h_purpose, h⟩ := peel_of ht h rfl reads_text
      obtain ⟨_, h_released, h⟩ := peel_of ht h rfl reads_text
      obtain ⟨_, h_built, h⟩ := peel_of ht h rfl reads_text
      obtain ⟨_, h_validUntil, h⟩ := peel_of ht h rfl reads_text
      obtain ⟨_, h_files, h⟩ := peel_of' ht hn.key h rfl (reads_ptrList (reads_file .v23).some)
      obtain ⟨_, h_annotations, h⟩ := peel_of ht h rfl (reads_list reads_annotation)
      cases h
      exact ⟨⟨rfl, h_name, h_id, h_version, h_fileName, h_supplier, h_originator, h_downloadLocation, ⟨_, h_code, rfl⟩, h_checksums, h_homePage, h_sourceInfo, h_licenseConcluded, h_licenseInfo, h_licenseDeclared, h_licenseComments, h_copyright, h_summary, h_description, h_comment, h_externalRefs, h_attributions, h_purpose, h_released, h_built, h_validUntil, h_files, h_annotations⟩, h_ANALYZED, rfl⟩
    · rintro ⟨⟨h_unpackaged, h_name, h_id, h_version, h_fileName, h_supplier, h_originator, h_downloadLocation, ⟨o, h_code, ho⟩, h_checksums, h_homePage, h_sourceInfo, h_licenseConcluded, h_licenseInfo, h_licenseDeclared, h_licenseComments, h_copyright, h_summary, h_description, h_comment, h_externalRefs, h_attributions, h_purpose, h_released, h_built, h_validUntil, h_files, h_annotations⟩, h_ANALYZED, h_t⟩
      cases x
      cases h_unpackaged
      cases h_t
      cases ho
      refine unpeel ht rfl reads_text h_name ?_
      refine unpeel ht rfl reads_elementId h_id ?_
      refine unpeel ht rfl reads_text h_version ?_
      refine unpeel ht rfl reads_text h_fileName ?_
      refine unpeel ht rfl (reads_ptr reads_supplier.some) h_supplier ?_
      refine unpeel ht rfl (reads_ptr reads_originator.some) h_originator ?_
      refine unpeel ht rfl reads_text h_downloadLocation ?_
      refine unpeel ht rfl reads_flag h_ANALYZED ?_
      refine unpeel ht rfl (reads_ptr reads_code.some) h_code ?_
      refine unpeel ht rfl (reads_list reads_checksum) h_checksums ?_
      refine unpeel ht rfl reads_text h_homePage ?_
      refine unpeel ht rfl reads_text h_sourceInfo ?_
      refine unpeel ht rfl reads_text h_licenseConcluded ?_
      refine unpeel ht rfl reads_texts h_licenseInfo ?_
      refine unpeel ht rfl reads_text h_licenseDeclared ?_
      refine unpeel ht rfl reads_text h_licenseComments ?_
      refine unpeel ht rfl reads_text h_copyright ?_
      refine unpeel ht rfl reads_text h_summary ?_
      refine unpeel ht rfl reads_text h_description ?_
      refine unpeel ht rfl reads_text h_comment ?_
      refine unpeel' ht hn.key rfl (reads_ptrList (reads_externalRef .v23).some) h_externalRefs ?_
      refine unpeel ht rfl reads_texts h_attributions ?_
      refine unpeel ht rfl reads_text h_purpose ?_
      refine unpeel ht rfl reads_text h_released ?_
      refine unpeel ht rfl reads_text h_built ?_
      refine unpeel ht rfl reads_text h_validUntil ?_
      refine unpeel' ht hn.key rfl (reads_ptrList (reads_file .v23).some) h_files ?_
      refine unpeel ht rfl (reads_list reads_annotation) h_annotations ?_
      rfl

end Verif
