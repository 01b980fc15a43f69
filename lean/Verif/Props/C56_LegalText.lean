import Verif.Lemmas.LegalText
import Verif.Props.C05_C10_Parser
import Verif.Props.C01_C03_TVRead
import Verif.Props.C38_C39_ReadInto
import Verif.Props.C55_Sections

/-!
# C56: which tag-value texts are read
-/

namespace Verif
open Spec

theorem accepts_parsed {v : Version} {tvs : List TVPair} :
    Accepts v {} tvs ↔ tvs = [] ∨ ∃ d, parseTagValues v tvs = .ok (some d) := by
  constructor
  · rintro ⟨s, hs, hf, hp⟩
    rcases parsed_cases v tvs with h | ⟨-, h⟩ | ⟨d, h, -⟩
    · exfalso
      unfold parseTagValues at h
      rw [hs, Res.bind_ok, if_neg (by simp [hf]), if_neg (by simp [hp])] at h
      split at h
      · simp at h
      · split at h <;> simp at h
    · exact Or.inl ((C05_no_document_iff_empty v tvs).1 h)
    · exact Or.inr ⟨d, h⟩
  · rintro (rfl | ⟨d, h⟩)
    · exact ⟨{}, rfl, rfl, rfl⟩
    · unfold parseTagValues at h
      rw [bind_eq_ok] at h
      obtain ⟨s, hs, h⟩ := h
      split at h
      · simp at h
      rename_i hf
      split at h
      · simp at h
      rename_i hp
      exact ⟨s, hs, by simpa using hf, by simpa using hp⟩

theorem legalRest_text {v : Version} {tvs : List TVPair} : LegalRest v [] tvs ↔ LegalText v tvs := by
  unfold LegalRest LegalText
  simp

/-- **C56.** The pairs of a text, whose packages have names, are parsed into a document exactly if there are any and
all of them are legal (see `LegalText`); otherwise the parser reports an error, or, for no pairs at all, returns
nothing. -/
theorem C56_legal (v : Version) (tvs : List TVPair) (hn : PackagesNamed tvs) :
    ((∃ d, parseTagValues v tvs = .ok (some d)) ↔ tvs ≠ [] ∧ LegalText v tvs) ∧
    (parseTagValues v tvs = .err ↔ ¬ LegalText v tvs) := by
  have key := legal_rest (tracks_init v) (b := tvs) hn
  have hpend : Pending {} tvs := by constructor <;> simp [Parser.fileLacksId, Parser.pkgLacksId]
  rw [accepts_parsed, legalRest_text] at key
  have h0 := C05_no_document_iff_empty v tvs
  have hc := parsed_cases v tvs
  refine ⟨⟨?_, ?_⟩, ⟨?_, ?_⟩⟩
  · rintro ⟨d, h⟩
    refine ⟨?_, (key.1 (Or.inr ⟨d, h⟩)).1⟩
    rintro rfl
    rw [h0.2 rfl] at h; simp at h
  · rintro ⟨h1, h2⟩
    exact (key.2 ⟨h2, hpend⟩).resolve_left h1
  · intro h hl
    rcases key.2 ⟨hl, hpend⟩ with e | ⟨d, e⟩
    · rw [h0.2 e] at h; simp at h
    · rw [e] at h; simp at h
  · intro hl
    rcases hc with h | ⟨-, h⟩ | ⟨d, h, -⟩
    · exact h
    · exact absurd (key.1 (Or.inl (h0.1 h))).1 hl
    · exact absurd (key.1 (Or.inr ⟨d, h⟩)).1 hl

/-- **C56.** A tag-value text, whose packages have names, is read into a variable given by pointer exactly if it
consists of well-formed lines (see C03), its first `SPDXVersion` is a supported one and its pairs are legal in that
version. -/
theorem C56_text (copy : Version → Version → Doc → Doc) (target : Version) (text : Str)
    (hn : ∀ tvs, readTagValues text = .ok tvs → PackagesNamed tvs) :
    (∃ d, readTagValueInto copy true target text = .ok d) ↔
    ∃ tvs name v, readTagValues text = .ok tvs ∧ FirstVersion tvs name ∧ VersionNamed name v ∧ LegalText v tvs := by
  constructor
  · rintro ⟨d, h⟩
    obtain ⟨tvs, name, v, d0, h1, h2, h3, h4, -⟩ := (C38_dispatch copy target text).1 d h
    exact ⟨tvs, name, v, h1, h2, h3, ((C56_legal v tvs (hn tvs h1)).1.1 ⟨d0, h4⟩).2⟩
  · rintro ⟨tvs, name, v, h1, h2, h3, h4⟩
    have hne : tvs ≠ [] := by
      obtain ⟨b, a, rfl, -⟩ := h2
      simp
    obtain ⟨d0, h5⟩ := (C56_legal v tvs (hn tvs h1)).1.2 ⟨hne, h4⟩
    obtain ⟨d, h6, -⟩ := (C38_dispatch copy target text).2 tvs name v d0 h1 h2 h3 h5
    exact ⟨d, h6⟩

/-- **C56.** In particular every tag is one of those of its part of the text, so a text with a tag that the
format does not have is not read. -/
theorem C56_unknown_tag (v : Version) (tvs : List TVPair) (hn : PackagesNamed tvs) (p : TVPair) (hp : p ∈ tvs)
    (hu : ∀ place, p.tag ∉ tagsAt v place) : parseTagValues v tvs = .err := by
  refine (C56_legal v tvs hn).2.2 fun hl => ?_
  obtain ⟨a, b, rfl⟩ := List.append_of_mem hp
  exact hu _ (hl a p b rfl).tag

/-- **C56.** In particular snippets are read only directly behind a file or another snippet: the part of the text
before a snippet is one of these. -/
theorem C56_snippets_follow_files (v : Version) (tvs : List TVPair) (hn : PackagesNamed tvs) (d : Doc)
    (h : parseTagValues v tvs = .ok (some d)) (a b : List TVPair) (p : TVPair) (hp : tvs = a ++ p :: b)
    (ht : p.tag = g!"SnippetSPDXID") : placeOf a = .file ∨ placeOf a = .snippet := by
  have hl := (((C56_legal v tvs hn).1.1 ⟨d, h⟩).2 a p b hp).tag
  rw [ht] at hl
  cases hpl : placeOf a <;> rw [hpl] at hl <;> first | exact .inl rfl | exact .inr rfl | (exfalso; revert hl; cases v <;> decide)

/-- "A snippet that names its file is read wherever it stands" is false: behind a package without files it is an
error, and so `examples/sample-docs/tv/SPDXTagExample-v2.2.spdx`, where the snippet stands behind the last package, is
not read. -/
theorem C56_snippet_place_false : parseTagValues .v22 [⟨g!"FileName", g!"f"⟩, ⟨g!"SPDXID", g!"SPDXRef-f"⟩,
    ⟨g!"PackageName", g!"p"⟩, ⟨g!"SPDXID", g!"SPDXRef-p"⟩, ⟨g!"SnippetSPDXID", g!"SPDXRef-s"⟩,
    ⟨g!"SnippetFromFileSPDXID", g!"SPDXRef-f"⟩] = .err := by decide +kernel

/-- The sample of C55, with sections of every kind, is legal. -/
theorem C56_sample : PackagesNamed sectionSample ∧ LegalText .v23 sectionSample := by
  obtain ⟨hn, d, h, -⟩ := C55_sample
  exact ⟨hn, ((C56_legal .v23 _ hn).1.1 ⟨d, h⟩).2⟩

/-- It stays so in version 2.2, as it uses no tag of version 2.3. -/
example : LegalText .v22 sectionSample := by
  have h : (match parseTagValues .v22 sectionSample with | .ok (some _) => true | _ => false) = true := by decide +kernel
  split at h
  · rename_i d hd; exact ((C56_legal .v22 _ C56_sample.1).1.1 ⟨d, hd⟩).2
  · simp at h

/-- Texts that are illegal, each for its own reason: a tag of version 2.3 in version 2.2, a tag of a file in a
package, a section without an identifier, a package after an extracted license, the name of the document after its
creation, a comment on no relationship, a comment separated from its external reference, a malformed checksum. -/
example : let e := ⟨g!"SPDXID", g!"SPDXRef-p"⟩; let p := ⟨g!"PackageName", g!"p"⟩
    ([[p, e, ⟨g!"ReleaseDate", g!"d"⟩], [p, e, ⟨g!"FileType", g!"SOURCE"⟩], [p],
      [⟨g!"LicenseID", g!"LicenseRef-1"⟩, p, e], [⟨g!"Created", g!"c"⟩, ⟨g!"DocumentName", g!"d"⟩],
      [⟨g!"RelationshipComment", g!"c"⟩],
      [p, e, ⟨g!"ExternalRef", g!"a b c"⟩, ⟨g!"PackageVersion", g!"1"⟩, ⟨g!"ExternalRefComment", g!"c"⟩],
      [p, e, ⟨g!"PackageChecksum", g!"SHA1 00"⟩]] : List (List TVPair)).all
        (fun tvs => parseTagValues .v22 tvs = .err) = true := by decide +kernel

/-- The order is not checked across sections of packages without names: the first section here gives no
identifier, and yet the text is parsed. -/
theorem C56_unnamed_false : ∃ tvs d, parseTagValues .v23 tvs = .ok (some d) ∧ ¬ LegalText .v23 tvs := by
  have h : (match parseTagValues .v23 [⟨g!"PackageName", []⟩, ⟨g!"PackageName", g!"q"⟩, ⟨g!"SPDXID", g!"SPDXRef-q"⟩] with
    | .ok (some _) => true
    | _ => false) = true := by decide +kernel
  split at h
  · rename_i d hd
    refine ⟨_, d, hd, fun hl => ?_⟩
    obtain ⟨q, hq, -⟩ := (hl [] _ _ rfl).id (Or.inl rfl)
    have : ownPairs [⟨g!"PackageName", g!"q"⟩, ⟨g!"SPDXID", g!"SPDXRef-q"⟩] = [] := by decide
    rw [this] at hq
    simp at hq
  · simp at h

end Verif
