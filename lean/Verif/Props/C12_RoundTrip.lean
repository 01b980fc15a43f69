import Verif.Lemmas.SimDoc
import Verif.Props.C13_C14_Writer

/-!
# C12: a document written as tag-value reads back as the same document
-/

namespace Verif
open Spec

/-- **C12.** If a representable document is written as tag-value and no written line is too long for
the reader, then reading the text and parsing it (with the parser of the same version) succeeds and
returns the same document, with packages, files, references and snippets in the order of their
identifiers. -/
theorem C12_write_then_read (v : Version) (so : Sorter) (d : Doc) (text : Str)
    (representable : Representable v d) (written : writeTagValue v so d = .ok text) (fit : LinesFit text) :
    ∃ d', (readTagValues text >>= parseTagValues v) = .ok (some d') ∧ SameDoc d d' ∧ InOrder d' :=
  ⟨writtenDoc so d, read_back representable written fit, written_same so representable,
    written_inOrder so representable⟩

/-- **C12.** A representable document can be written. -/
theorem C12_representable_is_written (v : Version) (so : Sorter) (d : Doc) (h : Representable v d) :
    ∃ text, writeTagValue v so d = .ok text := by
  obtain ⟨c, hc, -⟩ := h.creationInfo
  exact ⟨emit (renderBody v so d c), by simp [writeTagValue, renderDocument, hc]⟩

/-- **C12.** Writing the document that was read back gives the same text again, if the identifiers
that decide the order are distinct. -/
theorem C12_write_is_stable (v : Version) (so so' : Sorter) (d d' : Doc) (text : Str)
    (representable : Representable v d) (distinct : DistinctIds d)
    (written : writeTagValue v so d = .ok text) (fit : LinesFit text)
    (back : (readTagValues text >>= parseTagValues v) = .ok (some d')) :
    writeTagValue v so' d' = .ok text := by
  obtain ⟨e, h1, h2, -⟩ := C12_write_then_read v so d text representable written fit
  rw [h1] at back
  obtain rfl : e = d' := by simpa using back
  rw [← written]
  exact (C13_output_independent_of_order v so so' d e h2 distinct).symm

/-! ## A document that meets the conditions -/

/-- A snippet with a byte range and a line range. -/
def C12_snippet (id : Str) : Snippet where
  spdxId := id
  fromFile := g!"f1"
  ranges := [⟨⟨3, 0, []⟩, ⟨17, 0, []⟩⟩, ⟨⟨0, 1, []⟩, ⟨0, 2, []⟩⟩]
  licenseConcluded := g!"MIT"
  licenseInfo := [g!"MIT"]
  comment := g!"first\nsecond"
  name := g!"snip"

/-- A file with two snippets and an artifact. -/
def C12_file : FileV where
  name := g!"./src/a.c"
  spdxId := g!"f1"
  types := [g!"SOURCE", g!"TEXT"]
  checksums := [⟨g!"SHA1", g!"85ed0817"⟩]
  licenseConcluded := g!"MIT AND (Apache-2.0 OR LicenseRef-1)"
  licenseInfoInFiles := [g!"MIT"]
  copyrightText := g!"Copyright:\n  someone\n"
  artifactOfProjects := [⟨g!"proj", g!"http://example.com", []⟩, ⟨g!"other", [], []⟩]
  contributors := [g!"A: B"]
  snippets := [(g!"s2", C12_snippet g!"s2"), (g!"s1", C12_snippet g!"s1")]

/-- A package with a file, an exclusion and an external reference. -/
def C12_package : PackageV where
  name := g!"tools"
  spdxId := g!"p1"
  version := g!"1.0"
  supplier := some { supplier := g!"Jane (jane@example.com)", supplierType := g!"Person" }
  originator := some { originator := g!"NOASSERTION" }
  filesAnalyzed := true
  filesAnalyzedTagPresent := true
  verificationCode := some ⟨g!"d6a770ba38583ed4bb4525bd96e50461655d2758", [g!"./package.spdx"]⟩
  checksums := [⟨g!"SHA256", g!"11b6d3ee"⟩]
  licenseInfoFromFiles := [g!"MIT"]
  description := g!"two\nlines"
  externalRefs := [⟨g!"SECURITY", g!"cpe23Type", g!"cpe:2.3:a:x", g!"see\nhere"⟩, ⟨g!"OTHER", g!"t", g!"l", []⟩]
  files := [C12_file]

/-- An annotation. -/
def C12_annotation : Annotation where
  annotator := ⟨g!"Joe", g!"Person"⟩
  date := g!"2011-01-01T00:00:00Z"
  type := g!"OTHER"
  spdxId := { elementRefID := g!"p1" }
  comment := g!"ok"

/-- A document that uses every section. -/
def C12_sample : Doc where
  spdxVersion := g!"SPDX-2.2"
  dataLicense := g!"CC0-1.0"
  spdxId := g!"DOCUMENT"
  name := g!"sample"
  namespace_ := g!"https://example.com/doc"
  externalDocumentRefs := [⟨g!"ext", g!"http://e.com", ⟨g!"SHA1", g!"d6a7"⟩⟩]
  creationInfo := some { creators := [⟨g!"tools-1", g!"Tool"⟩], created := g!"2010-01-29T18:30:22Z" }
  packages := [{ name := g!"other", spdxId := g!"p2", filesAnalyzed := true }, C12_package]
  files := [{ name := g!"b", spdxId := g!"f9" }]
  otherLicenses := [{ licenseIdentifier := g!"LicenseRef-1", extractedText := g!"some\ntext" }]
  relationships := [
    { refA := { elementRefID := g!"DOCUMENT" }, refB := { elementRefID := g!"p1" }, relationship := g!"DESCRIBES" },
    { refA := { elementRefID := g!"p1" }, refB := { specialID := g!"NONE" }, relationship := g!"DEPENDS_ON",
      comment := g!"no deps" },
    { refA := { elementRefID := g!"p1" }, refB := { documentRefID := g!"ext", elementRefID := g!"x" },
      relationship := g!"CONTAINS" }]
  annotations := [C12_annotation]
  reviews := [{ reviewer := g!"Ann", reviewerType := g!"Person", date := g!"2012-01-01T00:00:00Z" }]

theorem C12_snippet_ok (id : Str) (h : id = g!"s1" ∨ id = g!"s2") : RepSnippet .v22 (C12_snippet id) := by
  rcases h with rfl | rfl <;> constructor <;> decide

theorem C12_file_ok : RepFile .v22 C12_file where
  name := by decide
  spdxId := by decide
  types := by decide
  checksums := by decide
  licenseConcluded := by decide +kernel
  licenseInfoInFiles := by decide
  licenseComments := by decide
  copyrightText := by decide
  artifacts := by
    intro a ha
    simp only [C12_file, List.mem_cons, List.not_mem_nil, or_false] at ha
    rcases ha with rfl | rfl <;> exact ⟨by decide, by decide, by decide⟩
  comment := by decide
  notice := by decide
  contributors := by decide
  attributionTexts := by decide
  noAttribution21 := by decide
  dependencies := by decide
  snippets := by
    intro x hx
    simp only [C12_file, List.mem_cons, List.not_mem_nil, or_false] at hx
    rcases hx with rfl | rfl <;> exact ⟨rfl, C12_snippet_ok _ (by decide)⟩
  snippetKeys := by decide
  noAnnotations := rfl

/-- The sample document is representable, its text fits, and it is not in order, so that reading it
back does reorder it. -/
theorem C12_sample_ok : Representable .v22 C12_sample where
  spdxVersion := by decide
  dataLicense := by decide
  spdxId := by decide
  name := by decide
  namespace_ := by decide +kernel
  externalDocumentRefs := by
    intro e he
    simp only [C12_sample, List.mem_cons, List.not_mem_nil, or_false] at he
    subst he
    exact ⟨by decide, by decide, by decide, by decide⟩
  comment := by decide
  creationInfo := ⟨_, rfl, by decide, by decide, by decide, by decide, by decide⟩
  packages := by
    intro p hp
    simp only [C12_sample, List.mem_cons, List.not_mem_nil, or_false] at hp
    rcases hp with rfl | rfl
    · constructor <;> first | decide | rfl | (intro x hx; exact absurd hx (by simp))
    · constructor <;> first
        | decide +kernel
        | rfl
        | skip
      · intro c hc
        simp only [C12_package, Option.mem_some_iff] at hc
        subst hc
        exact ⟨rfl, by decide +kernel, by decide +kernel, .inr ⟨_, rfl, by decide, by decide⟩⟩
      · intro r hr
        simp only [C12_package, List.mem_cons, List.not_mem_nil, or_false] at hr
        rcases hr with rfl | rfl <;> exact ⟨by decide, by decide, by decide, by decide⟩
      · intro f hf
        simp only [C12_package, List.mem_cons, List.not_mem_nil, or_false] at hf
        subst hf; exact C12_file_ok
  files := by
    intro f hf
    simp only [C12_sample, List.mem_cons, List.not_mem_nil, or_false] at hf
    subst hf
    constructor <;> first | decide | rfl | (intro x hx; exact absurd hx (by simp))
  otherLicenses := by
    intro l hl
    simp only [C12_sample, List.mem_cons, List.not_mem_nil, or_false] at hl
    subst hl
    exact ⟨by decide, by decide, by decide, by decide, by decide⟩
  relationships := by
    intro r hr
    simp only [C12_sample, List.mem_cons, List.not_mem_nil, or_false] at hr
    rcases hr with rfl | rfl | rfl
    · exact ⟨by decide, .inl (by decide), by decide, by decide⟩
    · exact ⟨by decide, .inr ⟨by decide, .inl rfl⟩, by decide, by decide⟩
    · exact ⟨by decide, .inl (by decide), by decide, by decide⟩
  annotations := by
    intro a ha
    simp only [C12_sample, List.mem_cons, List.not_mem_nil, or_false] at ha
    subst ha
    exact ⟨by decide, by decide, by decide, .inr (by decide), by decide⟩
  noSnippets := rfl
  reviews := by
    intro a ha
    simp only [C12_sample, List.mem_cons, List.not_mem_nil, or_false] at ha
    subst ha
    exact ⟨by decide, by decide, by decide⟩

example : ∃ text, writeTagValue .v22 insertionSorter C12_sample = .ok text ∧ LinesFit text ∧
    (readTagValues text >>= parseTagValues .v22) ≠ .ok (some C12_sample) ∧ DistinctIds C12_sample := by
  refine ⟨_, rfl, by decide +kernel, by decide +kernel, by decide, by decide, by decide, by decide, by decide⟩

/-! ## What the conditions rule out -/

/-- Write a document and read it back. -/
def C12_trip (v : Version) (so : Sorter) (d : Doc) : Res (Option Doc) :=
  writeTagValue v so d >>= fun text => readTagValues text >>= parseTagValues v

/-- A document with one package. -/
def C12_with (p : PackageV) : Doc where
  spdxVersion := g!"SPDX-2.3"
  creationInfo := some { created := g!"2010" }
  packages := [p]

/-- A package that is representable by itself. -/
def C12_plain : PackageV where
  name := g!"p"
  spdxId := g!"p"
  filesAnalyzed := true
  filesAnalyzedTagPresent := true

/-- Two excluded files come back as one file whose name is both names. -/
theorem C12_two_exclusions_false :
    C12_trip .v23 insertionSorter
        (C12_with { C12_plain with verificationCode := some ⟨g!"abc", [g!"./a", g!"./b"]⟩ }) =
      .ok (some (C12_with { C12_plain with verificationCode := some ⟨g!"abc", [g!"./a, ./b"]⟩ })) := by
  decide +kernel

/-- A file with one snippet with the range. -/
def C12_ranged (rs : List SnippetRange) : Doc where
  spdxVersion := g!"SPDX-2.3"
  creationInfo := some { created := g!"2010" }
  files := [{ name := g!"f", spdxId := g!"f", snippets := [(g!"s", { spdxId := g!"s", fromFile := g!"f", ranges := rs })] }]

/-- A byte range that starts at zero is lost. -/
theorem C12_zero_offset_false :
    C12_trip .v23 insertionSorter (C12_ranged [⟨⟨0, 0, []⟩, ⟨17, 0, []⟩⟩]) = .ok (some (C12_ranged [])) := by
  decide +kernel

/-- The flag saying that the `FilesAnalyzed` field was present is not kept when the field is false: the
writer prints the field in any case. -/
theorem C12_files_analyzed_false :
    C12_trip .v23 insertionSorter
        (C12_with { C12_plain with filesAnalyzed := false, filesAnalyzedTagPresent := false }) =
      .ok (some (C12_with { C12_plain with filesAnalyzed := false, filesAnalyzedTagPresent := true })) := by
  decide +kernel

/-- The verification code of a package whose files were not analysed is lost. -/
theorem C12_code_of_unanalyzed_false :
    C12_trip .v23 insertionSorter
        (C12_with { C12_plain with filesAnalyzed := false, verificationCode := some ⟨g!"abc", []⟩ }) =
      .ok (some (C12_with { C12_plain with filesAnalyzed := false })) := by
  decide +kernel

/-- Annotations kept in a package are lost. -/
theorem C12_package_annotation_false :
    C12_trip .v23 insertionSorter (C12_with { C12_plain with annotations := [C12_annotation] }) =
      .ok (some (C12_with C12_plain)) := by
  decide +kernel

/-- Snippets kept in the document, as the JSON form keeps them, are lost. -/
theorem C12_document_snippet_false :
    C12_trip .v23 insertionSorter { C12_with C12_plain with snippets := [{ spdxId := g!"s", fromFile := g!"f" }] } =
      .ok (some (C12_with C12_plain)) := by
  decide +kernel

/-- Creation information that says nothing comes back as missing, and the result cannot be written
again. -/
theorem C12_empty_creation_info_false :
    C12_trip .v23 insertionSorter { spdxVersion := g!"SPDX-2.3", creationInfo := some {} } =
      .ok (some { spdxVersion := g!"SPDX-2.3" }) ∧
    C12_trip .v23 insertionSorter { spdxVersion := g!"SPDX-2.3" } = .err := by
  decide +kernel

/-- A supplier of another kind is written, but what is written cannot be read. -/
theorem C12_supplier_kind_false :
    (∃ text, writeTagValue .v23 insertionSorter
      (C12_with { C12_plain with supplier := some { supplierType := g!"Tool", supplier := g!"x" } }) = .ok text) ∧
    C12_trip .v23 insertionSorter (C12_with { C12_plain with supplier := some { supplierType := g!"Tool", supplier := g!"x" } }) =
      .err := by
  exact ⟨⟨_, rfl⟩, by decide +kernel⟩

end Verif
