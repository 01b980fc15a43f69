import Verif.Lemmas.FoldKeys
import Verif.Lemmas.JsonDocument
import Verif.Props.C38_C39_ReadInto

/-!
# C57: what a JSON document is read as, and which JSON documents are read
-/

namespace Verif
open Spec

/-- The object states its version. -/
def Spec.StatesVersion (es : List (Str × Json)) (v : Version) : Prop :=
  ∃ raw name, (g!"spdxVersion", .str raw) ∈ es ∧ unescape raw = some name ∧ VersionNamed name v

theorem lastEntry_of_mem {key : Str} {es : List (Str × Json)} {j : Json} (ho : OneEach es) (h : (key, j) ∈ es) :
    lastEntry key es = some j := by
  induction es with
  | nil => cases h
  | cons e es ih =>
    obtain ⟨k, x⟩ := e
    obtain ⟨h1, h2⟩ := List.pairwise_cons.1 ho
    rw [lastEntry]
    rcases List.mem_cons.1 h with h | h
    · cases h
      cases hl : lastEntry key es with
      | none => simp
      | some y =>
        have := h1 key (List.mem_map.2 ⟨_, mem_of_lastEntry hl, rfl⟩)
        simp [sameKey] at this
    · rw [ih h2 h]

/-- **C57.** The values under a key are those whose key has the same characters up to case, where the long s is an
`s` and the sign for Kelvin a `k`; and a key occurs twice if two keys are the same in this sense. -/
theorem C57_keys (key : Str) (es : List (Str × Json)) :
    (∀ j, j ∈ entries key es ↔ ∃ k, (k, j) ∈ es ∧ Pointwise SameLetter key k) ∧
    (OneEach es ↔ (es.map (·.1)).Pairwise fun a b => ¬ Pointwise SameLetter a b) := by
  refine ⟨fun j => ?_, ?_⟩
  · simp only [entries, List.mem_map, List.mem_filter, sameKey_iff]
    exact ⟨fun ⟨e, ⟨h, hk⟩, hj⟩ => ⟨e.1, by rw [← hj]; exact h, hk⟩, fun ⟨k, h, hk⟩ => ⟨(k, j), ⟨h, hk⟩, rfl⟩⟩
  · unfold OneEach
    have : ∀ a b : Str, (sameKey a b = false) = ¬ Pointwise SameLetter a b := fun a b => by
      rw [← sameKey_iff, Bool.not_eq_true]
    simp only [this]

example : entries g!"packages" [(g!"name", .null), (['P', 'a', 'c', '\u212a', 'a', 'G', 'E', 'ſ'], .bool true), (g!"package", .bool false)] =
    [.bool true] := by rfl

/-- **C57.** A JSON object in which no key occurs twice and no array has a null entry is read as a document of a
version exactly if that document is what it says under its keys. -/
theorem C57_document (so : Sorter) (v : Version) (es : List (Str × Json)) (ht : tidy (.obj es) = true) (d : Doc) :
    decodeDoc so v (.obj es) = .ok d ↔ DocumentIs v es d :=
  decodeDoc_iff so ht

/-- **C57.** What an object says determines the document. -/
theorem C57_unique (v : Version) (es : List (Str × Json)) (ht : tidy (.obj es) = true) (d d' : Doc)
    (h : DocumentIs v es d) (h' : DocumentIs v es d') : d = d' := by
  rw [← decodeDoc_iff insertionSorter ht] at h h'
  exact Res.ok.inj (h.symm.trans h')

/-- **C57.** Reading JSON into a variable succeeds exactly if the object states a supported version and says
what a document of that version is; the result is that document, converted to the version of the variable. -/
theorem C57_read (so : Sorter) (copy : Version → Version → Doc → Doc) (target : Version) (es : List (Str × Json))
    (ht : tidy (.obj es) = true) :
    (∀ d, readJsonInto so copy true target (.obj es) = .ok d →
      ∃ v d0, StatesVersion es v ∧ DocumentIs v es d0 ∧ ConvertedTo v target d0 d) ∧
    (∀ v d0, StatesVersion es v → DocumentIs v es d0 →
      ∃ d, readJsonInto so copy true target (.obj es) = .ok d ∧ ConvertedTo v target d0 d) := by
  constructor
  · intro d h
    obtain ⟨es', raw, name, v, d0, he, h1, h2, h3, h4, h5, -⟩ := C38_json so copy target _ d h
    cases he
    exact ⟨v, d0, ⟨raw, name, h1, h2, h3⟩, (decodeDoc_iff so ht).1 h4, h5⟩
  · rintro v d0 ⟨raw, name, h1, h2, h3⟩ h4
    refine ⟨_, ?_, convertSteps_converted copy v target d0⟩
    simp only [readJsonInto, Bool.not_true, Bool.false_eq_true, if_false, lastEntry_of_mem (tidy_obj ht).1 h1, h2,
      Option.bind_some, versionNamed_iff.2 h3, (decodeDoc_iff so ht).2 h4, Res.bind_ok, convertDocument]

/-- **C57.** Into a variable of the version it states, an object is read as exactly what it says. -/
theorem C57_same_version (so : Sorter) (copy : Version → Version → Doc → Doc) (v : Version) (es : List (Str × Json))
    (ht : tidy (.obj es) = true) (hv : StatesVersion es v) (d : Doc) :
    readJsonInto so copy true v (.obj es) = .ok d ↔ DocumentIs v es d := by
  constructor
  · intro h
    obtain ⟨v', d0, h1, h2, h3⟩ := (C57_read so copy v es ht).1 d h
    have : v' = v := by
      obtain ⟨r, n, a1, a2, a3⟩ := hv
      obtain ⟨r', n', b1, b2, b3⟩ := h1
      have := (lastEntry_of_mem (tidy_obj ht).1 a1).symm.trans (lastEntry_of_mem (tidy_obj ht).1 b1)
      cases this
      rw [a2] at b2
      cases b2
      have := (versionNamed_iff.2 a3).symm.trans (versionNamed_iff.2 b3)
      cases this
      rfl
    subst this
    rw [ConvertedTo, if_pos rfl] at h3
    subst h3
    exact h2
  · intro h
    obtain ⟨d', h1, h2⟩ := (C57_read so copy v es ht).2 v d hv h
    rw [ConvertedTo, if_pos rfl] at h2
    subst h2
    exact h1

/-! ## A document -/

/-- A JSON document. -/
def saidObject (version : Str) : List (Str × Json) :=
  [(g!"SPDXID", .str g!"SPDXRef-DOCUMENT"),
   (g!"spdxVersion", .str version),
   (g!"Name", .str g!"a\\u0062c"),
   (g!"unknown", .arr [.num g!"1"]),
   (g!"creationInfo", .obj [(g!"creators", .arr [.str g!"Tool: t-1", .str g!"Person: A: B"]), (g!"created", .null)]),
   (g!"documentDescribes", .arr [.str g!"SPDXRef-p", .str g!"SPDXRef-q"]),
   (g!"packages", .arr
     [.obj [(g!"name", .str g!"p"), (g!"SPDXID", .str g!"SPDXRef-p"),
        (g!"supplier", .str g!"Organization: O (o@o.org)"),
        (g!"hasFiles", .arr [.str g!"SPDXRef-f", .str g!"DocumentRef-d:SPDXRef-g"]),
        (g!"packageVerificationCode", .obj []),
        (g!"checksums", .arr [.obj [(g!"algorithm", .str g!"SHA1"), (g!"checksumValue", .str g!"00")]]),
        (g!"externalRefs", .arr [.obj [(g!"referenceCategory", .str g!"PACKAGE_MANAGER")]]),
        (g!"attributionTexts", .arr [.str g!"thanks"])],
      .obj [(g!"name", .str g!"q"), (g!"SPDXID", .str g!"SPDXRef-q"), (g!"filesAnalyzed", .bool false),
        (g!"supplier", .str g!"NOASSERTION")]]),
   (g!"files", .arr [.obj [(g!"fileName", .str g!"./f"), (g!"SPDXID", .str g!"SPDXRef-f"),
        (g!"fileDependencies", .arr [.str g!"x"])]]),
   (g!"snippets", .arr [.obj [(g!"SPDXID", .str g!"SPDXRef-s"), (g!"snippetFromFile", .str g!"SPDXRef-f"),
        (g!"ranges", .arr [.obj [(g!"startPointer", .obj [(g!"offset", .num g!"3"), (g!"reference", .str g!"SPDXRef-f")]),
          (g!"endPointer", .obj [(g!"offset", .num g!"9"), (g!"reference", .str g!"SPDXRef-f")])]])]]),
   (g!"relationships", .arr [.obj [(g!"spdxElementId", .str g!"SPDXRef-p"), (g!"relatedSpdxElement", .str g!"SPDXRef-DOCUMENT"),
        (g!"relationshipType", .str g!"DESCRIBED_BY")]])]

/-- What it says in version 2.3. -/
def saidDoc : Doc :=
  { spdxVersion := g!"SPDX-2.3", spdxId := g!"DOCUMENT", name := g!"abc"
    creationInfo := some { creators := [⟨g!"t-1", g!"Tool"⟩, ⟨g!"A: B", g!"Person"⟩] }
    packages :=
      [{ name := g!"p", spdxId := g!"p", supplier := some { supplier := g!"O (o@o.org)", supplierType := g!"Organization" }
         filesAnalyzed := true, verificationCode := some {}, checksums := [{ algorithm := g!"SHA1", value := g!"00" }]
         externalRefs := [{ category := g!"PACKAGE-MANAGER" }], attributionTexts := [g!"thanks"] },
       { name := g!"q", spdxId := g!"q", supplier := some { supplier := g!"NOASSERTION" }, filesAnalyzed := false
         filesAnalyzedTagPresent := true }]
    files := [{ name := g!"./f", spdxId := g!"f", dependencies := [g!"x"] }]
    snippets := [{ spdxId := g!"s", fromFile := g!"f"
                   ranges := [{ startPointer := { offset := 3, fileSpdxId := g!"f" }, endPointer := { offset := 9, fileSpdxId := g!"f" } }] }]
    relationships :=
      [{ refA := { elementRefID := g!"p" }, refB := { elementRefID := g!"DOCUMENT" }, relationship := g!"DESCRIBED_BY" },
       { refA := { elementRefID := g!"DOCUMENT" }, refB := { elementRefID := g!"q" }, relationship := g!"DESCRIBES" },
       { refA := { elementRefID := g!"p" }, refB := { elementRefID := g!"f" }, relationship := g!"CONTAINS" },
       { refA := { elementRefID := g!"p" }, refB := { documentRefID := g!"d", elementRefID := g!"g" }, relationship := g!"CONTAINS" }] }

/-- The hypotheses are met by a document with packages, files, snippets and relationships, in every version. -/
theorem C57_sample (so : Sorter) :
    tidy (.obj (saidObject g!"SPDX-2.3")) = true ∧ StatesVersion (saidObject g!"SPDX-2.3") .v23 ∧
    DocumentIs .v23 (saidObject g!"SPDX-2.3") saidDoc ∧
    (∃ d, DocumentIs .v21 (saidObject g!"SPDX-2.1") d ∧ d.relationships.length = 1 ∧ d.packages.map (·.filesAnalyzed) = [false, false]) ∧
    ∃ d, DocumentIs .v22 (saidObject g!"SPDX-2.2") d ∧ d.packages.map (·.verificationCode) = [none, none] := by
  have h : ∀ s, s ∈ [g!"SPDX-2.1", g!"SPDX-2.2", g!"SPDX-2.3"] → tidy (.obj (saidObject s)) = true := by
    decide +kernel
  refine ⟨h _ (by decide), ⟨g!"SPDX-2.3", g!"SPDX-2.3", by simp [saidObject], by decide, .inr (.inr ⟨rfl, rfl⟩)⟩,
    (decodeDoc_iff so (h _ (by decide))).1 ?_, ⟨_, (decodeDoc_iff insertionSorter (h _ (by decide))).1 (by rfl), by decide +kernel, by decide +kernel⟩,
    ⟨_, (decodeDoc_iff insertionSorter (h _ (by decide))).1 (by rfl), by decide +kernel⟩⟩
  rfl

/-! ## Where reading falls short of the content -/

/-- A key twice: the document is read, though an object that says two things says nothing definite.  The last value
counts, and for objects both are merged. -/
theorem C57_duplicate_false : ∃ (es : List (Str × Json)) (d : Doc), ¬ OneEach es ∧
    decodeDoc insertionSorter .v23 (.obj es) = .ok d ∧ d.name = g!"b" ∧
    d.creationInfo = some { licenseListVersion := g!"3.9", created := g!"now" } :=
  ⟨[(g!"name", .str g!"a"), (g!"creationInfo", .obj [(g!"created", .str g!"now")]), (g!"NAME", .str g!"b"),
    (g!"creationInfo", .obj [(g!"licenseListVersion", .str g!"3.9")])],
    { name := g!"b", creationInfo := some { licenseListVersion := g!"3.9", created := g!"now" } }, by decide, by decide +kernel, rfl, rfl⟩

/-- Escapes are kept as they are in identifiers, suppliers and creators: two spellings of the same text are read as
two identifiers. -/
theorem C57_escape_false : ∃ (a b : Str) (d e : Doc), unescape a = unescape b ∧
    decodeDoc insertionSorter .v23 (.obj [(g!"SPDXID", .str a)]) = .ok d ∧
    decodeDoc insertionSorter .v23 (.obj [(g!"SPDXID", .str b)]) = .ok e ∧ d.spdxId ≠ e.spdxId :=
  ⟨g!"SPDXRef-A", g!"SPDXRef-\\u0041", { spdxId := g!"A" }, { spdxId := g!"\\u0041" }, by decide +kernel, by decide +kernel,
    by decide +kernel, by decide⟩

end Verif
