import Verif.Lemmas.JsonStable
import Verif.Props.C60_Yaml

/-!
# C85: the JSON text of a document says this document and no other, and is always the same
-/

namespace Verif
open Spec

/-- **C85.** Whatever document is written, the text is that of a JSON object; in it and in the objects within it no
key occurs twice, also not in other letters, and no array has an entry `null`. -/
theorem C85_legal (so : Sorter) (v : Version) (html : Bool) (indent : Str) (hi : Blank indent) (d : Doc) (s : Str)
    (h : writeJsonText so v html indent d = .ok s) : ∃ es, JsonTextOf s (.obj es) ∧ tidy (.obj es) = true := by
  obtain ⟨j, h1, h2⟩ := (C58_written so v html indent hi d).1 s h
  obtain ⟨es, raw, rfl, h3, -, -⟩ := writeJson_tidyObject h1
  exact ⟨es, h2, h3⟩

/-- **C85.** The text written for a document states the version of the document and says this document, as far as
JSON keeps it, and no other. -/
theorem C85_says (so : Sorter) (v : Version) (html : Bool) (indent : Str) (hi : Blank indent) (d : Doc)
    (hd : JsonDocument html d) (hv : d.spdxVersion = versionName v) :
    ∃ s es, writeJsonText so v html indent d = .ok s ∧ JsonTextOf s (.obj es) ∧ tidy (.obj es) = true ∧ StatesVersion es v ∧
      ∀ d', DocumentIs v es d' ↔ d' = keptDoc v d := by
  obtain ⟨j, h1, h2⟩ := C47_round_trip so so (fun _ _ d => d) v html d hd hv
  obtain ⟨es, raw, rfl, h3, h4, h5⟩ := writeJson_tidyObject h1
  obtain ⟨s, h6, h7⟩ := (C58_written so v html indent hi d).2 _ h1
  have hs : StatesVersion es v := by
    refine ⟨raw, versionName v, h4, ?_, ?_⟩
    · rw [h5, hv]
      cases v <;> cases html <;> decide
    · cases v
      · exact .inl ⟨rfl, rfl⟩
      · exact .inr (.inl ⟨rfl, rfl⟩)
      · exact .inr (.inr ⟨rfl, rfl⟩)
  have h8 := (C57_same_version so (fun _ _ d => d) v es h3 hs _).1 (h2 _ (like_refl _))
  exact ⟨s, es, h6, h7, h3, hs, fun d' => ⟨fun h => C57_unique v es h3 _ _ h h8, fun h => h ▸ h8⟩⟩

/-- **C85.** What is written does not depend on the sorting routine, nor on what JSON does not keep: the document as
it is kept is written as the same text. -/
theorem C85_kept (so so' : Sorter) (v : Version) (html : Bool) (indent : Str) (y : Yaml) (d : Doc) :
    writeJsonText so v html indent (keptDoc v d) = writeJsonText so' v html indent d ∧
    writeYamlText y so v (keptDoc v d) = writeYamlText y so' v d := by
  constructor
  · unfold writeJsonText
    rw [writeJson_kept, writeJson_any so so']
  · unfold writeYamlText
    rw [writeJson_kept, writeJson_any so so']

/-- **C85.** A document that was written as JSON, read, and written again gives the same text, byte for byte. -/
theorem C85_stable_json (so so' so'' : Sorter) (copy : Version → Version → Doc → Doc) (float : Str → Bool)
    (hf : ∀ n, IsInt64 n → float (itoa n) = true) (odd : Str → Res Doc) (v : Version) (html : Bool) (indent : Str) (hi : Blank indent)
    (d : Doc) (hd : JsonDocument html d) (hv : d.spdxVersion = versionName v) :
    ∃ s e, writeJsonText so v html indent d = .ok s ∧ readJsonText so' copy float odd true v s = .ok e ∧
      ∀ html' indent', writeJsonText so'' v html' indent' e = writeJsonText so v html' indent' d := by
  obtain ⟨s, h1, h2⟩ := C58_round_trip so so' copy float hf odd v html indent hi d hd hv
  exact ⟨s, keptDoc v d, h1, h2, fun html' indent' => (C85_kept so'' so v html' indent' { parse := fun _ _ => none, print := fun _ => none } d).1⟩

/-- **C85.** The same for YAML. -/
theorem C85_stable_yaml (y : Yaml) (so so' so'' : Sorter) (copy : Version → Version → Doc → Doc) (v : Version)
    (d : Doc) (hd : JsonDocument true d) (hv : d.spdxVersion = versionName v)
    (hy : ∀ j, writeJson so v true d = .ok j → YamlKeeps y j) :
    ∃ s e, writeYamlText y so v d = .ok s ∧ readYamlText y so' copy true v s = .ok e ∧ writeYamlText y so'' v e = .ok s := by
  obtain ⟨s, h1, h2⟩ := C60_round_trip y so so' copy v d hd hv hy
  exact ⟨s, keptDoc v d, h1, h2, (C85_kept so'' so v true [] y d).2.trans h1⟩

/-- **C85.** Two documents are written as the same text exactly if they agree in what JSON keeps. -/
theorem C85_same_text (so so' : Sorter) (v : Version) (html : Bool) (indent : Str) (hi : Blank indent) (d e : Doc)
    (hd : JsonDocument html d) (he : JsonDocument html e) (hdv : d.spdxVersion = versionName v) (hev : e.spdxVersion = versionName v) :
    writeJsonText so v html indent d = writeJsonText so' v html indent e ↔ keptDoc v d = keptDoc v e := by
  constructor
  · intro h
    obtain ⟨s, h1, h2⟩ := C58_round_trip so so (fun _ _ d => d) (fun _ => true) (fun _ _ => rfl) (fun _ => .err) v html indent hi d hd hdv
    obtain ⟨t, h3, h4⟩ := C58_round_trip so' so (fun _ _ d => d) (fun _ => true) (fun _ _ => rfl) (fun _ => .err) v html indent hi e he hev
    rw [h1, h3] at h
    cases h
    exact Res.ok.inj (h2.symm.trans h4)
  · intro h
    have y : Yaml := { parse := fun _ _ => none, print := fun _ => none }
    rw [← (C85_kept so so v html indent y d).1, h, (C85_kept so so' v html indent y e).1]

/-- **C85.** A document of which JSON keeps everything is thus not written as any other such document is. -/
theorem C85_whole (so so' : Sorter) (v : Version) (html : Bool) (indent : Str) (hi : Blank indent) (d e : Doc)
    (hd : JsonDocument html d) (he : JsonDocument html e) (hdv : d.spdxVersion = versionName v) (hev : e.spdxVersion = versionName v)
    (hdw : WholeDoc v d) (hew : WholeDoc v e) :
    writeJsonText so v html indent d = writeJsonText so' v html indent e ↔ d = e := by
  rw [C85_same_text so so' v html indent hi d e hd he hdv hev, keptDoc_whole hdw, keptDoc_whole hew]

/-! ## A document -/

/-- The document of C47 with a review and an annotation that names what it is about. -/
def doc85 : Doc :=
  { doc47 with
    reviews := [{ reviewer := g!"Joe", reviewerType := g!"Person", date := g!"d", comment := g!"fine" }]
    annotations := [{ annotator := { annotator := g!"Joe", annotatorType := g!"Person" }, date := g!"d", type := g!"REVIEW",
                      spdxId := { elementRefID := g!"p" }, comment := g!"<&>" }] }

/-- The same without what JSON does not keep. -/
def doc85' : Doc :=
  { doc47 with
    annotations := [{ annotator := { annotator := g!"Joe", annotatorType := g!"Person" }, date := g!"d", type := g!"REVIEW", comment := g!"<&>" }] }

theorem doc85_ok : JsonDocument true doc85 ∧ JsonDocument true doc85' := by
  have h := doc47_ok.1
  constructor
  all_goals
    refine ⟨h.id, h.refs, h.creators, h.packages, h.files, h.relationships, ?_, h.snippets⟩
    simp only [doc85, doc85', List.mem_singleton, forall_eq]
    exact ⟨by decide, ⟨by decide, by decide, by decide, by decide, by decide⟩, fun _ => by decide, fun _ => by decide⟩

/-- The hypotheses are met by documents with and without what JSON does not keep. -/
theorem C85_sample : JsonDocument true doc47 ∧ JsonDocument true doc85 ∧ doc47.spdxVersion = versionName .v22 ∧
    doc85.spdxVersion = versionName .v22 ∧ WholeDoc .v22 doc47 ∧ WholeDoc .v22 { doc47 with name := g!"other" } ∧
    keptDoc .v22 doc85 ≠ doc85 ∧ Blank g!"  " ∧ (∀ j, writeJson insertionSorter .v22 true doc47 = .ok j → YamlKeeps jsonYaml j) := by
  have h := doc47_ok.2.2
  exact ⟨doc47_ok.1, doc85_ok.1, rfl, rfl, h, ⟨h.reviews, h.packages, h.files, h.annotations, h.snippets⟩, by decide +kernel, by simp [Blank],
    C60_sample.2.2.1⟩

/-- **Different documents are written as the same text**: here they differ in a review and in the element that an
annotation is about. -/
theorem C85_different_false : JsonDocument true doc85 ∧ JsonDocument true doc85' ∧
    doc85.reviews ≠ doc85'.reviews ∧ doc85.annotations ≠ doc85'.annotations ∧
    ∀ so so' indent, writeJsonText so .v22 true indent doc85 = writeJsonText so' .v22 true indent doc85' :=
  ⟨doc85_ok.1, doc85_ok.2, by decide +kernel, by decide +kernel, fun so so' indent => by
    rw [← (C85_kept so so .v22 true indent jsonYaml doc85).1, ← (C85_kept so' so' .v22 true indent jsonYaml doc85').1,
      show keptDoc .v22 doc85 = keptDoc .v22 doc85' from rfl, (C85_kept so so' .v22 true indent jsonYaml doc85').1,
      (C85_kept so' so' .v22 true indent jsonYaml doc85').1]⟩

end Verif
