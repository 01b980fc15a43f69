import Verif.Lemmas.JsonWritten
import Verif.Props.C47_Json
import Verif.Props.C57_JsonSays

/-!
# C58: JSON text
-/

namespace Verif
open Spec

/-- **C58.** The scanner takes a text for a value exactly if it is JSON text for it: blanks in any place between
tokens, strings with any escapes, numbers as in RFC 8259, at most 10000 levels; nothing else. -/
theorem C58_grammar (s : Str) (j : Json) : scanJson s = some j ↔ JsonTextOf s j := scanJson_iff

/-- **C58.** No text is JSON for two values. -/
theorem C58_unambiguous (s : Str) (j k : Json) (hj : JsonTextOf s j) (hk : JsonTextOf s k) : j = k := by
  rw [← scanJson_iff] at hj hk
  exact Option.some.inj (hj.symm.trans hk)

section
variable (so : Sorter) (copy : Version → Version → Doc → Doc) (float : Str → Bool) (odd : Str → Res Doc) (target : Version)

/-- **C58.** What is not JSON is not read. -/
theorem C58_only_json (s : Str) (h : ∀ j, ¬ JsonTextOf s j) : readJsonText so copy float odd true target s = .err := by
  unfold readJsonText
  cases hs : scanJson s with
  | none => rfl
  | some j => exact absurd (scanJson_iff.1 hs) (h j)

/-- What JSON text is read as. -/
theorem readJsonText_of {s : Str} {j : Json} (h : JsonTextOf s j) : readJsonText so copy float odd true target s =
    if !j.floats float then .err
    else if j.agentsPlain then readJsonInto so copy true target j else odd s := by
  unfold readJsonText
  rw [scanJson_iff.2 h]
  rfl

/-- **C58.** The layout does not matter: two texts for the same value are read alike. -/
theorem C58_layout (s s' : Str) (j : Json) (hp : j.agentsPlain = true) (h : JsonTextOf s j) (h' : JsonTextOf s' j) :
    readJsonText so copy float odd true target s = readJsonText so copy float odd true target s' := by
  rw [readJsonText_of so copy float odd target h, readJsonText_of so copy float odd target h', hp]
  rfl

/-- **C58.** A text is read as exactly what the JSON object it is says: the text of an object that states its
version, into a variable of that version. -/
theorem C58_says (s : Str) (es : List (Str × Json)) (hs : JsonTextOf s (.obj es)) (hf : Json.floats float (.obj es) = true)
    (hp : Json.agentsPlain (.obj es) = true) (ht : tidy (.obj es) = true) (hv : StatesVersion es target) (d : Doc) :
    readJsonText so copy float odd true target s = .ok d ↔ DocumentIs target es d := by
  rw [readJsonText_of so copy float odd target hs, hf, hp]
  exact C57_same_version so copy target es ht hv d

/-- **C58.** Only texts of JSON objects are read without an error, unless an array or object stands in place of an
agent. -/
theorem C58_objects (s : Str) (d : Doc) (h : readJsonText so copy float (fun _ => .err) true target s = .ok d) :
    ∃ es, JsonTextOf s (.obj es) ∧ readJsonInto so copy true target (.obj es) = .ok d := by
  cases hs : scanJson s with
  | none => simp [readJsonText, hs] at h
  | some j =>
    have hj := scanJson_iff.1 hs
    rw [readJsonText_of so copy float _ target hj] at h
    split at h
    · cases h
    · split at h
      · cases j with
        | obj es => exact ⟨es, hj, h⟩
        | _ => cases h
      · cases h

end

/-- The text of a written value. -/
theorem written_text {float : Str → Bool} {indent : Str} {j : Json} {n : Nat} (hi : Blank indent) (hn : n ≤ 10000)
    (hf : FineJson float n j) : JsonTextOf ((if indent = [] then j.text else j.indented indent 0) ++ g!"\n") j := by
  refine ⟨[], if indent = [] then j.text else j.indented indent 0, g!"\n", by rw [List.nil_append], blank_nil, by simp [Blank], ?_,
    Nat.le_trans hf.flat hn⟩
  by_cases h : indent = []
  · rw [if_pos h]
    exact text_spelt j hf.spelt
  · rw [if_neg h]
    exact indented_spelt hi j 0 hf.spelt

/-- **C58.** What is written, with any indentation by blanks, is JSON text for the value the document is written as;
and the text is written whenever the value is. -/
theorem C58_written (so : Sorter) (v : Version) (html : Bool) (indent : Str) (hi : Blank indent) (d : Doc) :
    (∀ s, writeJsonText so v html indent d = .ok s → ∃ j, writeJson so v html d = .ok j ∧ JsonTextOf s j) ∧
    (∀ j, writeJson so v html d = .ok j → ∃ s, writeJsonText so v html indent d = .ok s ∧ JsonTextOf s j) := by
  have key : ∀ j, writeJson so v html d = .ok j →
      JsonTextOf ((if indent = [] then j.text else j.indented indent 0) ++ g!"\n") j := fun j hj =>
    written_text hi (by decide) (writeJson_fine (float := fun _ => true) (fun s _ r _ => ⟨⟨rfl, rfl⟩, ⟨rfl, rfl⟩⟩) hj)
  constructor
  · intro s h
    unfold writeJsonText at h
    cases hj : writeJson so v html d with
    | err => rw [hj] at h; cases h
    | panic => rw [hj] at h; cases h
    | ok j =>
      rw [hj, Res.bind_ok] at h
      cases h
      exact ⟨j, rfl, key j hj⟩
  · intro j hj
    refine ⟨_, ?_, key j hj⟩
    unfold writeJsonText
    rw [hj, Res.bind_ok]

/-- **C58.** Writing a document of any version as JSON text succeeds, with any indentation by blanks, with or without
HTML escaping; and reading the text yields what `keptDoc` says. -/
theorem C58_round_trip (so so' : Sorter) (copy : Version → Version → Doc → Doc) (float : Str → Bool)
    (hf : ∀ n, IsInt64 n → float (itoa n) = true) (odd : Str → Res Doc) (v : Version) (html : Bool) (indent : Str) (hi : Blank indent)
    (d : Doc) (hd : JsonDocument html d) (hv : d.spdxVersion = versionName v) :
    ∃ s, writeJsonText so v html indent d = .ok s ∧ readJsonText so' copy float odd true v s = .ok (keptDoc v d) := by
  obtain ⟨j, h1, h2⟩ := C47_round_trip so so' copy v html d hd hv
  have fine : FineJson float 7 j := writeJson_fine (fun s hs r hr =>
    have := (hd.snippets s hs).ranges r hr
    ⟨⟨hf _ this.1.offset, hf _ this.1.line⟩, ⟨hf _ this.2.offset, hf _ this.2.line⟩⟩) h1
  obtain ⟨s, h3, h4⟩ := (C58_written so v html indent hi d).2 j h1
  refine ⟨s, h3, ?_⟩
  rw [readJsonText_of so' copy float odd v h4, fine.floats, fine.plain]
  exact h2 j (like_refl j)

/-- **C58.** A document of which JSON leaves out nothing comes back unchanged, whatever the layout. -/
theorem C58_unchanged (so so' : Sorter) (copy : Version → Version → Doc → Doc) (float : Str → Bool)
    (hf : ∀ n, IsInt64 n → float (itoa n) = true) (odd : Str → Res Doc) (v : Version) (html : Bool) (indent : Str) (hi : Blank indent)
    (d : Doc) (hd : JsonDocument html d) (hv : d.spdxVersion = versionName v) (hw : WholeDoc v d) :
    ∃ s, writeJsonText so v html indent d = .ok s ∧ readJsonText so' copy float odd true v s = .ok d := by
  obtain ⟨s, h1, h2⟩ := C58_round_trip so so' copy float hf odd v html indent hi d hd hv
  obtain ⟨j, h3, h4⟩ := C47_unchanged so so' copy v html d hd hv hw
  obtain ⟨j', h5, h6⟩ := C47_round_trip so so' copy v html d hd hv
  rw [h3] at h5
  cases h5
  have := h4.symm.trans (h6 j (like_refl j))
  rw [← Res.ok.inj this] at h2
  exact ⟨s, h1, h2⟩

/-! ## A text -/

/-- A text with blanks, escapes, an array, an empty object and numbers. -/
def text58 : Str :=
  g!" {\"spdxVersion\" : \"SPDX-2.3\",\n\t\"n\\u0061me\": \"x\\n\", \"SPDXID\":\"SPDXRef-DOCUMENT\",\"a\":[ -1.5e+3,true ,{ }]}\r\n"

/-- The value it is JSON for. -/
def json58 : List (Str × Json) :=
  [(g!"spdxVersion", .str g!"SPDX-2.3"), (g!"name", .str g!"x\\n"), (g!"SPDXID", .str g!"SPDXRef-DOCUMENT"),
   (g!"a", .arr [.num g!"-1.5e+3", .bool true, .obj []])]

/-- It meets the hypotheses of `C58_says`, and another layout of it is read alike; a document with packages, files and
snippets meets those of `C58_round_trip` and `C58_unchanged` with two spaces of indentation. -/
theorem C58_sample :
    JsonTextOf text58 (.obj json58) ∧ JsonTextOf (Json.text (.obj json58)) (.obj json58) ∧
    Json.floats (fun l => l.length < 300) (.obj json58) = true ∧
    Json.agentsPlain (.obj json58) = true ∧ tidy (.obj json58) = true ∧ StatesVersion json58 .v23 ∧
    DocumentIs .v23 json58 { spdxVersion := g!"SPDX-2.3", name := g!"x\n", spdxId := g!"DOCUMENT" } ∧
    JsonDocument true doc47 ∧ doc47.spdxVersion = versionName .v22 ∧ WholeDoc .v22 doc47 ∧ Blank g!"  " := by
  have h : tidy (.obj json58) = true := by decide +kernel
  refine ⟨scanJson_iff.1 (by rfl), scanJson_iff.1 (by rfl), by decide +kernel, by decide +kernel, h,
    ⟨g!"SPDX-2.3", g!"SPDX-2.3", by simp [json58], by decide, .inr (.inr ⟨rfl, rfl⟩)⟩,
    (decodeDoc_iff insertionSorter h).1 (by rfl), doc47_ok.1, doc47_ok.2.1, doc47_ok.2.2, by simp [Blank]⟩

/-- A text that is not JSON: a comma too many. -/
example : ∀ j, ¬ JsonTextOf g!"[1,]" j := by
  intro j h
  have : scanJson g!"[1,]" = none := by decide +kernel
  rw [scanJson_iff.2 h] at this
  cases this

/-- Indentation that is not blank is accepted by the writer, but what it writes cannot be read. -/
theorem C58_indent_false : ∃ (d : Doc) (s : Str), JsonDocument true d ∧ d.spdxVersion = versionName .v23 ∧
    writeJsonText insertionSorter .v23 true g!"--" d = .ok s ∧
    readJsonText insertionSorter (fun _ _ d => d) (fun _ => true) (fun _ => .err) true .v23 s = .err := by
  let d : Doc := { spdxVersion := g!"SPDX-2.3", spdxId := g!"DOCUMENT" }
  have hd : JsonDocument true d :=
    ⟨jsonId_of (by decide) (by decide), by simp [d], by simp [d], by simp [d], by simp [d], by simp [d], by simp [d], by simp [d]⟩
  have h : (match writeJsonText insertionSorter .v23 true g!"--" d with
      | .ok s => match readJsonText insertionSorter (fun _ _ d => d) (fun _ => true) (fun _ => .err) true .v23 s with
        | .err => true
        | _ => false
      | _ => false) = true := by decide +kernel
  split at h
  · next s hs =>
    split at h
    · next he => exact ⟨d, s, hd, rfl, hs, he⟩
    · cases h
  · cases h

end Verif
