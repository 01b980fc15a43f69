import Verif.Lemmas.JsonSavable
import Verif.Props.C60_Yaml

/-!
# C68: loading a JSON or YAML document and saving it
-/

namespace Verif
open Spec

/-- **C68.** A document loaded from a savable object can be carried by JSON. -/
theorem C68_carried (so : Sorter) (v : Version) (html : Bool) (es : List (Str × Json)) (d : Doc) (savable : SavableJson html es)
    (ht : tidy (.obj es) = true) (loaded : decodeDoc so v (.obj es) = .ok d) : JsonDocument html d :=
  jsonDocument_of savable ((decodeDoc_iff so ht).1 loaded)

theorem keptDoc_flagged (v : Version) (d : Doc) : keptDoc v (flagged v d) = keptDoc v d := by
  unfold keptDoc flagged
  rw [List.map_map]
  rfl

theorem keptDoc_loaded {v : Version} {es : List (Str × Json)} {d : Doc} (h : DocumentIs v es d) : keptDoc v d = flagged v d := by
  rw [← keptDoc_flagged, keptDoc_whole (wholeDoc_of h)]

theorem encodePackage_flagged (so : Sorter) (v : Version) (b : Bool) (p : PackageV) (l : List DocElementID) :
    encodePackage so v ({ p with filesAnalyzedTagPresent := b }, l) = encodePackage so v (p, l) := by
  cases v <;> rfl

theorem mapRes_map {α β γ : Type} (f : β → Res γ) (g : α → β) (l : List α) : mapRes f (l.map g) = mapRes (fun a => f (g a)) l := by
  induction l with
  | nil => rfl
  | cons a l ih => simp only [List.map_cons, mapRes, ih]

/-- The writer does not look at whether files-analyzed was present. -/
theorem writeJson_flagged (so : Sorter) (v : Version) (html : Bool) (d : Doc) :
    writeJson so v html (flagged v d) = writeJson so v html d := by
  have key : ∀ l : List PackageV, (listCodec none (ptrCodec ({}, []) (packageCodec so v))).enc
      ((l.map fun p => { p with filesAnalyzedTagPresent := decide (v ≠ .v21) }).map fun p => some (p, [])) =
      (listCodec none (ptrCodec ({}, []) (packageCodec so v))).enc (l.map fun p => some (p, [])) := by
    intro l
    cases l with
    | nil => rfl
    | cons p l =>
      have : ∀ l : List PackageV, mapRes (ptrCodec ({}, []) (packageCodec so v)).enc
          ((l.map fun p => { p with filesAnalyzedTagPresent := decide (v ≠ .v21) }).map fun p => some (p, [])) =
          mapRes (ptrCodec ({}, []) (packageCodec so v)).enc (l.map fun p => some (p, [])) := by
        intro l
        rw [List.map_map, mapRes_map, mapRes_map]
        refine congrArg (fun f => mapRes f l) (funext fun p => ?_)
        exact encodePackage_flagged so v _ p []
      exact congrArg (fun r => r >>= fun js => Res.ok (Json.arr js)) (this (p :: l))
  unfold writeJson
  refine congrArg (fun (r : Res Json) => r >>= fun j => Res.ok (if html then j.escapeHtml else j)) ?_
  refine congrArg (fun r => r >>= fun es => Res.ok (Json.obj es)) ?_
  simp only [docFields, encodeFields, strF, strOptF, codecF, listOptF, flagged]
  rw [key]
  simp only [List.isEmpty_map]

theorem version_loaded {v : Version} {es : List (Str × Json)} {d : Doc} (hv : StatesVersion es v)
    (h : DocumentIs v es d) : d.spdxVersion = versionName v := by
  obtain ⟨raw, name, h1, h2, h3⟩ := hv
  have hm : (.str raw : Json) ∈ entries g!"spdxVersion" es := by
    simp only [entries, List.mem_map, List.mem_filter]
    exact ⟨_, ⟨h1, show sameKey g!"spdxVersion" g!"spdxVersion" = true by decide⟩, rfl⟩
  have hn : d.spdxVersion = name := by
    rcases h.version with ⟨h, -⟩ | ⟨j, h, hj⟩
    · rw [h] at hm
      cases hm
    · rw [h] at hm
      obtain rfl := (List.mem_singleton.1 hm).symm
      rcases hj with ⟨r, e, hj⟩ | ⟨e, -⟩
      · cases e
        rw [h2] at hj
        exact (Option.some.inj hj).symm
      · cases e
  rw [hn]
  rcases h3 with ⟨rfl, rfl⟩ | ⟨rfl, rfl⟩ | ⟨rfl, rfl⟩ <;> rfl

section
variable (so so' : Sorter) (copy : Version → Version → Doc → Doc) (float : Str → Bool) (odd : Str → Res Doc) (v : Version)

/-- **C68.** A document loaded from the text of a savable object can be saved, with any indentation by blanks, and what
is saved is loaded as the same document, but for whether files-analyzed was present. -/
theorem C68_load_save (hf : ∀ n, IsInt64 n → float (itoa n) = true) (html : Bool) (indent : Str) (hi : Blank indent) (text : Str)
    (es : List (Str × Json)) (d : Doc) (ht : JsonTextOf text (.obj es)) (hp : Json.agentsPlain (.obj es) = true)
    (tidied : tidy (.obj es) = true) (version : StatesVersion es v) (savable : SavableJson html es)
    (loaded : readJsonText so copy float odd true v text = .ok d) :
    ∃ saved, writeJsonText so v html indent d = .ok saved ∧ readJsonText so' copy float odd true v saved = .ok (flagged v d) := by
  have hd : DocumentIs v es d := by
    rw [readJsonText_of so copy float odd v ht] at loaded
    rw [hp] at loaded
    split at loaded
    · cases loaded
    · exact (C57_same_version so copy v es tidied version d).1 loaded
  obtain ⟨saved, h1, h2⟩ := C58_round_trip so so' copy float hf odd v html indent hi d (jsonDocument_of savable hd)
    (version_loaded version hd)
  rw [keptDoc_loaded hd] at h2
  exact ⟨saved, h1, h2⟩

/-- **C68.** What is loaded from a saved text is saved as the same text. -/
theorem C68_saved_again (html : Bool) (indent : Str) (d : Doc) :
    writeJsonText so v html indent (flagged v d) = writeJsonText so v html indent d := by
  unfold writeJsonText
  rw [writeJson_flagged]

/-- **C68.** The same for YAML, if the YAML library keeps the value. -/
theorem C68_yaml (y : Yaml) (text : Str) (es : List (Str × Json)) (d : Doc) (ht : YamlTextOf y text (.obj es))
    (tidied : tidy (.obj es) = true) (version : StatesVersion es v) (savable : SavableJson true es)
    (loaded : readYamlText y so copy true v text = .ok d) (keeps : ∀ j, writeJson so v true d = .ok j → YamlKeeps y j) :
    ∃ saved, writeYamlText y so v d = .ok saved ∧ readYamlText y so' copy true v saved = .ok (flagged v d) ∧
      writeYamlText y so v (flagged v d) = .ok saved := by
  have hd := (C60_says y so copy v text es ht tidied version d).1 loaded
  obtain ⟨saved, h1, h2⟩ := C60_round_trip y so so' copy v d (jsonDocument_of savable hd) (version_loaded version hd) keeps
  rw [keptDoc_loaded hd] at h2
  refine ⟨saved, h1, h2, ?_⟩
  unfold writeYamlText at h1 ⊢
  rw [writeJson_flagged]
  exact h1

end

/-- **C68.** If every package says whether its files were analyzed, or the version is 2.1, the document that was
loaded is not changed at all. -/
theorem C68_flagged (v : Version) (es : List (Str × Json)) (d : Doc) (h : DocumentIs v es d)
    (said : v = .v21 ∨ ∀ p ∈ d.packages, p.filesAnalyzedTagPresent = true) : flagged v d = d := by
  have : (d.packages.map fun p => { p with filesAnalyzedTagPresent := decide (v ≠ .v21) }) = d.packages := by
    refine map_eq_self fun p hp => ?_
    have : p.filesAnalyzedTagPresent = decide (v ≠ .v21) := by
      rcases said with rfl | hs
      · refine all_objects (Q := fun (p : PackageV) => p.filesAnalyzedTagPresent = false) h.packages rfl (fun _ _ h => ?_) p hp
        obtain ⟨o, -, -, e⟩ := h.analyzed
        exact e
      · by_cases hv : v = .v21
        · subst hv
          refine all_objects (Q := fun (p : PackageV) => p.filesAnalyzedTagPresent = false) h.packages rfl (fun _ _ h => ?_) p hp
          obtain ⟨o, -, -, e⟩ := h.analyzed
          exact e
        · rw [hs p hp]
          simp [hv]
    rw [← this]
  unfold flagged
  rw [this]

/-! ## A document that meets the conditions -/

/-- A JSON object with a package, files, annotations, a snippet and relationships in several notations. -/
def es68 : List (Str × Json) :=
  [(g!"SPDXID", .str g!"SPDXRef-DOCUMENT"),
   (g!"spdxVersion", .str g!"SPDX-2.3"),
   (g!"Name", .str g!"a\\u0062c"),
   (g!"unknown", .arr [.num g!"1"]),
   (g!"externalDocumentRefs", .arr [.obj [(g!"externalDocumentId", .str g!"DocumentRef-d")]]),
   (g!"creationInfo", .obj [(g!"creators", .arr [.str g!"Tool: t-1", .str g!"Person: A: B"]), (g!"created", .null)]),
   (g!"documentDescribes", .arr [.str g!"SPDXRef-p"]),
   (g!"packages", .arr
     [.obj [(g!"name", .str g!"p"), (g!"SPDXID", .str g!"SPDXRef-p"), (g!"supplier", .str g!"Organization: O (o@o.org)"),
        (g!"originator", .str g!"Person:  M"),
        (g!"hasFiles", .arr [.str g!"SPDXRef-f", .str g!"DocumentRef-d:SPDXRef-g"]),
        (g!"externalRefs", .arr [.obj [(g!"referenceCategory", .str g!"PACKAGE_MANAGER")]])],
      .obj [(g!"SPDXID", .str g!"SPDXRef-q"), (g!"supplier", .str g!"NOASSERTION"), (g!"originator", .null)]]),
   (g!"files", .arr [.obj [(g!"fileName", .str g!"./f\\t\\u003c"), (g!"SPDXID", .str g!"SPDXRef-f"),
      (g!"annotations", .arr [.obj [(g!"annotator", .str g!"Person: me"), (g!"comment", .str g!"\\\"<")]])]]),
   (g!"snippets", .arr [.obj [(g!"SPDXID", .str g!"SPDXRef-s"), (g!"snippetFromFile", .str g!"SPDXRef-f"),
        (g!"ranges", .arr [.obj [(g!"startPointer", .obj [(g!"offset", .num g!"3"), (g!"reference", .str g!"SPDXRef-f")]),
          (g!"endPointer", .obj [(g!"offset", .num g!"9"), (g!"reference", .str g!"SPDXRef-f")])]])]]),
   (g!"relationships", .arr [.obj [(g!"spdxElementId", .str g!"SPDXRef-p"), (g!"relatedSpdxElement", .str g!"NOASSERTION"),
        (g!"relationshipType", .str g!"OTHER")]])]

theorem under_none {es : List (Str × Json)} {key : Str} {P : Json → Prop} (h : entries key es = []) : Under es key P := by
  intro j hj
  rw [h] at hj
  cases hj

theorem under_one {es : List (Str × Json)} {key : Str} {P : Json → Prop} (j : Json) (h : entries key es = [j]) (hp : P j) :
    Under es key P := by
  intro k hk
  rw [h] at hk
  obtain rfl := List.mem_singleton.1 hk
  exact hp

theorem asItIs_of {html : Bool} {raw : Str} (h : Plain raw ∧ ∀ c ∈ raw, c ≠ '<' ∧ c ≠ '>' ∧ c ≠ '&') :
    AsItIs html (.str raw) raw := ⟨rfl, h.1, fun _ => h.2⟩

theorem givenId_of {html : Bool} {pre key : Str} {es : List (Str × Json)} (raw : Str) (h : entries key es = [.str raw])
    (h1 : Plain raw ∧ ∀ c ∈ raw, c ≠ '<' ∧ c ≠ '>' ∧ c ≠ '&') (h2 : hasPrefix (pre ++ pre) raw = false) : GivenId html pre key es :=
  ⟨_, raw, h, asItIs_of h1, fun e => hasPrefix_false_iff.1 h2 e⟩

theorem savableRef_of {html : Bool} {raw : Str} (h1 : Plain raw ∧ ∀ c ∈ raw, c ≠ '<' ∧ c ≠ '>' ∧ c ≠ '&')
    (h2 : hasPrefix g!"SPDXRef-SPDXRef-" raw = false ∧ hasPrefix g!"DocumentRef-DocumentRef-" raw = false ∧
      contains g!":SPDXRef-SPDXRef-" raw = false) (h3 : hasPrefix g!"DocumentRef-" raw = false ∨ ':' ∈ raw) : SavableRef html (.str raw) := by
  refine ⟨raw, asItIs_of h1, hasPrefix_false_iff.1 h2.1, hasPrefix_false_iff.1 h2.2.1, contains_false_iff.1 h2.2.2, ?_⟩
  rintro d rfl
  rcases h3 with h | h
  · rw [hasPrefix_append] at h
    cases h
  · rcases List.mem_append.1 h with h | h
    · exact absurd h (by decide)
    · exact h

theorem colonPair_cut {raw k n : Str} (h : ColonPair raw k n) : ∃ a b, cut g!":" raw = some (a, b) ∧ k = trimSpace a ∧ n = trimSpace b := by
  obtain ⟨a, b, e, hc, h1, h2⟩ := h
  exact ⟨a, b, cut_colon.2 ⟨e, hc⟩, h1, h2⟩

theorem savableAgent_of {html : Bool} {raw : Str} (h1 : Plain raw ∧ ∀ c ∈ raw, c ≠ '<' ∧ c ≠ '>' ∧ c ≠ '&')
    (h2 : ∀ p ∈ cut g!":" raw, trimSpace p.2 ≠ []) : SavableAgent html (.str raw) := by
  refine ⟨raw, asItIs_of h1, fun k n h => ?_⟩
  obtain ⟨a, b, e, -, rfl⟩ := colonPair_cut h
  exact h2 _ e

theorem savableSupplier_of {html : Bool} {raw : Str} (h1 : Plain raw ∧ ∀ c ∈ raw, c ≠ '<' ∧ c ≠ '>' ∧ c ≠ '&')
    (h2 : ∀ p ∈ cut g!":" raw, trimSpace p.1 ≠ [] ∧ trimSpace p.2 ≠ [] ∧ trimSpace p.2 ≠ g!"NOASSERTION") :
    SavableSupplier html (.str raw) := by
  refine ⟨raw, asItIs_of h1, fun k n h => ?_⟩
  obtain ⟨a, b, e, rfl, rfl⟩ := colonPair_cut h
  exact h2 _ e

theorem es68_savable : SavableJson true es68 where
  id := givenId_of g!"SPDXRef-DOCUMENT" rfl (by decide) (by decide)
  externalDocuments := under_one _ rfl (by
    rintro js ⟨⟩ x hx
    simp only [List.mem_singleton] at hx
    exact ⟨_, hx, givenId_of g!"DocumentRef-d" rfl (by decide) (by decide)⟩)
  creators := under_one _ rfl (by
    rintro o ⟨⟩
    refine under_one _ rfl ?_
    rintro js ⟨⟩ x hx
    simp only [List.mem_cons, List.not_mem_nil, or_false] at hx
    rcases hx with rfl | rfl
    · exact savableAgent_of (by decide) (by decide)
    · exact savableAgent_of (by decide) (by decide))
  packages := under_one _ rfl (by
    rintro js ⟨⟩ x hx
    simp only [List.mem_cons, List.not_mem_nil, or_false] at hx
    rcases hx with rfl | rfl
    · refine ⟨_, rfl, givenId_of g!"SPDXRef-p" rfl (by decide) (by decide), under_one _ rfl (.inr (savableSupplier_of (by decide) (by decide))),
        under_one _ rfl (.inr ⟨g!"Person:  M", asItIs_of (by decide), ?_⟩), under_none rfl, under_one _ rfl ?_, under_none rfl⟩
      · intro k r e hc
        have := cut_colon.2 ⟨e, hc⟩
        have h : cut g!":" g!"Person:  M" = some (g!"Person", g!"  M") := by decide
        rw [h] at this
        cases this
        exact ⟨by decide, by decide, g!"M", by decide, by decide, by decide, by decide⟩
      · rintro js ⟨⟩ x hx
        simp only [List.mem_cons, List.not_mem_nil, or_false] at hx
        rcases hx with rfl | rfl
        · exact savableRef_of (by decide) (by decide) (by decide)
        · exact savableRef_of (by decide) (by decide) (by decide)
    · exact ⟨_, rfl, givenId_of g!"SPDXRef-q" rfl (by decide) (by decide), under_one _ rfl (.inr (savableSupplier_of (by decide) (by decide))),
        under_one _ rfl (.inl rfl), under_none rfl, under_none rfl, under_none rfl⟩)
  files := under_one _ rfl (by
    rintro js ⟨⟩ x hx
    simp only [List.mem_singleton] at hx
    refine ⟨_, hx, givenId_of g!"SPDXRef-f" rfl (by decide) (by decide), under_one _ rfl ?_⟩
    rintro js ⟨⟩ x hx
    simp only [List.mem_singleton] at hx
    exact ⟨_, hx, _, rfl, savableAgent_of (by decide) (by decide)⟩)
  relationships := under_one _ rfl (by
    rintro js ⟨⟩ x hx
    simp only [List.mem_singleton] at hx
    exact ⟨_, hx, _, _, rfl, rfl, savableRef_of (by decide) (by decide) (by decide), savableRef_of (by decide) (by decide) (by decide)⟩)
  describes := under_one _ rfl (by
    rintro js ⟨⟩ x hx
    simp only [List.mem_singleton] at hx
    subst hx
    exact savableRef_of (by decide) (by decide) (by decide))
  annotations := under_none rfl
  snippets := under_one _ rfl (by
    rintro js ⟨⟩ x hx
    simp only [List.mem_singleton] at hx
    refine ⟨_, hx, givenId_of g!"SPDXRef-s" rfl (by decide) (by decide), givenId_of g!"SPDXRef-f" rfl (by decide) (by decide), under_one _ rfl ?_⟩
    rintro js ⟨⟩ x hx
    simp only [List.mem_singleton] at hx
    exact ⟨_, hx, ⟨_, rfl, givenId_of g!"SPDXRef-f" rfl (by decide) (by decide)⟩, ⟨_, rfl, givenId_of g!"SPDXRef-f" rfl (by decide) (by decide)⟩⟩)

set_option maxRecDepth 100000 in
/-- It meets the hypotheses. -/
theorem C68_sample : JsonTextOf (Json.text (.obj es68)) (.obj es68) ∧ Json.agentsPlain (.obj es68) = true ∧ tidy (.obj es68) = true ∧
    StatesVersion es68 .v23 ∧ SavableJson true es68 ∧
    ∃ d, readJsonText insertionSorter (fun _ _ d => d) (fun l => l.length < 300) (fun _ => .err) true .v23 (Json.text (.obj es68)) = .ok d ∧
      d.packages.map (·.spdxId) = [g!"p", g!"q"] ∧ d.relationships.length = 4 ∧ flagged .v23 d ≠ d := by
  refine ⟨scanJson_iff.1 ?_, by decide +kernel, by decide +kernel,
    ⟨g!"SPDX-2.3", g!"SPDX-2.3", by simp [es68], by decide, .inr (.inr ⟨rfl, rfl⟩)⟩, es68_savable, ?_⟩
  · rfl
  have h : (match readJsonText insertionSorter (fun _ _ d => d) (fun l => l.length < 300) (fun _ => .err) true .v23 (Json.text (.obj es68)) with
      | .ok d => decide (d.packages.map (·.spdxId) = [g!"p", g!"q"] ∧ d.relationships.length = 4 ∧ flagged .v23 d ≠ d)
      | _ => false) = true := by decide +kernel
  split at h
  · rename_i d hd
    exact ⟨d, hd, of_decide_eq_true h⟩
  · simp at h

/-! ## What the conditions rule out -/

/-- Load a text and look at a part of the document. -/
def C68_load {α : Type} (f : Doc → α) (text : Str) : Res α :=
  readJsonText insertionSorter (fun _ _ d => d) (fun _ => true) (fun _ => .err) true .v23 text >>= fun d => .ok (f d)

/-- Load a text, save the document, and load what was saved. -/
def C68_reload {α : Type} (f : Doc → α) (text : Str) : Res α := do
  let d ← readJsonText insertionSorter (fun _ _ d => d) (fun _ => true) (fun _ => .err) true .v23 text
  writeJsonText insertionSorter .v23 true [] d >>= C68_load f

/-- A document whose identifier is missing is loaded, but what is saved cannot be loaded. -/
theorem C68_no_id_false : C68_load (·.name) g!"{\"spdxVersion\":\"SPDX-2.3\",\"name\":\"n\"}" = .ok g!"n" ∧
    C68_reload (·.name) g!"{\"spdxVersion\":\"SPDX-2.3\",\"name\":\"n\"}" = .err := by
  decide +kernel

/-- An escape in an identifier is escaped once more by each save. -/
theorem C68_escape_false :
    C68_load (·.spdxId) g!"{\"spdxVersion\":\"SPDX-2.3\",\"SPDXID\":\"SPDXRef-a\\u0062\"}" = .ok g!"a\\u0062" ∧
    C68_reload (·.spdxId) g!"{\"spdxVersion\":\"SPDX-2.3\",\"SPDXID\":\"SPDXRef-a\\u0062\"}" = .ok g!"a\\\\u0062" := by
  decide +kernel

/-- An identifier with its prefix twice loses one. -/
theorem C68_twice_false :
    C68_load (·.spdxId) g!"{\"spdxVersion\":\"SPDX-2.3\",\"SPDXID\":\"SPDXRef-SPDXRef-a\"}" = .ok g!"SPDXRef-a" ∧
    C68_reload (·.spdxId) g!"{\"spdxVersion\":\"SPDX-2.3\",\"SPDXID\":\"SPDXRef-SPDXRef-a\"}" = .ok g!"a" := by
  decide +kernel

/-- A relationship to a whole document is loaded but cannot be saved. -/
theorem C68_document_ref_false :
    C68_load (fun d => d.relationships.map (·.refB)) g!"{\"spdxVersion\":\"SPDX-2.3\",\"SPDXID\":\"SPDXRef-D\",\"documentDescribes\":[\"DocumentRef-d\"]}" =
      .ok [{ documentRefID := g!"d" }] ∧
    C68_reload (fun d => d.relationships.length) g!"{\"spdxVersion\":\"SPDX-2.3\",\"SPDXID\":\"SPDXRef-D\",\"documentDescribes\":[\"DocumentRef-d\"]}" = .err := by
  decide +kernel

/-- A supplier named `NOASSERTION` loses its kind. -/
theorem C68_supplier_false :
    C68_load (fun d => d.packages.map (·.supplier)) g!"{\"spdxVersion\":\"SPDX-2.3\",\"SPDXID\":\"SPDXRef-D\",\"packages\":[{\"SPDXID\":\"SPDXRef-p\",\"supplier\":\"Person: NOASSERTION\"}]}" =
      .ok [some { supplier := g!"NOASSERTION", supplierType := g!"Person" }] ∧
    C68_reload (fun d => d.packages.map (·.supplier)) g!"{\"spdxVersion\":\"SPDX-2.3\",\"SPDXID\":\"SPDXRef-D\",\"packages\":[{\"SPDXID\":\"SPDXRef-p\",\"supplier\":\"Person: NOASSERTION\"}]}" =
      .ok [some { supplier := g!"NOASSERTION" }] := by
  decide +kernel

/-- A creator without a name is loaded but cannot be saved; nor can an annotation without annotator. -/
theorem C68_creator_false :
    (C68_load (fun d => d.creationInfo.map (·.creators.length)) g!"{\"spdxVersion\":\"SPDX-2.3\",\"SPDXID\":\"SPDXRef-D\",\"creationInfo\":{\"creators\":[\"Tool:\"]}}" = .ok (some 1) ∧
     C68_reload (·.name) g!"{\"spdxVersion\":\"SPDX-2.3\",\"SPDXID\":\"SPDXRef-D\",\"creationInfo\":{\"creators\":[\"Tool:\"]}}" = .err) ∧
    (C68_load (fun d => d.annotations.length) g!"{\"spdxVersion\":\"SPDX-2.3\",\"SPDXID\":\"SPDXRef-D\",\"annotations\":[{}]}" = .ok 1 ∧
     C68_reload (·.name) g!"{\"spdxVersion\":\"SPDX-2.3\",\"SPDXID\":\"SPDXRef-D\",\"annotations\":[{}]}" = .err) := by
  decide +kernel

/-- Whether files-analyzed was present is not kept. -/
theorem C68_flag_false :
    C68_load (fun d => d.packages.map (·.filesAnalyzedTagPresent)) g!"{\"spdxVersion\":\"SPDX-2.3\",\"SPDXID\":\"SPDXRef-D\",\"packages\":[{\"SPDXID\":\"SPDXRef-p\"}]}" =
      .ok [false] ∧
    C68_reload (fun d => d.packages.map (·.filesAnalyzedTagPresent)) g!"{\"spdxVersion\":\"SPDX-2.3\",\"SPDXID\":\"SPDXRef-D\",\"packages\":[{\"SPDXID\":\"SPDXRef-p\"}]}" =
      .ok [true] := by
  decide +kernel

end Verif
