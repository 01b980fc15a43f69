import Verif.Lemmas.NilSafe
import Verif.Lemmas.NilWrite
import Verif.Lemmas.NilPlain
import Verif.Lemmas.NilRead
import Verif.Lemmas.NilTrip
import Verif.Props.C24_C26_SpdxLib
import Verif.Props.C47_Json

/-!
# C66: documents with missing entries
-/

namespace Verif
open Spec

/-- **C66.** A JSON object in which no key occurs twice is read as a document, in which parts may be missing, exactly if
that document is what the object says: an entry `null` of a list of objects is a missing part. -/
theorem C66_read (so : Sorter) (v : Version) (es : List (Str × Json)) (ht : tidy (.obj es) true = true) (n : NDoc) :
    decodeNDoc so v (.obj es) = .ok n ↔ NDocumentIs v es n := decodeNDoc_iff so v ht

/-- **C66.** If no array has a null entry, then what is read is the document of `decodeDoc` (C57), with nothing missing. -/
theorem C66_plain (so : Sorter) (v : Version) (es : List (Str × Json)) (ht : tidy (.obj es) = true) (n : NDoc) :
    decodeNDoc so v (.obj es) = .ok n ↔ ∃ d, decodeDoc so v (.obj es) = .ok d ∧ n = ofDoc d := by
  rw [decodeNDoc_iff so v ht, ndocument_plain ht]
  simp only [decodeDoc_iff so ht]

/-- **C66.** No JSON value makes reading panic, and no document, whatever is missing, makes writing JSON panic. -/
theorem C66_json_safe (so : Sorter) (v : Version) (html : Bool) (j : Json) (n : NDoc) :
    decodeNDoc so v j ≠ .panic ∧ nWriteJson so v html n ≠ .panic :=
  ⟨decodeNDoc_safe so v j, nWriteJson_safe so v html n⟩

/-- **C66.** From version 2.2 on, no relationship of a document that was read is missing. -/
theorem C66_relationships (so : Sorter) (v : Version) (j : Json) (n : NDoc) (read : decodeNDoc so v j = .ok n) (hv : v ≠ .v21) :
    none ∉ n.relationships := by
  cases v
  · exact absurd rfl hv
  all_goals
    simp only [decodeNDoc] at read
    revert read
    cases (structCodec (nDocFields so _)).dec j {} with
    | err => intro h; cases h
    | panic => intro h; cases h
    | ok d =>
      rw [Res.bind_ok]
      cases (structCodec docExtrasFields).dec j [] with
      | err => intro h; cases h
      | panic => intro h; cases h
      | ok x => intro h; rw [Res.bind_ok] at h; cases h; simp

/-- **C66.** Writing a document as tag-value text panics exactly if something is missing in it and it has creation
information. -/
theorem C66_write (so : Sorter) (hso : Blind so) (v : Version) (n : NDoc) (maps : SnippetMaps n) :
    nWriteTagValue v so n = .panic ↔ n.doc.creationInfo ≠ none ∧ Lacks n := by
  cases hc : n.doc.creationInfo with
  | none => simp [nWriteTagValue, hc]
  | some ci =>
    rw [nWrite_eq hso v maps hc, ← doc_lacks]
    cases n.whole <;> simp [deref]

/-- **C66.** A document in which nothing is missing is written as by `writeTagValue` and `writeJson`, to which the other
properties apply. -/
theorem C66_write_plain (so : Sorter) (hso : Blind so) (v : Version) (html : Bool) (d : Doc) (maps : SnippetMaps (ofDoc d)) :
    nWriteTagValue v so (ofDoc d) = writeTagValue v so d ∧ nWriteJson so v html (ofDoc d) = writeJson so v html d := by
  refine ⟨?_, write_ofDoc so v d⟩
  cases hc : d.creationInfo with
  | none =>
    have hc' : (ofDoc d).doc.creationInfo = none := hc
    simp [nWriteTagValue, hc', writeTagValue, renderDocument, hc]
  | some ci =>
    rw [nWrite_eq hso v maps (ci := ci) hc, whole_ofDoc]
    simp [deref, writeTagValue, renderDocument, hc]

/-- **C66.** A document in which nothing is missing is written as the plain document that it is. -/
theorem C66_whole (so : Sorter) (hso : Blind so) (v : Version) (n : NDoc) (maps : SnippetMaps n) (h : ¬ Lacks n) :
    ∃ d, n.whole = some d ∧ nWriteTagValue v so n = writeTagValue v so d := by
  cases hw : n.whole with
  | none => exact absurd (doc_lacks.1 hw) h
  | some d =>
    refine ⟨d, rfl, ?_⟩
    have hd : d.creationInfo = n.doc.creationInfo := by
      simp only [NDoc.whole, Option.bind_eq_bind, Option.bind_eq_some_iff, Option.some.injEq] at hw
      obtain ⟨_, _, _, _, _, _, _, _, _, _, _, _, rfl⟩ := hw
      rfl
    cases hc : n.doc.creationInfo with
    | none => simp [nWriteTagValue, hc, writeTagValue, renderDocument, hd]
    | some ci => rw [nWrite_eq hso v maps hc, hw]; simp [deref, writeTagValue, renderDocument, hd, hc]

theorem checkRelationships_panic (valid : List Str) (l : List (Option Relationship)) : checkRelationships valid l = .panic ↔
    ∃ (before : List Relationship) (after : List (Option Relationship)), l = before.map some ++ none :: after ∧
      ∀ r ∈ before, r.refA.elementRefID ∈ valid ∧ r.refB.elementRefID ∈ valid := by
  induction l with
  | nil => simp [checkRelationships]
  | cons o l ih =>
    cases o with
    | none => exact ⟨fun _ => ⟨[], l, rfl, fun _ h => by cases h⟩, fun _ => rfl⟩
    | some r =>
      simp only [checkRelationships, deref, Res.bind_ok]
      have none_ne : ∀ {before : List Relationship} {after}, some r :: l = before.map some ++ none :: after →
          ∃ b, before = r :: b ∧ l = b.map some ++ none :: after := by
        intro before after h
        cases before with
        | nil => simp at h
        | cons x b => simp only [List.map_cons, List.cons_append, List.cons.injEq, Option.some.injEq] at h; exact ⟨b, by rw [h.1], h.2⟩
      by_cases h1 : r.refA.elementRefID ∈ valid ∧ r.refB.elementRefID ∈ valid
      · have c1 : valid.contains r.refA.elementRefID = true := by simpa using h1.1
        have c2 : valid.contains r.refB.elementRefID = true := by simpa using h1.2
        simp only [c1, c2, Bool.not_true, Bool.false_eq_true, if_false, ih]
        constructor
        · rintro ⟨b, a, rfl, h⟩
          exact ⟨r :: b, a, rfl, List.forall_mem_cons.2 ⟨h1, h⟩⟩
        · rintro ⟨b, a, e, h⟩
          obtain ⟨b, rfl, e'⟩ := none_ne e
          exact ⟨b, a, e', (List.forall_mem_cons.1 h).2⟩
      · constructor
        · intro h
          exfalso
          by_cases h2 : r.refA.elementRefID ∈ valid
          · have h3 : r.refB.elementRefID ∉ valid := fun h3 => h1 ⟨h2, h3⟩
            simp [h2, h3] at h
          · simp [h2] at h
        · rintro ⟨b, a, e, h⟩
          obtain ⟨b, rfl, -⟩ := none_ne e
          exact absurd (h r (.head _)) h1

/-- **C66.** Validation panics exactly if a package or a file of the document is missing, or a relationship is missing
and all before it are between known elements. -/
theorem C66_validate (n : NDoc) : nValidate n = .panic ↔
    none ∈ n.packages ∨ none ∈ n.files ∨ ∃ (before : List Relationship) (after : List (Option Relationship)), n.relationships = before.map some ++ none :: after ∧
      ∀ r ∈ before, Known (n.packages.filterMap (Option.map (·.pkg))) (n.files.filterMap (Option.map (·.file))) r.refA.elementRefID ∧
        Known (n.packages.filterMap (Option.map (·.pkg))) (n.files.filterMap (Option.map (·.file))) r.refB.elementRefID := by
  have hm : ∀ {α β : Type} (g : α → β) (l : List (Option α)), none ∈ l.map (Option.map g) ↔ none ∈ l := by
    intro α β g l; simp
  have hs : ∀ {α β : Type} (g : α → β) (l : List (Option α)), none ∉ l → l.map (Option.map g) = (l.filterMap (Option.map g)).map some := by
    intro α β g l hl
    induction l with
    | nil => rfl
    | cons o l ih =>
      cases o with
      | none => exact absurd (.head _) hl
      | some a => simp only [List.map_cons, List.filterMap_cons, Option.map_some, ih fun h => hl (.tail _ h)]
  unfold nValidate validateDocument
  by_cases hp : none ∈ n.packages
  · rw [elementIds_nil _ _ ((hm _ _).2 hp)]; simp [hp]
  · rw [hs _ _ hp, elementIds_some, Res.bind_ok]
    by_cases hf : none ∈ n.files
    · rw [elementIds_nil _ _ ((hm _ _).2 hf)]; simp [hf]
    · rw [hs _ _ hf, elementIds_some, Res.bind_ok, checkRelationships_panic]
      simp only [hp, hf, false_or]
      have hk : ∀ id, id ∈ refDocument.elementRefID :: ((n.files.filterMap (Option.map (·.file))).map (·.spdxId) ++
          (n.packages.filterMap (Option.map (·.pkg))).map (·.spdxId)) ↔
          Known (n.packages.filterMap (Option.map (·.pkg))) (n.files.filterMap (Option.map (·.file))) id := by
        intro id
        simp only [List.mem_cons, List.mem_append, List.mem_map, Known, refDocument]
        exact or_congr_right or_comm
      simp only [hk]

theorem mem_options {β : Type} {es : List (Str × Json)} {key : Str} {says : List (Str × Json) → β → Prop} {unset : β}
    {l : List (Option β)} (h : HasOptions es key says unset l) {x : β} (hx : some x ∈ l) : (∃ es', says es' x) ∨ x = unset := by
  have key : ∀ js : List Json, ∀ l : List (Option β), Pointwise (OptionIs (ObjectIs says unset)) js l → some x ∈ l → (∃ es', says es' x) ∨ x = unset := by
    intro js l h
    induction h with
    | nil => intro h; cases h
    | cons h _ ih =>
      intro hm
      rcases List.mem_cons.1 hm with rfl | hm
      · rcases h with ⟨-, h⟩ | ⟨-, y, h, ⟨es', -, h'⟩ | ⟨-, h'⟩⟩
        · cases h
        · cases h; exact .inl ⟨es', h'⟩
        · cases h; exact .inr h'
      · exact ih hm
  rcases h with ⟨-, rfl⟩ | ⟨j, -, ⟨js, -, h⟩ | ⟨-, rfl⟩⟩
  · cases hx
  · exact key js l h hx
  · cases hx

theorem read_snippetMaps {v : Version} {es : List (Str × Json)} {n : NDoc} (h : NDocumentIs v es n) : SnippetMaps n := by
  have hf : ∀ {es : List (Str × Json)} {l : List (Option NFile)}, HasOptions es g!"files" (NFileIs v) {} l → ∀ f, some f ∈ l → SnippetMap f := by
    intro es l h f hm
    rcases mem_options h hm with ⟨_, h⟩ | rfl
    · unfold SnippetMap; rw [h.snippets]; exact .nil
    · exact .nil
  refine ⟨hf h.files, fun p hp => ?_⟩
  rcases mem_options h.packages hp with ⟨_, h⟩ | rfl
  · exact hf h.files
  · intro f hm; cases hm

/-- **C66.** A document that was read from a JSON object in which no key occurs twice makes writing tag-value text panic
exactly if it has creation information and something is missing. -/
theorem C66_read_then_write (so so' : Sorter) (hso : Blind so') (v w : Version) (es : List (Str × Json)) (n : NDoc)
    (nulls : Bool) (ht : tidy (.obj es) nulls = true) (read : decodeNDoc so v (.obj es) = .ok n) :
    nWriteTagValue w so' n = .panic ↔ n.doc.creationInfo ≠ none ∧ Lacks n :=
  C66_write so' hso w n (read_snippetMaps ((decodeNDoc_iff so v ht).1 read))

/-- **C66.** A document that was read from a JSON object in which no key occurs twice and no array has a null entry makes
neither writing nor validation panic. -/
theorem C66_safe (so so' : Sorter) (hso : Blind so') (v w : Version) (es : List (Str × Json)) (n : NDoc)
    (ht : tidy (.obj es) = true) (read : decodeNDoc so v (.obj es) = .ok n) :
    nWriteTagValue w so' n ≠ .panic ∧ nValidate n ≠ .panic := by
  have hw := C66_read_then_write so so' hso v w es n false ht read
  obtain ⟨d, -, rfl⟩ := (C66_plain so v es ht n).1 read
  refine ⟨fun h => ?_, fun h => ?_⟩
  · have := doc_lacks.2 (hw.1 h).2
    rw [whole_ofDoc] at this
    cases this
  · rcases (C66_validate _).1 h with h | h | ⟨b, a, h, -⟩
    · simp [ofDoc] at h
    · simp [ofDoc] at h
    · have : none ∈ (ofDoc d).relationships := by rw [h]; simp
      simp [ofDoc] at this

/-- **C66.** A document that is written as JSON and read again comes back with its missing entries, but for missing
relationships from version 2.2 on, and with what JSON keeps of the others (C47). -/
theorem C66_round_trip (so so' : Sorter) (v : Version) (html : Bool) (n : NDoc) (hn : NJsonDocument html n) (proper : Proper n) :
    ∃ j, nWriteJson so v html n = .ok j ∧ decodeNDoc so' v j = .ok (nKeptDoc v n) := by
  obtain ⟨j, h1, h2⟩ := njson_written so so' v hn proper
  exact ⟨j, h1, h2 j (like_refl j)⟩

/-! ## Samples -/

/-- A JSON object with a null package. -/
def C66_text : List (Str × Json) :=
  [(g!"spdxVersion", .str g!"SPDX-2.3"), (g!"SPDXID", .str g!"SPDXRef-DOCUMENT"), (g!"creationInfo", .obj []),
   (g!"packages", .arr [.obj [(g!"name", .str g!"p"), (g!"SPDXID", .str g!"SPDXRef-P"), (g!"files", .arr [.null])], .null]), (g!"relationships", .arr [.null])]

/-- What it is read as. -/
def C66_sample : NDoc :=
  { doc := { spdxVersion := g!"SPDX-2.3", spdxId := g!"DOCUMENT", creationInfo := some {} }
    packages := [some { pkg := { name := g!"p", spdxId := g!"P", filesAnalyzed := true }, files := [none] }, none] }

/-- No key occurs twice, it is read, what is read lacks something, and sorting by insertion is as assumed. -/
example : tidy (.obj C66_text) true = true ∧ decodeNDoc insertionSorter .v23 (.obj C66_text) = .ok C66_sample ∧
    SnippetMaps C66_sample ∧ C66_sample.doc.creationInfo ≠ none ∧ Lacks C66_sample ∧ Blind insertionSorter := by
  refine ⟨by decide +kernel, by decide +kernel, ⟨fun f h => (by cases h), ?_⟩, by decide, .inr (.inl (.inl ?_)), insertion_blind⟩
  · intro p hp f hf
    simp only [C66_sample, List.mem_cons, List.not_mem_nil, or_false, reduceCtorEq, Option.some.injEq] at hp
    subst hp
    simp at hf
  · simp [C66_sample]

/-- A document with two snippets, in which nothing is missing. -/
example : SnippetMaps (ofDoc { files := [{ snippets := [(g!"a", {}), (g!"b", {})] }] }) ∧
    ¬ Lacks (ofDoc { files := [{ snippets := [(g!"a", {}), (g!"b", {})] }] }) := by
  refine ⟨⟨fun f h => ?_, fun p h => by cases h⟩, fun h => ?_⟩
  · simp only [ofDoc, List.map_cons, List.map_nil, List.mem_cons, List.not_mem_nil, or_false, Option.some.injEq] at h
    subst h
    simp [SnippetMap, ofFile]
  · have := doc_lacks.2 h
    rw [whole_ofDoc] at this
    cases this

/-- Every document that the JSON reader returns can be written as tag-value text and validated without a crash: false.
With `"packages": [null]` the reader returns a document with a nil package, and the writer and `ValidateDocument`
dereference it. -/
theorem C66_crash_false : ¬ ∀ (so : Sorter) (v : Version) (es : List (Str × Json)) (n : NDoc), Blind so →
    decodeNDoc so v (.obj es) = .ok n → nWriteTagValue v so n ≠ .panic ∧ nValidate n ≠ .panic := by
  intro h
  exact (h insertionSorter .v23 C66_text C66_sample insertion_blind (by decide +kernel)).1 (by decide +kernel)

example : nValidate C66_sample = .panic := by decide +kernel

/-- The sample meets the hypotheses of the round trip. -/
theorem C66_sample_ok : NJsonDocument true C66_sample ∧ Proper C66_sample := by
  have hp : ∀ p, some p ∈ C66_sample.packages → p = { pkg := { name := g!"p", spdxId := g!"P", filesAnalyzed := true }, files := [none] } := by
    intro p hp
    simpa [C66_sample] using hp
  refine ⟨⟨?_, ?_, fun f h => (by cases h), fun r h => (by cases h), fun a h => (by cases h)⟩, ⟨by decide, ?_, fun f h => (by cases h)⟩⟩
  · refine ⟨jsonId_of (by decide) (by decide), by simp [C66_sample], ?_, by simp [C66_sample], by simp [C66_sample], by simp [C66_sample],
      by simp [C66_sample], by simp [C66_sample]⟩
    intro i hi c hc
    cases hi
    cases hc
  · intro p h
    rw [hp p h]
    refine ⟨?_, fun f h => (by simp at h)⟩
    exact ⟨jsonId_of (by decide) (by decide), by simp, by simp, by simp, by simp⟩
  · intro p h
    rw [hp p h]
    exact ⟨rfl, rfl, fun f h => (by simp at h)⟩

/-- A missing package is written as `null` in JSON. -/
example : nWriteJson insertionSorter .v23 false { packages := [none] } =
    .ok (.obj [(g!"spdxVersion", .str []), (g!"dataLicense", .str []), (g!"SPDXID", .str g!"SPDXRef-"), (g!"name", .str []),
      (g!"documentNamespace", .str []), (g!"creationInfo", .null), (g!"packages", .arr [.null])]) := by rfl

end Verif
