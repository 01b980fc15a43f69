import Verif.Lemmas.JsonValid
import Verif.Props.C24_C26_SpdxLib
import Verif.Props.C57_JsonSays

/-!
# C97, C98: which JSON documents are read as valid documents, and which packages they describe

`NamedInJson` and `LinkInJson` are in `Spec/JsonValid`.
-/

namespace Verif
open Spec

/-- **C97.** A JSON object is read as a valid document exactly if both ends of everything it says to be related, under
`relationships`, `documentDescribes` and `hasFiles`, are the document or an entry of `packages` or `files`. -/
theorem C97_valid (so : Sorter) (copy : Version → Version → Doc → Doc) (v : Version) (es : List (Str × Json)) (ht : tidy (.obj es) = true)
    (hv : StatesVersion es v) (d : Doc) (h : readJsonInto so copy true v (.obj es) = .ok d)
    (hr : ∀ r, LinkInJson v es r → Readable r) :
    validateDocument (d.packages.map some) (d.files.map some) (d.relationships.map some) = .ok () ↔
      ∀ r, LinkInJson v es r → NamedInJson es r.refA.elementRefID ∧ NamedInJson es r.refB.elementRefID := by
  have h := (C57_same_version so copy v es ht hv d).1 h
  obtain ⟨q1, q2⟩ := links_read ht h
  rw [(C24_valid_iff d.packages d.files d.relationships).1]
  simp only [known_json ht h]
  refine ⟨fun hk r hl => ?_, fun hk r hm => hk r (q1 r hm)⟩
  rcases q2 hr r hl with hm | ⟨ht, s, hm, e⟩
  · exact hk r hm
  · obtain ⟨k1, k2⟩ := hk s hm
    rcases same_link (jsonLink_of hl) (jsonLink_of (q1 s hm)) ht e with ⟨-, ea, eb⟩ | ⟨-, -, ea, eb⟩ | ⟨-, -, ea, eb⟩ <;> rw [ea] at k1 <;>
      rw [eb] at k2
    · exact ⟨k1, k2⟩
    · exact ⟨k2, k1⟩
    · exact ⟨k2, k1⟩

/-- **C97.** Otherwise validation reports an error. -/
theorem C97_invalid (so : Sorter) (copy : Version → Version → Doc → Doc) (v : Version) (es : List (Str × Json)) (ht : tidy (.obj es) = true)
    (hv : StatesVersion es v) (d : Doc) (h : readJsonInto so copy true v (.obj es) = .ok d)
    (hr : ∀ r, LinkInJson v es r → Readable r) :
    validateDocument (d.packages.map some) (d.files.map some) (d.relationships.map some) = .err ↔
      ∃ r, LinkInJson v es r ∧ ¬ (NamedInJson es r.refA.elementRefID ∧ NamedInJson es r.refB.elementRefID) := by
  have hc := C97_valid so copy v es ht hv d h hr
  obtain ⟨q1, q2⟩ := C24_valid_iff d.packages d.files d.relationships
  constructor
  · intro he
    refine Classical.byContradiction fun hn => ?_
    have := hc.2 fun r hl => Classical.byContradiction fun hr => hn ⟨r, hl, hr⟩
    rw [he] at this
    exact nomatch this
  · rintro ⟨r, hl, hn⟩
    refine q2.2 (Classical.byContradiction fun hk => hn ?_)
    exact hc.1 (q1.2 fun s hs => Classical.byContradiction fun h' => hk ⟨s, hs, h'⟩) r hl

/-- **C97.** From version 2.2 on, an object with another identifier than `SPDXRef-DOCUMENT`, which is not that of an entry either, is
invalid as soon as it describes anything under `documentDescribes`. -/
theorem C97_other_identifier (so : Sorter) (copy : Version → Version → Doc → Doc) (v : Version) (es : List (Str × Json))
    (ht : tidy (.obj es) = true) (hv : StatesVersion es v) (d : Doc) (h : readJsonInto so copy true v (.obj es) = .ok d)
    (hr : ∀ r, LinkInJson v es r → Readable r) (new : v ≠ .v21) (id : Str) (hi : HasId es g!"SPDXID" id) (hn : ¬ NamedInJson es id)
    (hd : itemsAt g!"documentDescribes" es ≠ []) :
    validateDocument (d.packages.map some) (d.files.map some) (d.relationships.map some) = .err := by
  have hs := (C57_same_version so copy v es ht hv d).1 h
  obtain ⟨own, -, k⟩ := hs.relationships
  rw [if_neg new] at k
  obtain ⟨describes, owners, k, -⟩ := k
  obtain ⟨j, hj⟩ := List.exists_mem_of_ne_nil _ hd
  obtain ⟨b, -, hb⟩ := (items_say k).image hj
  exact (C97_invalid so copy v es ht hv d h hr).2 ⟨_, .inr (.inl ⟨new, id, j, b, hi, hj, hb, rfl⟩), fun k => hn k.1⟩

/-- **C98.** The described packages of a JSON object with two or more packages are the elements, in order, that it says the document
describes, under `relationships` or under `documentDescribes`; an error is reported exactly if there are none. -/
theorem C98_described (so : Sorter) (copy : Version → Version → Doc → Doc) (v : Version) (es : List (Str × Json)) (ht : tidy (.obj es) = true)
    (hv : StatesVersion es v) (d : Doc) (h : readJsonInto so copy true v (.obj es) = .ok d)
    (hr : ∀ r, LinkInJson v es r → Readable r) (two : 2 ≤ (itemsAt g!"packages" es).length) :
    (∀ ids, getDescribedPackageIDs so (d.packages.map some) (d.relationships.map some) = .ok ids →
      ids ≠ [] ∧ ids.Pairwise (fun a b => strLe a b = true) ∧ ∀ id, id ∈ ids ↔ ∃ r, LinkInJson v es r ∧ Spec.Says r id) ∧
    (getDescribedPackageIDs so (d.packages.map some) (d.relationships.map some) = .err ↔ ¬ ∃ r, LinkInJson v es r ∧ ∃ id, Spec.Says r id) ∧
    getDescribedPackageIDs so (d.packages.map some) (d.relationships.map some) ≠ .panic := by
  have h := (C57_same_version so copy v es ht hv d).1 h
  obtain ⟨q1, q2⟩ := links_read ht h
  have key : ∀ id, (∃ r ∈ d.relationships, Spec.Says r id) ↔ ∃ r, LinkInJson v es r ∧ Spec.Says r id := by
    refine fun id => ⟨fun ⟨r, hm, hs⟩ => ⟨r, q1 r hm, hs⟩, ?_⟩
    rintro ⟨r, hl, hs⟩
    rcases q2 hr r hl with hm | ⟨ht, s, hm, e⟩
    · exact ⟨r, hm, hs⟩
    · exact ⟨s, hm, says_same (jsonLink_of hl) (jsonLink_of (q1 s hm)) ht e id hs⟩
  have hl := (items_say h.packages).length
  match hd : d.packages with
  | [] => rw [hd] at hl; simp at hl; rw [hl] at two; simp at two
  | [_] => rw [hd] at hl; simp at hl; omega
  | p :: q :: ps =>
    obtain ⟨k1, k2, k3⟩ := C25_described so (some p) (some q) (ps.map some) d.relationships
    refine ⟨fun ids e => ?_, k2.trans (not_congr ⟨?_, ?_⟩), k3⟩
    · obtain ⟨j1, j2, j3⟩ := k1 ids e
      exact ⟨j1, j2, fun id => (j3 id).trans (key id)⟩
    · rintro ⟨r, hr, id, hs⟩
      obtain ⟨s, hl, hs⟩ := (key id).1 ⟨r, hr, hs⟩
      exact ⟨s, hl, id, hs⟩
    · rintro ⟨r, hr, id, hs⟩
      obtain ⟨s, hl, hs⟩ := (key id).2 ⟨r, hr, hs⟩
      exact ⟨s, hl, id, hs⟩

/-- **C98.** Of an object with one package, the described package is that one; of an object without, there is an error. -/
theorem C98_single (so : Sorter) (copy : Version → Version → Doc → Doc) (v : Version) (es : List (Str × Json)) (ht : tidy (.obj es) = true)
    (hv : StatesVersion es v) (d : Doc) (h : readJsonInto so copy true v (.obj es) = .ok d) :
    (∀ o id, itemsAt g!"packages" es = [.obj o] → HasId o g!"SPDXID" id →
      getDescribedPackageIDs so (d.packages.map some) (d.relationships.map some) = .ok [id]) ∧
    (itemsAt g!"packages" es = [] → getDescribedPackageIDs so (d.packages.map some) (d.relationships.map some) = .err) := by
  have h := (C57_same_version so copy v es ht hv d).1 h
  have hp := items_say h.packages
  refine ⟨fun o id e hi => ?_, fun e => ?_⟩ <;> rw [e] at hp
  · match hd : d.packages, hp with
    | [p], .cons ho .nil =>
      rcases ho with ⟨o', eo, ho⟩ | ⟨eo, -⟩
      · cases eo
        rw [hasId_unique hi ho.id]; rfl
      · cases eo
  · match hd : d.packages, hp with
    | [], .nil => rfl

/-! ## Examples and counterexamples -/

/-- An object with two packages and a file; another file is given inside the first package. -/
def json97 (id : Str) (describes files : List Str) (rels : List (Str × Str × Str)) : List (Str × Json) :=
  [(g!"SPDXID", .str id), (g!"spdxVersion", .str g!"SPDX-2.3"),
   (g!"documentDescribes", .arr (describes.map .str)),
   (g!"packages", .arr
     [.obj [(g!"SPDXID", .str g!"SPDXRef-p"), (g!"hasFiles", .arr (files.map .str)),
        (g!"files", .arr [.obj [(g!"SPDXID", .str g!"SPDXRef-inner")]])],
      .obj [(g!"SPDXID", .str g!"SPDXRef-q")]]),
   (g!"files", .arr [.obj [(g!"SPDXID", .str g!"SPDXRef-f")]]),
   (g!"relationships", .arr (rels.map fun r => .obj [(g!"spdxElementId", .str r.1), (g!"relationshipType", .str r.2.1), (g!"relatedSpdxElement", .str r.2.2)]))]

/-- Whether the document of the object is valid, and what it describes. -/
def answers97 (v : Version) (es : List (Str × Json)) : Res (Bool × Res (List Str)) := do
  let d ← decodeDoc insertionSorter v (.obj es)
  return (validateDocument (d.packages.map some) (d.files.map some) (d.relationships.map some) = .ok (),
      getDescribedPackageIDs insertionSorter (d.packages.map some) (d.relationships.map some))

/-- An object with all three kinds of relations. -/
def full97 : List (Str × Json) :=
  json97 g!"SPDXRef-DOCUMENT" [g!"SPDXRef-q", g!"SPDXRef-p"] [g!"SPDXRef-f"] [(g!"SPDXRef-p", g!"DESCRIBED_BY", g!"SPDXRef-DOCUMENT")]

/-- Non-vacuity: the object meets the conditions, is valid, and describes both packages. -/
theorem C97_sample : tidy (.obj full97) = true ∧ StatesVersion full97 .v23 ∧ (∀ r, LinkInJson .v23 full97 r → Readable r) ∧
    2 ≤ (itemsAt g!"packages" full97).length ∧
    (∃ d, ∀ copy, readJsonInto insertionSorter copy true .v23 (.obj full97) = .ok d) ∧
    answers97 .v23 full97 = .ok (true, .ok [g!"p", g!"q"]) := by
  have ht : tidy (.obj full97) = true := by decide +kernel
  have hv : StatesVersion full97 .v23 := ⟨g!"SPDX-2.3", g!"SPDX-2.3", by simp [full97, json97], by decide, .inr (.inr ⟨rfl, rfl⟩)⟩
  have ha : answers97 .v23 full97 = .ok (true, .ok [g!"p", g!"q"]) := by decide +kernel
  refine ⟨ht, hv, ?_, by decide +kernel, ?_, ha⟩
  · have ref : ∀ e, e ≠ [] → written (.str (g!"SPDXRef-" ++ e)) = g!"SPDXRef-" ++ e → ∀ r, RefIs (.str (g!"SPDXRef-" ++ e)) r → r = { elementRefID := e } :=
      fun e h0 h1 r hr => refIs_unique (by rw [tidy.eq_def]) hr (.inr (.inl ⟨e, h1, h0, rfl⟩))
    have hp := ref g!"p" (by decide) (by decide +kernel)
    have hq := ref g!"q" (by decide) (by decide +kernel)
    have hf := ref g!"f" (by decide) (by decide +kernel)
    have h1 : itemsAt g!"relationships" full97 = [.obj [(g!"spdxElementId", .str g!"SPDXRef-p"), (g!"relationshipType", .str g!"DESCRIBED_BY"),
      (g!"relatedSpdxElement", .str g!"SPDXRef-DOCUMENT")]] := by rfl
    have h2 : itemsAt g!"documentDescribes" full97 = [.str g!"SPDXRef-q", .str g!"SPDXRef-p"] := by rfl
    have h3 : itemsAt g!"packages" full97 = [.obj [(g!"SPDXID", .str g!"SPDXRef-p"), (g!"hasFiles", .arr [.str g!"SPDXRef-f"]),
        (g!"files", .arr [.obj [(g!"SPDXID", .str g!"SPDXRef-inner")]])], .obj [(g!"SPDXID", .str g!"SPDXRef-q")]] := by rfl
    rintro r (⟨o, ho, hr⟩ | ⟨-, id, j, b, hi, hj, hs, rfl⟩ | ⟨-, o, id, j, b, ho, hi, hj, hs, rfl⟩)
    · have hto := (tidy_item ht ho).1
      rw [h1] at ho
      cases List.mem_singleton.1 ho
      have : relationshipCodec.dec (.obj [(g!"spdxElementId", .str g!"SPDXRef-p"), (g!"relationshipType", .str g!"DESCRIBED_BY"),
        (g!"relatedSpdxElement", .str g!"SPDXRef-DOCUMENT")]) {} = .ok { refA := { elementRefID := g!"p" }, refB := { elementRefID := g!"DOCUMENT" }, relationship := g!"DESCRIBED_BY" } := by rfl
      have := this.symm.trans ((reads_relationship (n := false) _ hto _).2 (.inl ⟨_, rfl, hr⟩))
      cases this
      unfold Readable; decide +kernel
    · have : id = g!"DOCUMENT" := hasId_unique hi (.inr ⟨.str g!"SPDXRef-DOCUMENT", by rfl, by decide +kernel, by decide⟩)
      rw [h2] at hj
      simp only [List.mem_cons, List.not_mem_nil, or_false] at hj
      rcases hj with rfl | rfl
      · rw [this, hq b hs]; unfold Readable; decide +kernel
      · rw [this, hp b hs]; unfold Readable; decide +kernel
    · rw [h3] at ho
      simp only [List.mem_cons, List.not_mem_nil, or_false, Json.obj.injEq] at ho
      rcases ho with rfl | rfl
      · have : id = g!"p" := hasId_unique hi (.inr ⟨.str g!"SPDXRef-p", by rfl, by decide +kernel, by decide⟩)
        cases List.mem_singleton.1 (show j ∈ [Json.str g!"SPDXRef-f"] from hj)
        rw [this, hf b hs]; unfold Readable; decide +kernel
      · exact absurd (show j ∈ [] from hj) (by simp)
  · cases hd : decodeDoc insertionSorter .v23 (.obj full97) with
    | ok d => exact ⟨d, fun copy => (C57_same_version insertionSorter copy .v23 full97 ht hv d).2 ((C57_document insertionSorter .v23 full97 ht d).1 hd)⟩
    | err => rw [answers97, hd] at ha; cases ha
    | panic => rw [answers97, hd] at ha; cases ha

/-- C97: "a document that describes its packages is valid" is false: if the identifier of the document is not `SPDXRef-DOCUMENT`, which the
readers accept, the entries of `documentDescribes` make it invalid, and no described packages are found. -/
theorem C97_identifier_false : answers97 .v23 (json97 g!"SPDXRef-doc" [g!"SPDXRef-p", g!"SPDXRef-q"] [] []) = .ok (false, .err) ∧
    answers97 .v23 (json97 g!"SPDXRef-doc" [] [] []) = .ok (true, .err) := by decide +kernel

/-- C97: "a relationship with a file that is given in a package is valid" is false. -/
theorem C97_contained_false : answers97 .v23 (json97 g!"SPDXRef-DOCUMENT" [] [g!"SPDXRef-inner"] []) = .ok (false, .err) ∧
    answers97 .v23 (json97 g!"SPDXRef-DOCUMENT" [] [g!"SPDXRef-f"] []) = .ok (true, .err) := by decide +kernel

/-- C97: "a relationship to nothing, or to an element of another document, is valid" is false. -/
theorem C97_none_false :
    answers97 .v23 (json97 g!"SPDXRef-DOCUMENT" [] [] [(g!"SPDXRef-p", g!"CONTAINS", g!"NONE")]) = .ok (false, .err) ∧
    answers97 .v23 (json97 g!"SPDXRef-DOCUMENT" [] [] [(g!"SPDXRef-p", g!"DEPENDS_ON", g!"DocumentRef-x:SPDXRef-z")]) = .ok (false, .err) := by
  decide +kernel

/-- C97: the condition on identifiers is needed: an entry of `hasFiles` that is the identifier of nothing is overlooked if a relationship has the
same text, and the document is valid. -/
theorem C97_hidden_false :
    answers97 .v23 (json97 g!"SPDXRef-DOCUMENT" [] [g!"SPDXRef-f-X->SPDXRef-q"] [(g!"SPDXRef-p", g!"CONTAINS->SPDXRef-f-X", g!"SPDXRef-q")]) =
      .ok (true, .err) ∧
    answers97 .v23 (json97 g!"SPDXRef-DOCUMENT" [] [g!"SPDXRef-f-X->SPDXRef-q"] []) = .ok (false, .err) := by decide +kernel

/-- C98: "the described packages are the same in every version" is false: in 2.1 `documentDescribes` does not count. -/
theorem C98_version_false : answers97 .v22 full97 = .ok (true, .ok [g!"p", g!"q"]) ∧ answers97 .v21 full97 = .ok (true, .ok [g!"p"]) := by
  decide +kernel

/-- C98: "a described package is listed once" is false: it is, if `documentDescribes` repeats an entry of `relationships`, but not if two
entries of `relationships` say the same, or if an element of another document has the same identifier. -/
theorem C98_once_false :
    answers97 .v23 (json97 g!"SPDXRef-DOCUMENT" [g!"SPDXRef-p", g!"SPDXRef-p"] [] [(g!"SPDXRef-p", g!"DESCRIBED_BY", g!"SPDXRef-DOCUMENT")]) =
      .ok (true, .ok [g!"p"]) ∧
    answers97 .v23 (json97 g!"SPDXRef-DOCUMENT" [] [] [(g!"SPDXRef-p", g!"DESCRIBED_BY", g!"SPDXRef-DOCUMENT"), (g!"SPDXRef-DOCUMENT", g!"DESCRIBES", g!"SPDXRef-p")]) =
      .ok (true, .ok [g!"p", g!"p"]) ∧
    answers97 .v23 (json97 g!"SPDXRef-DOCUMENT" [g!"SPDXRef-p", g!"DocumentRef-x:SPDXRef-p"] [] []) = .ok (true, .ok [g!"p", g!"p"]) := by decide +kernel

end Verif
