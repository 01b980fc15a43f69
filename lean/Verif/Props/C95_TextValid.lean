import Verif.Spec.TextValid
import Verif.Props.C05_C10_Parser
import Verif.Props.C11_Outline
import Verif.Props.C24_C26_SpdxLib
import Verif.Props.C48_Meaning
import Verif.Lemmas.TextSays
import Verif.Lemmas.RdfSays

/-!
# C95, C96: which tag-value texts are read as valid documents, and which packages they describe

`RefersToNamed` and `ValueDescribes` are in `Spec/TextValid`.
-/

namespace Verif
open Spec

theorem groups_first (t : Str) : ∀ (tvs : List TVPair) (x : Str), (∃ g ∈ groups t tvs, g.1 = x) ↔ ∃ p ∈ tvs, p.tag = t ∧ p.value = x
  | [], x => by simp [groups]
  | p :: ps, x => by
    have ih := groups_first t ps x
    unfold groups
    split
    · rename_i h
      simp only [List.mem_cons, exists_eq_or_imp, ih, h, true_and]
    · rename_i h
      simp only [List.mem_cons, exists_eq_or_imp, ih, h, false_and, false_or]

/-- The relationships of a document are read from the values of the relationship tags. -/
theorem relationship_values {v : Version} {tvs : List TVPair} {d : Doc} (h : DocumentSays v tvs d) :
    (∀ r ∈ d.relationships, ∃ p ∈ tvs, p.tag = g!"Relationship" ∧ ∃ more, RelationshipSays v (p.value, more) r) ∧
    ∀ p ∈ tvs, p.tag = g!"Relationship" → ∃ r ∈ d.relationships, ∃ more, RelationshipSays v (p.value, more) r := by
  constructor
  · intro r hr
    obtain ⟨g, hg, hs⟩ := h.relationships.source hr
    obtain ⟨p, hp, ht, e⟩ := (groups_first _ tvs g.1).1 ⟨g, hg, rfl⟩
    exact ⟨p, hp, ht, g.2, by rw [e]; exact hs⟩
  · intro p hp ht
    obtain ⟨g, hg, e⟩ := (groups_first _ tvs p.value).2 ⟨p, hp, ht, rfl⟩
    obtain ⟨r, hr, hs⟩ := h.relationships.image hg
    exact ⟨r, hr, g.2, by rw [← e]; exact hs⟩

theorem known_text {v : Version} {tvs : List TVPair} {d : Doc} (h : parseTagValues v tvs = .ok (some d)) (hn : PackagesNamed tvs)
    (hi : IdsNotRepeated tvs) (id : Str) : Known d.packages d.files id ↔ NamedInText tvs id := by
  obtain ⟨h1, h2⟩ := C11_objects_follow_sections v tvs d h hn hi
  unfold Known NamedInText
  rw [← h1, ← h2]
  refine or_congr_right (or_congr ⟨?_, ?_⟩ ⟨?_, ?_⟩)
  · rintro ⟨p, hp, rfl⟩
    exact ⟨_, List.mem_map.2 ⟨p, hp, rfl⟩, List.mem_singleton.2 rfl⟩
  · rintro ⟨e, he, hm⟩
    obtain ⟨p, hp, rfl⟩ := List.mem_map.1 he
    exact ⟨p, hp, (List.append_cancel_left (List.mem_singleton.1 hm)).symm⟩
  · rintro ⟨f, hf, rfl⟩
    exact ⟨_, List.mem_map.2 ⟨f, hf, rfl⟩, List.mem_singleton.2 rfl⟩
  · rintro ⟨e, he, hm⟩
    obtain ⟨f, hf, rfl⟩ := List.mem_map.1 he
    exact ⟨f, hf, (List.append_cancel_left (List.mem_singleton.1 hm)).symm⟩

/-- No element is without identifier. -/
theorem nameless_unknown {v : Version} {tvs : List TVPair} {d : Doc} (h : parseTagValues v tvs = .ok (some d)) :
    ¬ Known d.packages d.files [] := by
  obtain ⟨h1, h2, -⟩ := C06_identifiers_present v tvs d h
  rintro (e | ⟨p, hp, e⟩ | ⟨f, hf, e⟩)
  · exact absurd e (by decide)
  · exact (h1 p hp).1 e
  · exact (h2 f (List.mem_append.2 (.inl hf))).1 e

theorem not_special {b : Str} {x : DocElementID} (h : RefReads b x) : ¬ (b = g!"NONE" ∨ b = g!"NOASSERTION") := by
  obtain ⟨-, ⟨-, h⟩ | ⟨-, h⟩⟩ := h <;> rintro (e | e) <;> rw [e] at h <;> simp at h

/-- **C95.** A tag-value text is read as a valid document exactly if both ends of every relationship in it refer to the document, to
the identifier of a package section, or to that of a file section before the first package section. -/
theorem C95_valid (v : Version) (tvs : List TVPair) (d : Doc) (h : parseTagValues v tvs = .ok (some d)) (hn : PackagesNamed tvs)
    (hi : IdsNotRepeated tvs) :
    validateDocument (d.packages.map some) (d.files.map some) (d.relationships.map some) = .ok () ↔
      ∀ p ∈ tvs, p.tag = g!"Relationship" → ∀ a k b, wordsOf p.value = [a, k, b] → RefersToNamed tvs a ∧ RefersToNamed tvs b := by
  have hs := C48_document v tvs d h
  obtain ⟨q1, q2⟩ := relationship_values hs
  rw [(C24_valid_iff d.packages d.files d.relationships).1]
  simp only [known_text h hn hi]
  constructor
  · intro hk p hp ht a k b hw
    obtain ⟨r, hr, more, ⟨a', b', e, hA, hB⟩, -⟩ := q2 p hp ht
    obtain ⟨ka, kb⟩ := hk r hr
    have e := hw.symm.trans e
    simp only [List.cons.injEq, and_true] at e
    obtain ⟨rfl, -, rfl⟩ := e
    refine ⟨⟨r.refA, hA, ka⟩, ?_⟩
    rcases hB with hB | ⟨-, -, hB⟩
    · exact ⟨r.refB, hB, kb⟩
    · rw [hB] at kb
      exact absurd ((known_text h hn hi []).2 kb) (nameless_unknown h)
  · intro hk r hr
    obtain ⟨p, hp, ht, more, ⟨a, b, e, hA, hB⟩, -⟩ := q1 r hr
    obtain ⟨⟨x, hx, kx⟩, y, hy, ky⟩ := hk p hp ht _ _ _ e
    refine ⟨by rw [ref_one hA hx]; exact kx, ?_⟩
    rcases hB with hB | ⟨-, hB, -⟩
    · rw [ref_one hB hy]; exact ky
    · exact absurd hB (not_special hy)

/-- **C95.** Otherwise validation reports an error. -/
theorem C95_invalid (v : Version) (tvs : List TVPair) (d : Doc) (h : parseTagValues v tvs = .ok (some d)) (hn : PackagesNamed tvs)
    (hi : IdsNotRepeated tvs) :
    validateDocument (d.packages.map some) (d.files.map some) (d.relationships.map some) = .err ↔
      ∃ p ∈ tvs, p.tag = g!"Relationship" ∧ ∃ a k b, wordsOf p.value = [a, k, b] ∧ ¬ (RefersToNamed tvs a ∧ RefersToNamed tvs b) := by
  have hv := C95_valid v tvs d h hn hi
  obtain ⟨q1, q2⟩ := C24_valid_iff d.packages d.files d.relationships
  constructor
  · intro he
    refine Classical.byContradiction fun hc => ?_
    have := hv.2 fun p hp ht a k b hw => Classical.byContradiction fun hr => hc ⟨p, hp, ht, a, k, b, hw, hr⟩
    rw [he] at this
    exact nomatch this
  · rintro ⟨p, hp, ht, a, k, b, hw, hr⟩
    refine q2.2 (Classical.byContradiction fun hc => hr ?_)
    exact hv.1 (q1.2 fun r hr => Classical.byContradiction fun hr' => hc ⟨r, hr, hr'⟩) p hp ht a k b hw

/-! ## Described packages -/

theorem reads_document {a : Str} {x : DocElementID} (h : RefReads a x) : x = thisDocument ↔ a = g!"SPDXRef-DOCUMENT" := by
  constructor
  · rintro rfl
    obtain ⟨-, ⟨-, h⟩ | ⟨h, -⟩⟩ := h
    · exact h
    · exact absurd rfl h
  · rintro rfl
    exact ref_one h ⟨⟨by decide, by decide, by decide⟩, .inl ⟨rfl, rfl⟩⟩

theorem says_iff {v : Version} {value : Str} {more : List TVPair} {r : Relationship} (h : RelationshipSays v (value, more) r) (id : Str) :
    Spec.Says r id ↔ ValueDescribes value id := by
  obtain ⟨⟨a, b, hw, hA, hB⟩, -⟩ := h
  have hw : wordsOf value = [a, r.relationship, b] := hw
  unfold Spec.Says ValueDescribes
  rw [hw]
  constructor
  · rintro (⟨k1, k2, rfl⟩ | ⟨k1, k2, rfl⟩)
    · refine .inl ⟨b, by rw [k1, (reads_document hA).1 k2], ?_⟩
      rcases hB with hB | ⟨-, hB, e⟩
      · exact .inl ⟨_, hB, rfl⟩
      · exact .inr ⟨hB, by rw [e]⟩
    · refine .inr ⟨a, ?_, _, hA, rfl⟩
      rcases hB with hB | ⟨-, -, e⟩
      · rw [k1, (reads_document hB).1 k2]
      · rw [e] at k2
        exact absurd (congrArg DocElementID.elementRefID k2) (show ([] : Str) ≠ g!"DOCUMENT" by decide)
  · rintro (⟨b', e, k⟩ | ⟨a', e, x, hx, rfl⟩) <;> simp only [List.cons.injEq, and_true] at e
    · obtain ⟨ea, ek, rfl⟩ := e
      refine .inl ⟨ek, (reads_document hA).2 ea, ?_⟩
      rcases hB with hB | ⟨-, hB, e⟩ <;> rcases k with ⟨x, hx, rfl⟩ | ⟨hs, rfl⟩
      · rw [ref_one hB hx]
      · exact absurd hs (not_special hB)
      · exact absurd hB (not_special hx)
      · rw [e]
    · obtain ⟨rfl, ek, eb⟩ := e
      refine .inr ⟨ek, ?_, by rw [ref_one hA hx]⟩
      rcases hB with hB | ⟨-, hB, -⟩
      · exact (reads_document hB).2 eb
      · rw [eb] at hB
        exact absurd hB (by decide)

/-- **C96.** The described packages of a tag-value text with two or more package sections are the elements, in order, that its
`DESCRIBES` and `DESCRIBED_BY` relationships with the document say; an error is reported exactly if there are none. -/
theorem C96_described (so : Sorter) (v : Version) (tvs : List TVPair) (d : Doc) (h : parseTagValues v tvs = .ok (some d)) (hn : PackagesNamed tvs)
    (hi : IdsNotRepeated tvs) (two : 2 ≤ (packagesWithFiles tvs).length) :
    (∀ ids, getDescribedPackageIDs so (d.packages.map some) (d.relationships.map some) = .ok ids →
      ids ≠ [] ∧ ids.Pairwise (fun a b => strLe a b = true) ∧
        ∀ id, id ∈ ids ↔ ∃ p ∈ tvs, p.tag = g!"Relationship" ∧ ValueDescribes p.value id) ∧
    (getDescribedPackageIDs so (d.packages.map some) (d.relationships.map some) = .err ↔
      ¬ ∃ p ∈ tvs, p.tag = g!"Relationship" ∧ ∃ id, ValueDescribes p.value id) ∧
    getDescribedPackageIDs so (d.packages.map some) (d.relationships.map some) ≠ .panic := by
  obtain ⟨q1, q2⟩ := relationship_values (C48_document v tvs d h)
  have key : ∀ id, (∃ r ∈ d.relationships, Spec.Says r id) ↔ ∃ p ∈ tvs, p.tag = g!"Relationship" ∧ ValueDescribes p.value id := by
    intro id
    constructor
    · rintro ⟨r, hr, hs⟩
      obtain ⟨p, hp, ht, more, k⟩ := q1 r hr
      exact ⟨p, hp, ht, (says_iff k id).1 hs⟩
    · rintro ⟨p, hp, ht, hs⟩
      obtain ⟨r, hr, more, k⟩ := q2 p hp ht
      exact ⟨r, hr, (says_iff k id).2 hs⟩
  have hl := congrArg List.length (C11_objects_follow_sections v tvs d h hn hi).2
  rw [List.length_map] at hl
  match hd : d.packages with
  | [] => rw [hd] at hl; simp at hl; omega
  | [_] => rw [hd] at hl; simp at hl; omega
  | p :: q :: ps =>
    obtain ⟨k1, k2, k3⟩ := C25_described so (some p) (some q) (ps.map some) d.relationships
    refine ⟨fun ids e => ?_, k2.trans (not_congr ⟨?_, ?_⟩), k3⟩
    · obtain ⟨j1, j2, j3⟩ := k1 ids e
      exact ⟨j1, j2, fun id => (j3 id).trans (key id)⟩
    · rintro ⟨r, hr, id, hs⟩
      obtain ⟨p, hp, ht, hs⟩ := (key id).1 ⟨r, hr, hs⟩
      exact ⟨p, hp, ht, id, hs⟩
    · rintro ⟨p, hp, ht, id, hs⟩
      obtain ⟨r, hr, hs⟩ := (key id).2 ⟨p, hp, ht, hs⟩
      exact ⟨r, hr, id, hs⟩

/-- **C96.** Of a text with one package section, the described package is that one; of a text without, there is an error. -/
theorem C96_single (so : Sorter) (v : Version) (tvs : List TVPair) (d : Doc) (h : parseTagValues v tvs = .ok (some d)) (hn : PackagesNamed tvs)
    (hi : IdsNotRepeated tvs) :
    (∀ name ids files, packagesWithFiles tvs = [((name, ids), files)] → ∃ id, ids = [g!"SPDXRef-" ++ id] ∧
      getDescribedPackageIDs so (d.packages.map some) (d.relationships.map some) = .ok [id]) ∧
    (packagesWithFiles tvs = [] → getDescribedPackageIDs so (d.packages.map some) (d.relationships.map some) = .err) := by
  have hl := (C11_objects_follow_sections v tvs d h hn hi).2
  refine ⟨fun name ids files e => ?_, fun e => ?_⟩ <;> rw [e] at hl
  · obtain ⟨p, hp, e⟩ := List.map_eq_singleton_iff.1 hl
    injection e with e1 e2
    injection e1 with e1 e3
    exact ⟨p.spdxId, e3.symm, by rw [hp]; rfl⟩
  · rw [List.map_eq_nil_iff.1 hl]; rfl

/-! ## Examples and counterexamples -/

/-- A text with two packages, one file before them and one in the first; the relationships are given. -/
def text95 (rels : List Str) : List TVPair :=
  [⟨g!"SPDXVersion", g!"SPDX-2.3"⟩, ⟨g!"SPDXID", g!"SPDXRef-DOCUMENT"⟩] ++ rels.map (fun r => ⟨g!"Relationship", r⟩) ++
  [⟨g!"FileName", g!"l"⟩, ⟨g!"SPDXID", g!"SPDXRef-L"⟩,
   ⟨g!"PackageName", g!"p"⟩, ⟨g!"SPDXID", g!"SPDXRef-P"⟩,
   ⟨g!"FileName", g!"f"⟩, ⟨g!"SPDXID", g!"SPDXRef-F"⟩,
   ⟨g!"PackageName", g!"q"⟩, ⟨g!"SPDXID", g!"SPDXRef-Q"⟩]

/-- Whether the document of the text is valid, and what it describes. -/
def answers95 (rels : List Str) : Option (Bool × Res (List Str)) :=
  match parseTagValues .v23 (text95 rels) with
  | .ok (some d) => some (validateDocument (d.packages.map some) (d.files.map some) (d.relationships.map some) = .ok (),
      getDescribedPackageIDs insertionSorter (d.packages.map some) (d.relationships.map some))
  | _ => none

/-- Non-vacuity: a text that meets the conditions, is read, is valid, and describes both packages. -/
theorem C95_sample : PackagesNamed (text95 [g!"SPDXRef-DOCUMENT DESCRIBES SPDXRef-Q", g!"SPDXRef-P DESCRIBED_BY SPDXRef-DOCUMENT", g!"SPDXRef-L OTHER SPDXRef-P"]) ∧
    IdsNotRepeated (text95 [g!"SPDXRef-DOCUMENT DESCRIBES SPDXRef-Q", g!"SPDXRef-P DESCRIBED_BY SPDXRef-DOCUMENT", g!"SPDXRef-L OTHER SPDXRef-P"]) ∧
    2 ≤ (packagesWithFiles (text95 [g!"SPDXRef-DOCUMENT DESCRIBES SPDXRef-Q", g!"SPDXRef-P DESCRIBED_BY SPDXRef-DOCUMENT", g!"SPDXRef-L OTHER SPDXRef-P"])).length ∧
    answers95 [g!"SPDXRef-DOCUMENT DESCRIBES SPDXRef-Q", g!"SPDXRef-P DESCRIBED_BY SPDXRef-DOCUMENT", g!"SPDXRef-L OTHER SPDXRef-P"] =
      some (true, .ok [g!"P", g!"Q"]) := by decide +kernel

/-- C95: "a relationship between a package and a file in it is valid" is false: the identifiers of files in packages are not
known to validation. -/
theorem C95_contained_false : answers95 [g!"SPDXRef-P CONTAINS SPDXRef-F"] = some (false, .err) := by decide +kernel

/-- C95: "a reference to an element of another document is not looked for in this one" is false: it makes the document invalid,
unless this document has an element of that name. -/
theorem C95_external_false : answers95 [g!"SPDXRef-P OTHER DocumentRef-x:SPDXRef-Z"] = some (false, .err) ∧
    answers95 [g!"SPDXRef-P OTHER DocumentRef-x:SPDXRef-Q"] = some (true, .err) := by decide +kernel

/-- C96: "the described packages are packages" is false: a document that describes `NONE` describes an element without
identifier, and one that describes an element of another document or a file describes that. -/
theorem C96_packages_false : answers95 [g!"SPDXRef-DOCUMENT DESCRIBES NONE"] = some (false, .ok [[]]) ∧
    answers95 [g!"SPDXRef-DOCUMENT DESCRIBES DocumentRef-x:SPDXRef-Z"] = some (false, .ok [g!"Z"]) ∧
    answers95 [g!"SPDXRef-DOCUMENT DESCRIBES SPDXRef-L"] = some (true, .ok [g!"L"]) := by decide +kernel

end Verif
