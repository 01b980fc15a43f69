import Verif.Lemmas.Identifier

/-!
# C15–C18: identifiers in JSON and tag-value text
-/

namespace Verif
open Spec

/-- `id` without one leading `pre`, if it has one. -/
def bareId (pre id : Str) : Str := if hasPrefix pre id then id.drop pre.length else id

theorem prefixId_eq (pre id : Str) : prefixId pre id = pre ++ bareId pre id := by
  unfold prefixId bareId
  cases h : hasPrefix pre id with
  | false => simp
  | true => obtain ⟨r, rfl⟩ := hasPrefix_iff.1 h; simp

theorem prefixId_of_no_prefix {pre id : Str} (h : hasPrefix pre id = false) : prefixId pre id = pre ++ id := by
  simp [prefixId, h]

/-- **C15.** Encoding and decoding returns the identifier. -/
theorem C15_elementId_round_trip (id : Str) (hplain : Plain id) (hne : id ≠ [])
    (hbare : hasPrefix g!"SPDXRef-" id = false) :
    elementIdOfJson (elementIdToJson id) = .ok id := by
  unfold elementIdOfJson elementIdToJson
  rw [prefixId_of_no_prefix (pre := spdxRefPrefix) hbare]
  have hp : Plain (spdxRefPrefix ++ id) := plain_append.2 ⟨plain_spdxRef, hplain⟩
  rw [jsonQuote_plain hp, trimQuotes_quoted hp, trimIdPrefix_eq_ok]
  exact ⟨rfl, hne⟩

/-- **C15.** The encoding is the quoted identifier with the prefix exactly once: one that is already
there is kept, a missing one is added. -/
theorem C15_elementId_encoding (id : Str) (hplain : Plain id) :
    elementIdToJson id = quoted (g!"SPDXRef-" ++ bareId g!"SPDXRef-" id) := by
  unfold elementIdToJson
  rw [jsonQuote_plain (prefixId_plain hplain plain_spdxRef), prefixId_eq]
  rfl

/-- **C15.** Decoding accepts exactly the quoted strings `SPDXRef-e` with `e` not empty, and yields
`e`; anything else is an error, never a panic. -/
theorem C15_elementId_decoding (s e : Str) (hplain : Plain s) :
    (elementIdOfJson (quoted s) = .ok e ↔ s = g!"SPDXRef-" ++ e ∧ e ≠ []) ∧
    elementIdOfJson (quoted s) ≠ .panic := by
  unfold elementIdOfJson
  rw [trimQuotes_quoted hplain]
  exact ⟨trimIdPrefix_eq_ok, trimIdPrefix_ne_panic _ _⟩

example : Plain g!"Package-1.0+ä" ∧ g!"Package-1.0+ä" ≠ [] ∧
    hasPrefix g!"SPDXRef-" g!"Package-1.0+ä" = false := by decide

/-- **C15, where it fails.** The decoder does not undo JSON escapes: an identifier with a backslash
(or a control character, or a quote) does not survive. -/
theorem C15_escapes_false : ∃ id : Str, id ≠ [] ∧ hasPrefix g!"SPDXRef-" id = false ∧
    elementIdOfJson (elementIdToJson id) = .ok g!"a\\\\b" ∧ id = g!"a\\b" :=
  ⟨g!"a\\b", by decide⟩

/-- **C16.** Encoding and decoding returns the document identifier. -/
theorem C16_documentId_round_trip (id : Str) (hplain : Plain id) (hne : id ≠ [])
    (hbare : hasPrefix g!"DocumentRef-" id = false) :
    documentIdOfJson (documentIdToJson id) = .ok id := by
  unfold documentIdOfJson documentIdToJson
  rw [prefixId_of_no_prefix (pre := documentRefPrefix) hbare]
  have hp : Plain (documentRefPrefix ++ id) := plain_append.2 ⟨plain_documentRef, hplain⟩
  rw [jsonQuote_plain hp, trimQuotes_quoted hp, trimIdPrefix_eq_ok]
  exact ⟨rfl, hne⟩

/-- **C16.** The encoding carries the prefix exactly once. -/
theorem C16_documentId_encoding (id : Str) (hplain : Plain id) :
    documentIdToJson id = quoted (g!"DocumentRef-" ++ bareId g!"DocumentRef-" id) := by
  unfold documentIdToJson
  rw [jsonQuote_plain (prefixId_plain hplain plain_documentRef), prefixId_eq]
  rfl

/-- **C16.** Decoding accepts exactly the quoted strings `DocumentRef-e` with `e` not empty. -/
theorem C16_documentId_decoding (s e : Str) (hplain : Plain s) :
    (documentIdOfJson (quoted s) = .ok e ↔ s = g!"DocumentRef-" ++ e ∧ e ≠ []) ∧
    documentIdOfJson (quoted s) ≠ .panic := by
  unfold documentIdOfJson
  rw [trimQuotes_quoted hplain]
  exact ⟨trimIdPrefix_eq_ok, trimIdPrefix_ne_panic _ _⟩

example : Plain g!"other" ∧ hasPrefix g!"DocumentRef-" g!"other" = false := by decide

/-- The references a decoder starting from an empty one can produce, with their text. -/
inductive RefText : Str → DocElementID → Prop
  | none : RefText g!"NONE" { specialID := g!"NONE" }
  | noassertion : RefText g!"NOASSERTION" { specialID := g!"NOASSERTION" }
  | element (e) : e ≠ [] → RefText (g!"SPDXRef-" ++ e) { elementRefID := e }
  | external (d e) : d ≠ [] → ':' ∉ d → e ≠ [] →
      RefText (g!"DocumentRef-" ++ d ++ g!":SPDXRef-" ++ e) { documentRefID := d, elementRefID := e }
  | document (d) : d ≠ [] → ':' ∉ d → RefText (g!"DocumentRef-" ++ d) { documentRefID := d }

theorem documentRef_append_colon {d r a b : Str} (h : documentRefPrefix ++ d ++ ':' :: r = a ++ ':' :: b)
    (hd : ':' ∉ d) (ha : ':' ∉ a) : a = documentRefPrefix ++ d ∧ b = r := by
  have n1 : ':' ∉ documentRefPrefix ++ d := by simp [hd, documentRefPrefix]
  have e1 := cut_single (c := ':') (b := r) n1
  have e2 := cut_single (c := ':') (b := b) ha
  rw [h, e2] at e1
  simpa using e1

/-- **C17.** Decoding accepts exactly the texts of `RefText`, with that value. -/
theorem C17_decoding (s : Str) (d : DocElementID) (hplain : Plain s) :
    docElementIdOfJson {} (quoted s) = .ok d ↔ RefText s d := by
  unfold docElementIdOfJson
  rw [trimQuotes_quoted hplain]
  simp only
  have hdoc_spdx : ∀ e : Str, hasPrefix documentRefPrefix (spdxRefPrefix ++ e) = false := by
    intro e; simp [hasPrefix, documentRefPrefix, spdxRefPrefix, List.isPrefixOf]
  by_cases hs : s = g!"NONE" ∨ s = g!"NOASSERTION"
  · simp only [hs, if_true, Res.ok.injEq]
    constructor
    · rintro rfl
      rcases hs with rfl | rfl
      · exact .none
      · exact .noassertion
    · intro h
      cases h with
      | none => rfl
      | noassertion => rfl
      | element e _ => simp at hs
      | external d e => simp at hs
      | document d => simp at hs
  · simp only [hs, if_false]
    cases hp : hasPrefix documentRefPrefix s with
    | true =>
      simp only [if_true]
      obtain ⟨r, rfl⟩ := hasPrefix_iff.1 hp
      cases hc : cut g!":" (documentRefPrefix ++ r) with
      | none =>
        have hnc : ':' ∉ documentRefPrefix ++ r := by
          intro h
          have := contains_single.2 h
          simp [contains, hc] at this
        have hr : ':' ∉ r := fun h => hnc (by simp [h])
        simp only
        cases ht : trimIdPrefix documentRefPrefix (documentRefPrefix ++ r) with
        | ok x =>
          obtain ⟨h1, h2⟩ := trimIdPrefix_eq_ok.1 ht
          have h1 := List.append_cancel_left h1
          subst h1
          simp only [Res.bind_ok, Res.ok.injEq]
          constructor
          · rintro rfl; exact .document r h2 hr
          · intro h
            generalize hx : documentRefPrefix ++ r = x at h
            cases h with
            | none => simp [documentRefPrefix] at hx
            | noassertion => simp [documentRefPrefix] at hx
            | element e _ => simp [documentRefPrefix] at hx
            | external d e _ _ _ =>
              exfalso; apply hnc; rw [hx]; simp
            | document d _ _ => simp [documentRefPrefix] at hx; simp [hx]
        | err =>
          simp only [Res.bind_err, reduceCtorEq, false_iff]
          intro h
          generalize hx : documentRefPrefix ++ r = x at h
          cases h with
          | none => simp [documentRefPrefix] at hx
          | noassertion => simp [documentRefPrefix] at hx
          | element e _ => simp [documentRefPrefix] at hx
          | external d e _ _ _ => apply hnc; rw [hx]; simp
          | document d hd _ =>
            rw [hx] at ht
            have := trimIdPrefix_eq_ok.2 ⟨(rfl : documentRefPrefix ++ d = _), hd⟩
            rw [show g!"DocumentRef-" = documentRefPrefix from rfl, this] at ht; simp at ht
        | panic => exact absurd ht (trimIdPrefix_ne_panic _ _)
      | some ab =>
        obtain ⟨a, b⟩ := ab
        obtain ⟨hab, hna⟩ := cut_single_eq.1 hc
        simp only
        constructor
        · intro h
          cases ht : trimIdPrefix documentRefPrefix a with
          | err => simp [ht] at h
          | panic => simp [ht] at h
          | ok x =>
            cases ht2 : trimIdPrefix spdxRefPrefix b with
            | err => simp [ht, ht2] at h
            | panic => simp [ht, ht2] at h
            | ok y =>
              simp only [ht, ht2, Res.bind_ok, Res.ok.injEq] at h
              obtain ⟨rfl, hx⟩ := trimIdPrefix_eq_ok.1 ht
              obtain ⟨rfl, hy⟩ := trimIdPrefix_eq_ok.1 ht2
              subst h
              rw [hab]
              have := RefText.external x y hx (fun h => hna (by simp [h])) hy
              simpa [documentRefPrefix, spdxRefPrefix] using this
        · intro h
          generalize hx : documentRefPrefix ++ r = x at h
          cases h with
          | none => simp [documentRefPrefix] at hx
          | noassertion => simp [documentRefPrefix] at hx
          | element e _ => simp [documentRefPrefix] at hx
          | external d e hd hcd he =>
            have e1 : documentRefPrefix ++ d ++ ':' :: (spdxRefPrefix ++ e) = a ++ ':' :: b := by
              rw [← hab, hx]; simp [documentRefPrefix, spdxRefPrefix]
            obtain ⟨rfl, rfl⟩ := documentRef_append_colon e1 hcd hna
            rw [trimIdPrefix_eq_ok.2 ⟨rfl, hd⟩, trimIdPrefix_eq_ok.2 ⟨rfl, he⟩]
            rfl
          | document d _ hcd =>
            exfalso
            have : ':' ∈ documentRefPrefix ++ r := by rw [hab]; simp
            rw [hx] at this
            simp at this
            exact hcd this
    | false =>
      simp only [Bool.false_eq_true, if_false]
      constructor
      · intro h
        cases ht : trimIdPrefix spdxRefPrefix s with
        | err => simp [ht] at h
        | panic => simp [ht] at h
        | ok x =>
          simp only [ht, Res.bind_ok, Res.ok.injEq] at h
          obtain ⟨rfl, hx⟩ := trimIdPrefix_eq_ok.1 ht
          subst h
          exact .element x hx
      · intro h
        cases h with
        | none => simp at hs
        | noassertion => simp at hs
        | element e he => rw [show g!"SPDXRef-" = spdxRefPrefix from rfl, trimIdPrefix_eq_ok.2 ⟨(rfl : spdxRefPrefix ++ e = _), he⟩]; rfl
        | external d e _ _ _ => simp [hasPrefix, documentRefPrefix, List.isPrefixOf] at hp
        | document d _ _ => simp [hasPrefix, documentRefPrefix, List.isPrefixOf] at hp

/-- The references that JSON can carry: NONE, NOASSERTION, an element of this document, or an
element of another one; identifiers are plain text, carry no prefix of their own, and the document
part has no colon. -/
inductive JsonRef : DocElementID → Prop
  | none : JsonRef { specialID := g!"NONE" }
  | noassertion : JsonRef { specialID := g!"NOASSERTION" }
  | element (e) : Plain e → e ≠ [] → hasPrefix g!"SPDXRef-" e = false → JsonRef { elementRefID := e }
  | external (d e) : Plain d → d ≠ [] → ':' ∉ d → hasPrefix g!"DocumentRef-" d = false →
      Plain e → e ≠ [] → hasPrefix g!"SPDXRef-" e = false →
      JsonRef { documentRefID := d, elementRefID := e }

/-- **C17.** Encoding such a reference succeeds and decoding returns it. -/
theorem C17_round_trip (d : DocElementID) (h : JsonRef d) :
    ∃ data, docElementIdToJson d = .ok data ∧ docElementIdOfJson {} data = .ok d := by
  cases h with
  | none => exact ⟨_, rfl, by decide⟩
  | noassertion => exact ⟨_, rfl, by decide⟩
  | element e hp hne hb =>
    refine ⟨quoted (g!"SPDXRef-" ++ e), ?_, ?_⟩
    · have : Plain (spdxRefPrefix ++ e) := plain_append.2 ⟨plain_spdxRef, hp⟩
      simp only [docElementIdToJson, ne_eq, not_true_eq_false, false_and, if_false, hne,
        not_false_eq_true, if_true]
      rw [prefixId_of_no_prefix (pre := spdxRefPrefix) hb, jsonQuote_plain this]
      rfl
    · exact (C17_decoding _ _ (plain_append.2 ⟨plain_spdxRef, hp⟩)).2 (.element e hne)
  | external d e hp hne hc hb hp' hne' hb' =>
    have e1 : documentRefPrefix ++ d ++ g!":" ++ (spdxRefPrefix ++ e) =
        g!"DocumentRef-" ++ d ++ g!":SPDXRef-" ++ e := by simp [documentRefPrefix, spdxRefPrefix]
    have hpl : Plain (g!"DocumentRef-" ++ d ++ g!":SPDXRef-" ++ e) :=
      plain_append.2 ⟨plain_append.2 ⟨plain_append.2 ⟨by decide, hp⟩, by decide⟩, hp'⟩
    refine ⟨quoted (g!"DocumentRef-" ++ d ++ g!":SPDXRef-" ++ e), ?_, ?_⟩
    · simp only [docElementIdToJson, ne_eq, hne, hne', not_false_eq_true, and_self, if_true]
      rw [prefixId_of_no_prefix (pre := spdxRefPrefix) hb',
        prefixId_of_no_prefix (pre := documentRefPrefix) hb, e1, jsonQuote_plain hpl]
    · exact (C17_decoding _ _ hpl).2 (.external d e hne hc hne')

/-- **C17.** Exactly the references with neither element nor special value cannot be encoded (a
bare document reference is among them). -/
theorem C17_not_encodable (d : DocElementID) :
    docElementIdToJson d = .err ↔ d.elementRefID = [] ∧ d.specialID = [] := by
  unfold docElementIdToJson
  by_cases h1 : d.elementRefID = []
  · by_cases h2 : d.specialID = [] <;> simp [h1, h2]
  · by_cases h3 : d.documentRefID = [] <;> simp [h1, h3]

example : JsonRef { documentRefID := g!"ext", elementRefID := g!"Package-x" } :=
  .external _ _ (by decide) (by decide) (by decide) (by decide) (by decide) (by decide) (by decide)

/-- **C17, where it fails.** A special value other than NONE and NOASSERTION is encoded but not
accepted back. -/
theorem C17_special_false : ∃ d : DocElementID, ∃ data, docElementIdToJson d = .ok data ∧
    docElementIdOfJson {} data = .err :=
  ⟨{ specialID := g!"OTHER" }, _, rfl, by decide⟩

/-- **C18.** Extraction accepts exactly `SPDXRef-e` with `e` non-empty and colon-free. -/
theorem C18_element_extract (v e : Str) :
    extractElementID v = .ok e ↔ v = g!"SPDXRef-" ++ e ∧ e ≠ [] ∧ ':' ∉ e :=
  extractElementID_eq_ok

/-- **C18.** Rendering and extracting an element reference. -/
theorem C18_element_round_trip (e : Str) (h : e ≠ []) (hc : ':' ∉ e) :
    extractElementID (renderElementID e) = .ok e :=
  extractElementID_eq_ok.2 ⟨rfl, h, hc⟩

/-- The text of a document-element reference without special value. -/
def refText (d e : Str) : Str :=
  if d = [] then g!"SPDXRef-" ++ e else g!"DocumentRef-" ++ d ++ g!":SPDXRef-" ++ e

/-- **C18.** Extraction of a document-element reference accepts exactly `SPDXRef-e` and
`DocumentRef-d:SPDXRef-e` with non-empty, colon-free parts, and returns those parts. -/
theorem C18_docElement_extract (v : Str) (x : DocElementID) :
    extractDocElementID v = .ok x ↔
      ∃ d e, e ≠ [] ∧ ':' ∉ e ∧ ':' ∉ d ∧ v = refText d e ∧
        x = { documentRefID := d, elementRefID := e, specialID := [] } := by
  rw [extractDocElementID_eq_ok]
  constructor
  · rintro ⟨h1, h2, h3, h4, h5⟩
    obtain ⟨d, e, sp⟩ := x
    simp only at h1 h2 h3 h4
    subst h1
    refine ⟨d, e, h2, h3, h4, ?_, rfl⟩
    rw [h5]
    by_cases hd : d = [] <;> simp [renderDocElementID, refText, hd, documentRefPrefix, spdxRefPrefix]
  · rintro ⟨d, e, h2, h3, h4, rfl, rfl⟩
    refine ⟨rfl, h2, h3, h4, ?_⟩
    by_cases hd : d = [] <;> simp [renderDocElementID, refText, hd, documentRefPrefix, spdxRefPrefix]

/-- **C18.** Rendering and extracting a document-element reference; the special values of the
caller's list are extracted as such. -/
theorem C18_docElement_round_trip (x : DocElementID) (hs : x.specialID = []) (he : x.elementRefID ≠ [])
    (hc : ':' ∉ x.elementRefID) (hd : ':' ∉ x.documentRefID) :
    extractDocElementID (renderDocElementID x) = .ok x :=
  extractDocElementID_eq_ok.2 ⟨hs, he, hc, hd, rfl⟩

/-- **C18.** A special value rendered verbatim is read back where it is permitted. -/
theorem C18_special_round_trip (s : Str) (permitted : List Str) (hs : s ≠ []) (hp : s ∈ permitted) :
    extractDocElementSpecial (renderDocElementID { specialID := s }) permitted = .ok { specialID := s } := by
  simp [extractDocElementSpecial, renderDocElementID, hs, hp]

example : extractDocElementID g!"DocumentRef-a:SPDXRef-b" =
    .ok { documentRefID := g!"a", elementRefID := g!"b" } ∧
    extractDocElementID g!"DocumentRef-a" = .err ∧ extractDocElementID g!"SPDXRef-a:b" = .err := by decide

end Verif
