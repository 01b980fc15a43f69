import Verif.Lemmas.ParsedDoc
import Verif.Lemmas.TVRead

/-!
# C05–C10: what the tag-value parser accepts and produces
-/

namespace Verif
open Spec

/-! ## C05 -/

/-- **C05.** No list of pairs makes a parser panic. -/
theorem C05_parse_never_panics (v : Version) (tvs : List TVPair) : parseTagValues v tvs ≠ .panic := by
  rcases parsed_cases v tvs with h | ⟨-, h⟩ | ⟨d, h, -⟩ <;> simp [h]

/-- **C05.** Nor does any text, read and then parsed. -/
theorem C05_read_and_parse_never_panics (v : Version) (text : Str) :
    (readTagValues text >>= parseTagValues v) ≠ .panic := by
  cases h : readTagValues text with
  | ok tvs => exact C05_parse_never_panics v tvs
  | err => simp
  | panic =>
    exfalso
    unfold readTagValues at h
    cases hs : scanLines text with
    | ok ls =>
      rw [hs] at h
      simp only [Res.bind_ok, readTagValueLines] at h
      cases hr : readLines {} ls with
      | ok r =>
        rw [hr] at h
        simp only [Res.bind_ok, TVReader.finalize] at h
        split at h <;> simp at h
      | err => simp [hr] at h
      | panic => exact readLines_ne_panic _ _ hr
    | err => simp [hs] at h
    | panic => unfold scanLines at hs; simp only at hs; split at hs <;> simp at hs

theorem parsePair_doc_some {v : Version} {s s' : Parser} {p : TVPair} (hi : Inv v s) (h : parsePair v s p = .ok s') :
    ∃ d, s'.doc = some d := by
  have := safe_pair (p := p) hi
  rw [h] at this
  obtain ⟨d, hd, -⟩ := this.1.doc
  exact ⟨d, hd⟩

/-- **C05.** The parser returns no document at all (`nil, nil`) only for the empty list. -/
theorem C05_no_document_iff_empty (v : Version) (tvs : List TVPair) :
    parseTagValues v tvs = .ok none ↔ tvs = [] := by
  constructor
  · intro h
    rcases parsed_cases v tvs with h' | ⟨h', -⟩ | ⟨d, h', -⟩
    · simp [h'] at h
    · rcases List.eq_nil_or_concat tvs with rfl | ⟨init, p, rfl⟩
      · rfl
      · exfalso
        rw [List.concat_eq_append, parsePairs_append, bind_eq_ok] at h'
        obtain ⟨s, hs, h2⟩ := h'
        have hinv := (parsePairs_inv (ps := init) (inv_init v)).2 s hs
        simp only [parsePairs] at h2
        cases hp : parsePair v s p with
        | ok s2 =>
          obtain ⟨d, hd⟩ := parsePair_doc_some hinv hp
          simp only [hp, Res.ok.injEq] at h2
          rw [h2] at hd; simp at hd
        | err => simp [hp] at h2
        | panic => simp [hp] at h2
    · simp [h'] at h
  · rintro rfl
    simp [parseTagValues, parsePairs, Parser.fileLacksId, Parser.pkgLacksId]

theorem parsed_good {v : Version} {tvs : List TVPair} {d : Doc} (h : parseTagValues v tvs = .ok (some d)) :
    DocGood v d := by
  rcases parsed_cases v tvs with h' | ⟨-, h'⟩ | ⟨d', h', hg⟩
  · simp [h'] at h
  · simp [h'] at h
  · rw [h'] at h; simp at h; subst h; exact hg

theorem allFiles_good {v : Version} {d : Doc} (h : DocGood v d) : ∀ f ∈ allFiles d, FileGood v f := by
  intro f hf
  unfold allFiles at hf
  rcases List.mem_append.1 hf with hf | hf
  · exact h.files f hf
  · obtain ⟨p, hp, hf⟩ := List.mem_flatMap.1 hf
    exact (h.packages p hp).files f hf

/-! ## C06–C09 -/

/-- **C06.** Packages and files of a parsed document have identifiers, snippets are stored under
theirs. -/
theorem C06_identifiers_present (v : Version) (tvs : List TVPair) (d : Doc)
    (h : parseTagValues v tvs = .ok (some d)) :
    (∀ p ∈ d.packages, IsId p.spdxId) ∧ (∀ f ∈ allFiles d, IsId f.spdxId) ∧
    (∀ f ∈ allFiles d, ∀ k x, (k, x) ∈ f.snippets → x.spdxId = k ∧ IsId k) := by
  have hg := parsed_good h
  exact ⟨fun p hp => (hg.packages p hp).id, fun f hf => (allFiles_good hg f hf).id,
    fun f hf => (allFiles_good hg f hf).snippets⟩

theorem mem_algorithmsOf {v : Version} {a : Str} (h : a ∈ knownAlgorithms v) : a ∈ algorithmsOf v := by
  have : ∀ a ∈ knownAlgorithms v, a ∈ algorithmsOf v := by cases v <;> decide +kernel
  exact this a h

theorem mem_knownAlgorithms {v : Version} {a : Str} (h : a ∈ algorithmsOf v) : a ∈ knownAlgorithms v := by
  have : ∀ a ∈ algorithmsOf v, a ∈ knownAlgorithms v := by cases v <;> decide +kernel
  exact this a h

/-- **C07.** Checksums of packages and files use an algorithm of the version. -/
theorem C07_checksum_algorithms (v : Version) (tvs : List TVPair) (d : Doc)
    (h : parseTagValues v tvs = .ok (some d)) :
    (∀ p ∈ d.packages, ∀ c ∈ p.checksums, c.algorithm ∈ algorithmsOf v) ∧
    (∀ f ∈ allFiles d, ∀ c ∈ f.checksums, c.algorithm ∈ algorithmsOf v) := by
  have hg := parsed_good h
  exact ⟨fun p hp c hc => mem_algorithmsOf ((hg.packages p hp).checksums c hc),
    fun f hf c hc => mem_algorithmsOf ((allFiles_good hg f hf).checksums c hc)⟩

theorem extractSubs_eq_ok {x k w : Str} :
    extractSubs g!":" x = .ok (k, w) ↔ ∃ a b, cut g!":" x = some (a, b) ∧ k = trimSpace a ∧ w = trimSpace b := by
  unfold extractSubs
  cases cut g!":" x with
  | none => simp
  | some y =>
    obtain ⟨a, b⟩ := y
    simp only [Res.ok.injEq, Prod.mk.injEq, Option.some.injEq]
    constructor
    · rintro ⟨rfl, rfl⟩; exact ⟨a, b, ⟨rfl, rfl⟩, rfl, rfl⟩
    · rintro ⟨a', b', ⟨rfl, rfl⟩, rfl, rfl⟩; exact ⟨rfl, rfl⟩

theorem checksum_pair {v : Version} {s s' : Parser} {p : TVPair} (h : parsePair v s p = .ok s')
    (ht : Tag.ofStr p.tag = .packageChecksum ∨ Tag.ofStr p.tag = .fileChecksum) :
    ∃ c, parseChecksum v p.value = .ok c := by
  unfold parsePair at h
  rcases ht with ht | ht <;> rw [ht] at h <;> simp only at h <;> split at h
  all_goals first
    | (simp only [parseFromPackage] at h; rw [bind_eq_ok] at h; obtain ⟨c, hc, -⟩ := h; exact ⟨c, hc⟩)
    | (simp only [parseFromFile] at h; rw [bind_eq_ok] at h; obtain ⟨c, hc, -⟩ := h; exact ⟨c, hc⟩)
    | (exfalso
       simp [parseFromStart, parseStartTags, parseFromCreationInfo, parseFromPackage, parseFromFile,
         parseFromSnippet, parseFromOtherLicense, parseFromReview, parseShared] at h
       try (split at h <;> simp at h))

/-- **C07.** A checksum tag whose text before the first colon is not an algorithm of the version makes
the parse fail, wherever it stands. -/
theorem C07_unknown_algorithm_rejected (v : Version) (tvs : List TVPair) (p : TVPair) (hp : p ∈ tvs)
    (ht : p.tag = g!"PackageChecksum" ∨ p.tag = g!"FileChecksum")
    (ha : ∀ a b, ':' ∉ a → p.value = a ++ g!":" ++ b → trimSpace a ∉ algorithmsOf v) :
    parseTagValues v tvs = .err := by
  rcases parsed_cases v tvs with h | ⟨h, -⟩ | ⟨d, h, -⟩
  · exact h
  all_goals exfalso
  · -- no pairs at all
    have : tvs = [] := (C05_no_document_iff_empty v tvs).1 (by
      unfold parseTagValues; simp [h, Parser.fileLacksId, Parser.pkgLacksId])
    subst this; simp at hp
  · unfold parseTagValues at h
    rw [bind_eq_ok] at h
    obtain ⟨s, hs, -⟩ := h
    obtain ⟨a, b, hab⟩ := parsePairs_mem hs hp
    have ht' : Tag.ofStr p.tag = .packageChecksum ∨ Tag.ofStr p.tag = .fileChecksum := by
      rcases ht with ht | ht <;> rw [ht] <;> decide +kernel
    obtain ⟨c, hc⟩ := checksum_pair hab ht'
    have hk := parseChecksum_ok hc
    unfold parseChecksum at hc
    rw [bind_eq_ok] at hc
    obtain ⟨⟨k, w⟩, hkw, hc⟩ := hc
    obtain ⟨x, y, hxy, rfl, rfl⟩ := extractSubs_eq_ok.1 hkw
    simp only at hc
    split at hc
    · rename_i hin
      rw [cut_single_eq] at hxy
      refine ha x y hxy.2 (by rw [hxy.1]; simp) (mem_algorithmsOf ?_)
      simpa using hin
    · simp at hc

/-- **C08.** Agents of a parsed document are of a known kind. -/
theorem C08_agent_kinds (v : Version) (tvs : List TVPair) (d : Doc)
    (h : parseTagValues v tvs = .ok (some d)) :
    (∀ c, d.creationInfo = some c → ∀ x ∈ c.creators, x.creatorType ∈ agentKinds) ∧
    (∀ a ∈ d.annotations, a.annotator.annotatorType ∈ agentKinds) ∧
    (∀ r ∈ d.reviews, r.reviewerType ∈ agentKinds) ∧
    (∀ p ∈ d.packages, ∀ x, p.supplier = some x →
      x = { supplier := g!"NOASSERTION" } ∨ x.supplierType ∈ partyKinds) ∧
    (∀ p ∈ d.packages, ∀ x, p.originator = some x →
      x = { originator := g!"NOASSERTION" } ∨ x.originatorType ∈ partyKinds) := by
  have hg := parsed_good h
  have h3 : ∀ k, KindOK3 k → k ∈ agentKinds := by
    intro k hk; simpa [KindOK3, agentKinds] using hk
  have h2 : ∀ k, KindOK2 k → k ∈ partyKinds := by
    intro k hk; simpa [KindOK2, partyKinds] using hk
  refine ⟨fun c hc x hx => h3 _ (hg.creators c hc x hx), fun a ha => h3 _ (hg.annotations a ha),
    fun r hr => h3 _ (hg.reviews r hr), ?_, ?_⟩
  · intro p hp x hx
    rcases (hg.packages p hp).supplier x hx with h | h
    · exact Or.inl h
    · exact Or.inr (h2 _ h)
  · intro p hp x hx
    rcases (hg.packages p hp).originator x hx with h | h
    · exact Or.inl h
    · exact Or.inr (h2 _ h)

/-- **C09.** Ends of parsed relationships are well-formed. -/
theorem C09_relationship_ends (v : Version) (tvs : List TVPair) (d : Doc)
    (h : parseTagValues v tvs = .ok (some d)) :
    ∀ r ∈ d.relationships, ElementRef r.refA ∧ (ElementRef r.refB ∨ (v ≠ .v21 ∧ SpecialRef r.refB)) := by
  have hg := parsed_good h
  have key : ∀ x, RefOK x → ElementRef x := fun x hx => ⟨⟨hx.2.1, hx.2.2.1⟩, hx.2.2.2, hx.1⟩
  intro r hr
  have hr' := hg.relationships r hr
  refine ⟨key _ hr'.a, ?_⟩
  rcases hr'.b with hb | ⟨hv, h1, h2, h3⟩
  · exact Or.inl (key _ hb)
  · refine Or.inr ⟨hv, ?_⟩
    cases hb : r.refB
    rw [hb] at h1 h2 h3
    simp only at h1 h2 h3
    subst h1 h2
    rcases h3 with rfl | rfl
    · exact Or.inl rfl
    · exact Or.inr rfl

/-! ## C10 -/

/-- **C10.** After an other-licensing or review section has begun, no package, file or snippet section
begins. -/
theorem C10_sections_do_not_reopen (v : Version) (pre post : List TVPair) (p q : TVPair) (r : Option Doc)
    (h : parseTagValues v (pre ++ p :: post) = .ok r) (hp : p.tag ∈ opensTail) (hq : q ∈ post) :
    q.tag ∉ opensElement := by
  unfold parseTagValues at h
  rw [bind_eq_ok] at h
  obtain ⟨s, hs, -⟩ := h
  rw [parsePairs_append, bind_eq_ok] at hs
  obtain ⟨s1, -, hs⟩ := hs
  simp only [parsePairs] at hs
  cases h1 : parsePair v s1 p with
  | err => simp [h1] at hs
  | panic => simp [h1] at hs
  | ok s2 =>
    simp only [h1] at hs
    exact tail_pairs (opensTail_pair hp h1) hs q hq

/-- **C10.** A tag that is not one of the version makes the parse fail, whatever surrounds it. -/
theorem C10_unknown_tag_rejected (v : Version) (pre post : List TVPair) (p : TVPair)
    (hp : p.tag ∉ tagsOf v) : parseTagValues v (pre ++ p :: post) = .err := by
  rcases parsed_cases v (pre ++ p :: post) with h | ⟨-, h⟩ | ⟨d, h, -⟩
  · exact h
  all_goals
    exfalso
    unfold parseTagValues at h
    rw [bind_eq_ok] at h
    obtain ⟨s, hs, -⟩ := h
    obtain ⟨a, b, hab⟩ := parsePairs_mem hs (p := p) (by simp)
    exact hp (mem_tagsOf (unknown_pair hab))

/-! ## Cases that meet the hypotheses -/

/-- A small document with every kind of section. -/
def parserSample : List TVPair := [
  ⟨g!"SPDXVersion", g!"SPDX-2.3"⟩, ⟨g!"SPDXID", g!"SPDXRef-DOCUMENT"⟩, ⟨g!"Creator", g!"Tool: t"⟩,
  ⟨g!"FileName", g!"loose"⟩, ⟨g!"SPDXID", g!"SPDXRef-F0"⟩,
  ⟨g!"PackageName", g!"p"⟩, ⟨g!"SPDXID", g!"SPDXRef-P"⟩, ⟨g!"PackageSupplier", g!"Organization: o"⟩,
  ⟨g!"PackageChecksum", g!"BLAKE3: 00"⟩,
  ⟨g!"FileName", g!"a"⟩, ⟨g!"SPDXID", g!"SPDXRef-F1"⟩, ⟨g!"FileChecksum", g!"SHA1: 11"⟩,
  ⟨g!"SnippetSPDXID", g!"SPDXRef-S"⟩, ⟨g!"SnippetByteRange", g!"1:2"⟩,
  ⟨g!"Relationship", g!"SPDXRef-P CONTAINS NONE"⟩,
  ⟨g!"Annotator", g!"Person: x"⟩,
  ⟨g!"LicenseID", g!"LicenseRef-1"⟩, ⟨g!"Reviewer", g!"Person: r"⟩ ]

/-- The sample parses, and yields objects of every kind the properties C06–C09 speak about. -/
theorem parserSample_parses : ∃ d, parseTagValues .v23 parserSample = .ok (some d) ∧
    d.packages.map (fun p => (p.spdxId, p.supplier, p.checksums)) =
      [(g!"P", some ⟨g!"o", g!"Organization"⟩, [⟨g!"BLAKE3", g!"00"⟩])] ∧
    (allFiles d).map (fun f => (f.spdxId, f.checksums.length, f.snippets.length)) =
      [(g!"F0", 0, 0), (g!"F1", 1, 1)] ∧
    d.relationships = [⟨⟨[], g!"P", []⟩, ⟨[], [], g!"NONE"⟩, g!"CONTAINS", []⟩] ∧
    d.annotations.length = 1 ∧ d.reviews = [{ reviewer := g!"r", reviewerType := g!"Person" }] := by
  have h : (match parseTagValues .v23 parserSample with
    | .ok (some d) => decide (
        d.packages.map (fun p => (p.spdxId, p.supplier, p.checksums)) =
          [(g!"P", some ⟨g!"o", g!"Organization"⟩, [⟨g!"BLAKE3", g!"00"⟩])] ∧
        (allFiles d).map (fun f => (f.spdxId, f.checksums.length, f.snippets.length)) =
          [(g!"F0", 0, 0), (g!"F1", 1, 1)] ∧
        d.relationships = [⟨⟨[], g!"P", []⟩, ⟨[], [], g!"NONE"⟩, g!"CONTAINS", []⟩] ∧
        d.annotations.length = 1 ∧ d.reviews = [{ reviewer := g!"r", reviewerType := g!"Person" }])
    | _ => false) = true := by decide +kernel
  split at h
  · rename_i d hd; exact ⟨d, hd, of_decide_eq_true h⟩
  · simp at h

/-- The hypotheses of C10 are met by the sample: it has a `LicenseID` followed by a `Reviewer`. -/
example : ∃ pre post p q, parserSample = pre ++ p :: post ∧ p.tag ∈ opensTail ∧ q ∈ post :=
  ⟨parserSample.take 16, parserSample.drop 17, ⟨g!"LicenseID", g!"LicenseRef-1"⟩, ⟨g!"Reviewer", g!"Person: r"⟩,
    by decide +kernel⟩

/-- `ReleaseDate` is a tag of 2.3 only, so in 2.2 it is unknown. -/
example : g!"ReleaseDate" ∈ tagsOf .v23 ∧ g!"ReleaseDate" ∉ tagsOf .v22 := by decide +kernel

/-- An algorithm of 2.3 that the 2.2 parser rejects meets the hypothesis of
`C07_unknown_algorithm_rejected`. -/
example : ∀ a b : Str, ':' ∉ a → g!"BLAKE3: 00" = a ++ g!":" ++ b → trimSpace a ∉ algorithmsOf .v22 := by
  intro a b ha h
  have hc : cut g!":" (a ++ g!":" ++ b) = some (a, b) := by
    rw [cut_single_eq]; exact ⟨by simp, ha⟩
  rw [← h] at hc
  have : cut g!":" g!"BLAKE3: 00" = some (g!"BLAKE3", g!" 00") := by decide
  rw [this] at hc
  simp only [Option.some.injEq, Prod.mk.injEq] at hc
  rw [← hc.1]
  decide +kernel

/-- **C07, a limit.** The checksum of an external document reference is not checked: any word is
accepted as its algorithm. -/
theorem C07_externalDocumentRef_unchecked : ∃ d, parseTagValues .v23
    [⟨g!"ExternalDocumentRef", g!"DocumentRef-d http://x FOO: 00"⟩] = .ok (some d) ∧
    d.externalDocumentRefs.map (fun e => e.checksum.algorithm) = [g!"FOO"] ∧ g!"FOO" ∉ algorithmsOf .v23 :=
  ⟨{ externalDocumentRefs := [⟨g!"d", g!"http://x", ⟨g!"FOO", g!"00"⟩⟩] }, by decide +kernel⟩

end Verif
