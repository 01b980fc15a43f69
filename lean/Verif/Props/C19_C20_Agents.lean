import Verif.Model.Agents
import Verif.Lemmas.Identifier
import Verif.Lemmas.Str

/-!
# C19, C20: suppliers, originators, creators and annotators in JSON
-/

namespace Verif
open Spec

/-- A kind and a name that JSON can carry: plain text without surrounding white space, and no colon in
the kind. -/
structure JsonAgent (kind name : Str) : Prop where
  plainKind : Plain kind
  plainName : Plain name
  noColon : ':' ∉ kind
  kindTrimmed : trimSpace kind = kind
  nameTrimmed : trimSpace name = name

/-- A supplier or originator that JSON can carry: NOASSERTION without a kind, or a kind and another
name. -/
def JsonParty (kind name : Str) : Prop :=
  (kind = [] ∧ name = g!"NOASSERTION") ∨
  (kind ≠ [] ∧ name ≠ [] ∧ name ≠ g!"NOASSERTION" ∧ JsonAgent kind name)

theorem plain_agent {k n : Str} (hk : Plain k) (hn : Plain n) : Plain (k ++ g!": " ++ n) :=
  plain_append.2 ⟨plain_append.2 ⟨hk, by decide⟩, hn⟩

theorem split_agent {k n : Str} (h : ':' ∉ k) : splitColon (k ++ g!": " ++ n) = some (k, ' ' :: n) := by
  have := cut_single (c := ':') (a := k) (b := ' ' :: n) h
  simpa [splitColon] using this

theorem agent_ne_noassertion (k n : Str) : k ++ g!": " ++ n ≠ g!"NOASSERTION" := by
  intro e
  have : ':' ∈ g!"NOASSERTION" := by rw [← e]; simp
  revert this; decide

/-- **C19.** Encoding a supplier that JSON can carry and decoding it returns it. -/
theorem C19_supplier_round_trip (s : Supplier) (h : JsonParty s.supplierType s.supplier) :
    ∃ data, supplierToJson s = .ok data ∧ supplierOfJson {} data = .ok s := by
  obtain ⟨name, kind⟩ := s
  simp only at h
  rcases h with ⟨rfl, rfl⟩ | ⟨hk, hn, hna, ha⟩
  · exact ⟨_, rfl, by decide⟩
  · have hp := plain_agent ha.plainKind ha.plainName
    refine ⟨quoted (kind ++ g!": " ++ name), ?_, ?_⟩
    · simp only [supplierToJson, hna, if_false, ne_eq, hk, hn, not_false_eq_true, and_self, if_true,
        jsonQuote_plain hp]
    · simp only [supplierOfJson, trimQuotes_quoted hp, agent_ne_noassertion, if_false, split_agent ha.noColon,
        ha.kindTrimmed, trimSpace_pad_left (trim_eq_self_iff.1 ha.nameTrimmed)]

/-- **C19.** Encoding an originator that JSON can carry and decoding it returns it. -/
theorem C19_originator_round_trip (s : Originator) (h : JsonParty s.originatorType s.originator) :
    ∃ data, originatorToJson s = .ok data ∧ originatorOfJson {} data = .ok s := by
  obtain ⟨name, kind⟩ := s
  simp only at h
  rcases h with ⟨rfl, rfl⟩ | ⟨hk, hn, hna, ha⟩
  · exact ⟨_, rfl, by decide⟩
  · have hp := plain_agent ha.plainKind ha.plainName
    have ht : trimLeft isBlankOrTab (' ' :: name) = name := by
      show trimLeft isBlankOrTab name = name
      rw [trimLeft_eq_self_iff]
      rintro c t rfl
      have := (trim_eq_self_iff.1 ha.nameTrimmed).1 c t rfl
      by_cases hc : isBlankOrTab c = true
      · simp [isBlankOrTab] at hc
        rcases hc with rfl | rfl <;> exact absurd this (by decide)
      · simpa using hc
    refine ⟨quoted (kind ++ g!": " ++ name), ?_, ?_⟩
    · simp only [originatorToJson, hna, if_false, ne_eq, hk, hn, not_false_eq_true, and_self, if_true,
        jsonQuote_plain hp]
    · simp only [originatorOfJson, trimQuotes_quoted hp, agent_ne_noassertion, if_false, split_agent ha.noColon, ht]

/-- **C19.** Exactly the suppliers that are not NOASSERTION and lack a kind or a name cannot be
encoded; the same holds of originators. -/
theorem C19_not_encodable (kind name : Str) :
    (supplierToJson ⟨name, kind⟩ = .err ↔ name ≠ g!"NOASSERTION" ∧ (kind = [] ∨ name = [])) ∧
    (originatorToJson ⟨name, kind⟩ = .err ↔ name ≠ g!"NOASSERTION" ∧ (kind = [] ∨ name = [])) := by
  unfold supplierToJson originatorToJson
  by_cases h1 : name = g!"NOASSERTION"
  · simp [h1]
  · by_cases h2 : kind = [] <;> by_cases h3 : name = [] <;> simp [h1, h2, h3]

theorem splitColon_eq {s a b : Str} : splitColon s = some (a, b) ↔ s = a ++ ':' :: b ∧ ':' ∉ a := cut_single_eq

theorem splitColon_none {s : Str} : splitColon s = none ↔ ':' ∉ s := by
  constructor
  · intro h hm
    have := contains_single.2 hm
    rw [contains, show cut [':'] s = none from h] at this
    cases this
  · exact cut_single_none

/-- **C19.** Decoding a supplier accepts exactly NOASSERTION and texts with a colon; the kind is what
stands before the first colon and the name what follows, both without surrounding white space. -/
theorem C19_supplier_decoding (s : Str) (p : Supplier) (hplain : Plain s) :
    (supplierOfJson {} (quoted s) = .ok p ↔
      (s = g!"NOASSERTION" ∧ p = { supplier := g!"NOASSERTION" }) ∨
      ∃ a b, s = a ++ ':' :: b ∧ ':' ∉ a ∧ p = { supplierType := trimSpace a, supplier := trimSpace b }) ∧
    supplierOfJson {} (quoted s) ≠ .panic := by
  unfold supplierOfJson
  rw [trimQuotes_quoted hplain]
  simp only
  by_cases hs : s = g!"NOASSERTION"
  · subst hs
    simp only [if_true]
    refine ⟨⟨fun h => .inl ⟨trivial, by simpa using h.symm⟩, ?_⟩, by simp⟩
    rintro (⟨-, rfl⟩ | ⟨a, b, h, -, -⟩)
    · rfl
    · have : ':' ∈ g!"NOASSERTION" := by rw [h]; simp
      exact absurd this (by decide)
  · simp only [hs, if_false, false_and, false_or]
    cases hc : splitColon s with
    | none =>
      have := splitColon_none.1 hc
      refine ⟨⟨by simp, ?_⟩, by simp⟩
      rintro ⟨a, b, rfl, -, -⟩
      simp at this
    | some x =>
      obtain ⟨a, b⟩ := x
      obtain ⟨h1, h2⟩ := splitColon_eq.1 hc
      refine ⟨⟨fun h => ⟨a, b, h1, h2, by simpa using h.symm⟩, ?_⟩, by simp⟩
      rintro ⟨a', b', h3, h4, rfl⟩
      have := splitColon_eq.2 ⟨h3, h4⟩
      rw [hc] at this
      simp at this
      obtain ⟨rfl, rfl⟩ := this
      rfl

/-- **C19.** Decoding an originator accepts the same texts; the kind is exactly what stands before the
first colon, and of the name only leading spaces and tabs are removed. -/
theorem C19_originator_decoding (s : Str) (p : Originator) (hplain : Plain s) :
    (originatorOfJson {} (quoted s) = .ok p ↔
      (s = g!"NOASSERTION" ∧ p = { originator := g!"NOASSERTION" }) ∨
      ∃ a b, s = a ++ ':' :: b ∧ ':' ∉ a ∧
        p = { originatorType := a, originator := b.dropWhile fun c => c = ' ' ∨ c = '\t' }) ∧
    originatorOfJson {} (quoted s) ≠ .panic := by
  have hd : ∀ b : Str, trimLeft isBlankOrTab b = b.dropWhile fun c => c = ' ' ∨ c = '\t' := by
    intro b; unfold trimLeft; congr 1; funext c; simp [isBlankOrTab]
  unfold originatorOfJson
  rw [trimQuotes_quoted hplain]
  simp only
  by_cases hs : s = g!"NOASSERTION"
  · subst hs
    simp only [if_true]
    refine ⟨⟨fun h => .inl ⟨trivial, by simpa using h.symm⟩, ?_⟩, by simp⟩
    rintro (⟨-, rfl⟩ | ⟨a, b, h, -, -⟩)
    · rfl
    · have : ':' ∈ g!"NOASSERTION" := by rw [h]; simp
      exact absurd this (by decide)
  · simp only [hs, if_false, false_and, false_or]
    cases hc : splitColon s with
    | none =>
      have := splitColon_none.1 hc
      refine ⟨⟨by simp, ?_⟩, by simp⟩
      rintro ⟨a, b, rfl, -, -⟩
      simp at this
    | some x =>
      obtain ⟨a, b⟩ := x
      obtain ⟨h1, h2⟩ := splitColon_eq.1 hc
      refine ⟨⟨fun h => ⟨a, b, h1, h2, by simp only [hd] at h; simpa using h.symm⟩, ?_⟩, by simp⟩
      rintro ⟨a', b', h3, h4, rfl⟩
      have := splitColon_eq.2 ⟨h3, h4⟩
      rw [hc] at this
      simp at this
      obtain ⟨rfl, rfl⟩ := this
      simp only [hd]

example : JsonParty g!"Organization" g!"ACME: Ltd. (a@b)" ∧ JsonParty [] g!"NOASSERTION" :=
  ⟨.inr ⟨by decide, by decide, by decide, by decide, by decide, by decide, by decide, by decide⟩, .inl ⟨rfl, rfl⟩⟩

/-- **C19, where it fails.** A supplier called NOASSERTION loses its kind. -/
theorem C19_noassertion_kind_false :
    ∃ data, supplierToJson ⟨g!"NOASSERTION", g!"Person"⟩ = .ok data ∧
      supplierOfJson {} data = .ok ⟨g!"NOASSERTION", []⟩ := ⟨_, rfl, by decide⟩

/-- **C19, where it fails.** Suppliers and originators are not decoded alike: white space around the
kind and after the name is removed from one and kept in the other. -/
theorem C19_not_alike_false :
    supplierOfJson {} g!"\"Person : Joe \"" = .ok ⟨g!"Joe", g!"Person"⟩ ∧
    originatorOfJson {} g!"\"Person : Joe \"" = .ok ⟨g!"Joe ", g!"Person "⟩ := by decide

/-- **C19, where it fails.** A quote in a name is not undone: the decoder does not read JSON escapes. -/
theorem C19_quote_false :
    ∃ data, supplierToJson ⟨g!"Joe \"J\" X", g!"Person"⟩ = .ok data ∧
      supplierOfJson {} data = .ok ⟨g!"Joe \\\"J\\\" X", g!"Person"⟩ := ⟨_, rfl, by decide⟩

/-- **C20.** Encoding a creator with a name and decoding it returns it. -/
theorem C20_creator_round_trip (c : Creator) (hne : c.creator ≠ []) (h : JsonAgent c.creatorType c.creator) :
    creatorOfJson (creatorToJson c) = .ok c := by
  obtain ⟨name, kind⟩ := c
  simp only at h hne
  have hp := plain_agent h.plainKind h.plainName
  simp only [creatorToJson, creatorOfJson, ne_eq, hne, not_false_eq_true, if_true, jsonQuote_plain hp,
    trimQuotes_quoted hp, split_agent h.noColon, h.kindTrimmed,
    trimSpace_pad_left (trim_eq_self_iff.1 h.nameTrimmed)]

/-- **C20.** Encoding an annotator with a name and decoding it returns it. -/
theorem C20_annotator_round_trip (c : Annotator) (hne : c.annotator ≠ [])
    (h : JsonAgent c.annotatorType c.annotator) : annotatorOfJson (annotatorToJson c) = .ok c := by
  obtain ⟨name, kind⟩ := c
  simp only at h hne
  have hp := plain_agent h.plainKind h.plainName
  simp only [annotatorToJson, annotatorOfJson, ne_eq, hne, not_false_eq_true, if_true, jsonQuote_plain hp,
    trimQuotes_quoted hp, split_agent h.noColon, h.kindTrimmed,
    trimSpace_pad_left (trim_eq_self_iff.1 h.nameTrimmed)]

/-- **C20.** Decoding accepts exactly the texts with a colon: the kind is what stands before the first
one, the name what follows, both without surrounding white space. -/
theorem C20_decoding (s kind name : Str) (hplain : Plain s) :
    (creatorOfJson (quoted s) = .ok ⟨name, kind⟩ ↔
      ∃ a b, s = a ++ ':' :: b ∧ ':' ∉ a ∧ kind = trimSpace a ∧ name = trimSpace b) ∧
    (annotatorOfJson (quoted s) = .ok ⟨name, kind⟩ ↔
      ∃ a b, s = a ++ ':' :: b ∧ ':' ∉ a ∧ kind = trimSpace a ∧ name = trimSpace b) := by
  unfold creatorOfJson annotatorOfJson
  rw [trimQuotes_quoted hplain]
  cases hc : splitColon s with
  | none =>
    have := splitColon_none.1 hc
    simp only [reduceCtorEq, false_iff, not_exists, and_self]
    rintro a b ⟨rfl, -⟩
    simp at this
  | some x =>
    obtain ⟨a, b⟩ := x
    obtain ⟨h1, h2⟩ := splitColon_eq.1 hc
    have hu : ∀ a' b', s = a' ++ ':' :: b' → ':' ∉ a' → a' = a ∧ b' = b := by
      intro a' b' h3 h4
      have := splitColon_eq.2 ⟨h3, h4⟩
      rw [hc] at this
      simp at this
      exact ⟨this.1.symm, this.2.symm⟩
    constructor
    all_goals
      constructor
      · intro h
        simp at h
        exact ⟨a, b, h1, h2, h.2.symm, h.1.symm⟩
      · rintro ⟨a', b', h3, h4, rfl, rfl⟩
        obtain ⟨rfl, rfl⟩ := hu a' b' h3 h4
        rfl

/-- **C20.** Decoding a text without a colon is an error. -/
theorem C20_no_colon (s : Str) (hplain : Plain s) (h : ':' ∉ s) :
    creatorOfJson (quoted s) = .err ∧ annotatorOfJson (quoted s) = .err := by
  simp [creatorOfJson, annotatorOfJson, trimQuotes_quoted hplain, splitColon_none.2 h]

/-- **C20.** Without a name nothing is encoded: the result is empty, which is no JSON value. -/
theorem C20_no_name (kind name : Str) :
    (creatorToJson ⟨name, kind⟩ = [] ↔ name = []) ∧ (annotatorToJson ⟨name, kind⟩ = [] ↔ name = []) := by
  by_cases h : name = [] <;> simp [creatorToJson, annotatorToJson, h, jsonQuote]

example : JsonAgent g!"Tool" g!"tools-golang: 0.5" := ⟨by decide, by decide, by decide, by decide, by decide⟩
example : JsonAgent [] g!"x" := ⟨by decide, by decide, by decide, by decide, by decide⟩

end Verif
