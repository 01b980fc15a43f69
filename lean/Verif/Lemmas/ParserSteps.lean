import Verif.Lemmas.ParserInv
import Verif.Spec.Parsed

set_option linter.unusedSimpArgs false

/-!
# What single pairs do in the parser
-/

namespace Verif

theorem modDoc_ok {s s' : Parser} {f : HDoc → HDoc} (h : s.modDoc f = .ok s') :
    ∃ d, s.doc = some d ∧ s' = { s with doc := some (f d) } := by
  unfold Parser.modDoc at h
  split at h
  · simp at h
  · rename_i d hd; simp at h; exact ⟨d, hd, h.symm⟩

theorem modPkg_ok {s s' : Parser} {f : Package Nat → Package Nat} (h : s.modPkg f = .ok s') :
    ∃ i, s.pkg = some i ∧ s' = { s with pkgs := s.pkgs.modify i f } := by
  unfold Parser.modPkg at h
  split at h
  · simp at h
  · rename_i d hd; simp at h; exact ⟨d, hd, by rw [← h]⟩

theorem modFile_ok {s s' : Parser} {f : File Nat → File Nat} (h : s.modFile f = .ok s') :
    ∃ i, s.file = some i ∧ s' = { s with files := s.files.modify i f } := by
  unfold Parser.modFile at h
  split at h
  · simp at h
  · rename_i d hd; simp at h; exact ⟨d, hd, by rw [← h]⟩

theorem modSnip_ok {s s' : Parser} {f : Snippet → Snippet} (h : s.modSnip f = .ok s') :
    ∃ i, s.snippet = some i ∧ s' = { s with snips := s.snips.modify i f } := by
  unfold Parser.modSnip at h
  split at h
  · simp at h
  · rename_i d hd; simp at h; exact ⟨d, hd, by rw [← h]⟩

theorem bind_eq_ok {α β : Type} {r : Res α} {f : α → Res β} {b : β} :
    (r >>= f) = .ok b ↔ ∃ a, r = .ok a ∧ f a = .ok b := by
  cases r <;> simp

/-- A successful run visits every pair in some state. -/
theorem parsePairs_append {v : Version} {s : Parser} {xs ys : List TVPair} :
    parsePairs v s (xs ++ ys) = (parsePairs v s xs >>= fun s' => parsePairs v s' ys) := by
  induction xs generalizing s with
  | nil => simp [parsePairs]
  | cons p xs ih =>
    simp only [List.cons_append, parsePairs]
    cases parsePair v s p with
    | ok s1 => exact ih
    | err => simp
    | panic => simp

theorem parsePairs_mem {v : Version} {s s' : Parser} {ps : List TVPair} (h : parsePairs v s ps = .ok s')
    {p : TVPair} (hp : p ∈ ps) : ∃ a b, parsePair v a p = .ok b := by
  obtain ⟨xs, ys, rfl⟩ := List.append_of_mem hp
  rw [parsePairs_append, bind_eq_ok] at h
  obtain ⟨s1, -, h⟩ := h
  simp only [parsePairs] at h
  cases h1 : parsePair v s1 p with
  | ok s2 => exact ⟨_, _, h1⟩
  | err => simp [h1] at h
  | panic => simp [h1] at h

/-- The tags a parser of the version has a case for. -/
def tagKnown (v : Version) : Tag → Bool
  | .other => false
  | .primaryPackagePurpose | .releaseDate | .builtDate | .validUntilDate => v == .v23
  | .packageAttributionText | .fileAttributionText | .snippetAttributionText => v != .v21
  | _ => true

theorem unknown_review {v s tag value s'} (h : parseFromReview v s tag value = .ok s') : tagKnown v tag = true := by
  cases tag <;> first | rfl | simp [parseFromReview, parseShared] at h

theorem unknown_otherLicense {v s tag value s'} (h : parseFromOtherLicense v s tag value = .ok s') :
    tagKnown v tag = true := by
  cases tag <;> first | rfl | simp [parseFromOtherLicense, parseShared] at h

theorem unknown_snippet {v s tag value s'} (h : parseFromSnippet v s tag value = .ok s') :
    tagKnown v tag = true := by
  cases tag <;> first | rfl | (cases v <;> first | rfl | simp [parseFromSnippet, parseShared] at h)

theorem unknown_file {v s tag value s'} (h : parseFromFile v s tag value = .ok s') :
    tagKnown v tag = true := by
  cases tag <;> first | rfl | (cases v <;> first | rfl | simp [parseFromFile, parseShared] at h)

theorem unknown_package {v s tag value s'} (h : parseFromPackage v s tag value = .ok s') :
    tagKnown v tag = true := by
  cases tag <;> first | rfl | (cases v <;> first | rfl | simp [parseFromPackage, parseShared] at h)

theorem unknown_creationInfo {v s tag value s'} (h : parseFromCreationInfo v s tag value = .ok s') :
    tagKnown v tag = true := by
  unfold parseFromCreationInfo at h
  split at h
  · simp at h
  · cases tag <;> first | rfl | simp [parseShared] at h

theorem unknown_start {v s tag value s'} (h : parseFromStart v s tag value = .ok s') :
    tagKnown v tag = true := by
  unfold parseFromStart at h
  simp only at h
  split at h
  · rename_i r hr
    cases tag <;> first | rfl | simp [parseStartTags] at hr
  · exact unknown_creationInfo h

theorem unknown_pair {v : Version} {s s' : Parser} {p : TVPair} (h : parsePair v s p = .ok s') :
    tagKnown v (Tag.ofStr p.tag) = true := by
  unfold parsePair at h
  simp only at h
  split at h
  · exact unknown_start h
  · exact unknown_creationInfo h
  · exact unknown_package h
  · exact unknown_file h
  · exact unknown_snippet h
  · exact unknown_otherLicense h
  · exact unknown_review h

theorem mem_of_mapGet {α : Type} {k : Str} {x : α} {m : List (Str × α)} (h : mapGet k m = some x) : (k, x) ∈ m := by
  induction m with
  | nil => simp [mapGet] at h
  | cons p m ih =>
    obtain ⟨a, b⟩ := p
    simp only [mapGet] at h
    split at h
    · rename_i hk; simp at h; subst hk h; simp
    · exact List.mem_cons_of_mem _ (ih h)

theorem mem_tagsOf {v : Version} {t : Str} (h : tagKnown v (Tag.ofStr t) = true) : t ∈ Spec.tagsOf v := by
  unfold Tag.ofStr at h
  split at h
  · rename_i x hx
    have hm := mem_of_mapGet hx
    have key : ∀ e ∈ tagTable, tagKnown v e.2 = true → e.1 ∈ Spec.tagsOf v := by
      cases v <;> decide +kernel
    exact key _ hm h
  · simp [tagKnown] at h

/-- Once in an other-licensing or review section, the parser stays there and accepts no element
section. -/
def inTail (s : Parser) : Prop := s.st = .otherLicense ∨ s.st = .review

theorem st_modDoc {s s' : Parser} {f : HDoc → HDoc} (h : s.modDoc f = .ok s') : s'.st = s.st := by
  obtain ⟨d, _, rfl⟩ := modDoc_ok h; rfl

theorem st_modAnn {s s' : Parser} {f : Annotation → Annotation} (h : modAnn s f = .ok s') : s'.st = s.st := by
  unfold modAnn at h
  split at h
  · simp at h
  · exact st_modDoc h

theorem st_shared {v s tag value s'} (h : parseShared v s tag value = .ok s') : s'.st = s.st := by
  unfold parseShared at h
  split at h
  · unfold parseForRelationship at h
    simp only at h
    split at h
    · simp at h
    · rw [bind_eq_ok] at h; obtain ⟨r, _, h⟩ := h; simp at h; rw [← h]
  · unfold parseForRelationship at h
    simp only at h
    split at h
    · simp at h
    · exact st_modDoc h
  · unfold parseForAnnotation at h
    simp only at h
    split at h
    · simp at h
    · rw [bind_eq_ok] at h; obtain ⟨r, _, h⟩ := h; simp at h; rw [← h]
  · exact st_modAnn h
  · exact st_modAnn h
  · unfold parseForAnnotation at h
    simp only at h
    split at h
    · simp at h
    · rw [bind_eq_ok] at h; obtain ⟨r, _, h⟩ := h; exact st_modAnn h
  · exact st_modAnn h
  · simp at h

theorem st_review {v s tag value s'} (h : parseFromReview v s tag value = .ok s') : s'.st = s.st := by
  unfold parseFromReview at h
  split at h
  · split at h
    · simp at h
    · rw [bind_eq_ok] at h
      obtain ⟨⟨k, x⟩, _, h⟩ := h
      simp only at h
      split at h
      · simp at h; rw [← h]
      · simp at h
  · unfold modRev at h
    split at h
    · simp at h
    · exact st_modDoc h
  · unfold modRev at h
    split at h
    · simp at h
    · exact st_modDoc h
  · exact st_shared h

theorem st_licenseID {v s value s'} (h : parseFromOtherLicense v s .licenseID value = .ok s') : s'.st = s.st := by
  unfold parseFromOtherLicense at h
  simp only at h
  split at h
  · simp at h
  · simp at h; rw [← h]

theorem st_modLic {s s' : Parser} {f} (h : modLic s f = .ok s') : s'.st = s.st := by
  unfold modLic at h
  split at h
  · simp at h
  · exact st_modDoc h

theorem tail_otherLicense {v s tag value s'} (hst : inTail s) (h : parseFromOtherLicense v s tag value = .ok s') :
    inTail s' := by
  unfold inTail
  cases tag <;> first
    | (rw [st_licenseID h]; exact hst)
    | (simp only [parseFromOtherLicense] at h; rw [st_modLic h]; exact hst)
    | (simp only [parseFromOtherLicense] at h; rw [st_review h]; exact Or.inr rfl)
    | (simp only [parseFromOtherLicense] at h; rw [st_shared h]; exact hst)

theorem tail_pair {v s p s'} (hst : inTail s) (h : parsePair v s p = .ok s') :
    inTail s' ∧ p.tag ∉ Spec.opensElement := by
  have hok : (parseFromOtherLicense v s (Tag.ofStr p.tag) p.value = .ok s') ∨
      (parseFromReview v s (Tag.ofStr p.tag) p.value = .ok s') := by
    unfold parsePair at h
    rcases hst with hst | hst <;> rw [hst] at h <;> simp only at h
    · exact Or.inl h
    · exact Or.inr h
  constructor
  · rcases hok with h | h
    · exact tail_otherLicense hst h
    · unfold inTail; rw [st_review h]; exact hst
  · intro hm
    have : Tag.ofStr p.tag = .packageName ∨ Tag.ofStr p.tag = .fileName ∨ Tag.ofStr p.tag = .snippetSPDXID := by
      simp only [Spec.opensElement, List.mem_cons, List.not_mem_nil, or_false] at hm
      rcases hm with hm | hm | hm <;> rw [hm] <;> decide +kernel
    rcases this with ht | ht | ht <;> rw [ht] at hok <;>
      simp [parseFromOtherLicense, parseFromReview, parseShared] at hok

theorem tail_pairs {v s ps s'} (hst : inTail s) (h : parsePairs v s ps = .ok s') :
    ∀ p ∈ ps, p.tag ∉ Spec.opensElement := by
  induction ps generalizing s with
  | nil => simp
  | cons p ps ih =>
    simp only [parsePairs] at h
    cases h1 : parsePair v s p with
    | err => simp [h1] at h
    | panic => simp [h1] at h
    | ok s1 =>
      simp only [h1] at h
      obtain ⟨ht, hp⟩ := tail_pair hst h1
      intro q hq
      rcases List.mem_cons.1 hq with rfl | hq
      · exact hp
      · exact ih ht h q hq

/-- A pair that opens an other-licensing or review section leads there from anywhere. -/
theorem opensTail_pair {v s p s'} (hp : p.tag ∈ Spec.opensTail) (h : parsePair v s p = .ok s') : inTail s' := by
  have : Tag.ofStr p.tag = .licenseID ∨ Tag.ofStr p.tag = .reviewer := by
    simp only [Spec.opensTail, List.mem_cons, List.not_mem_nil, or_false] at hp
    rcases hp with hp | hp <;> rw [hp] <;> decide +kernel
  unfold parsePair at h
  unfold inTail
  rcases this with ht | ht <;> rw [ht] at h <;> simp only at h
  · left
    split at h <;> try
      simp only [parseFromStart, parseStartTags, parseFromCreationInfo, parseFromPackage, parseFromFile,
        parseFromSnippet] at h
    · split at h
      · simp at h
      · rw [st_licenseID h]
    · split at h
      · simp at h
      · rw [st_licenseID h]
    · rw [st_licenseID h]
    · rw [st_licenseID h]
    · rw [st_licenseID h]
    · rename_i hst; rw [st_licenseID h]; exact hst
    · simp [parseFromReview, parseShared] at h
  · right
    split at h <;> try
      simp only [parseFromStart, parseStartTags, parseFromCreationInfo, parseFromPackage, parseFromFile,
        parseFromSnippet, parseFromOtherLicense] at h
    · split at h
      · simp at h
      · rw [st_review h]
    · split at h
      · simp at h
      · rw [st_review h]
    · rw [st_review h]
    · rw [st_review h]
    · rw [st_review h]
    · rw [st_review h]
    · rename_i hst; rw [st_review h]; exact hst

end Verif
