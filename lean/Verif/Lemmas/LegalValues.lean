import Verif.Lemmas.SectionStep
import Verif.Spec.LegalText

/-!
# The well-formed values are those that are read
-/

namespace Verif
open Spec

theorem err_iff {α : Type} {r : Res α} (h : r ≠ .panic) : r = .err ↔ ¬∃ a, r = .ok a := by
  cases r <;> simp_all

theorem subs_iff {value k x : Str} : extractSubs g!":" value = .ok (k, x) ↔ ColonPair value k x := by
  refine ⟨colonPair_of, ?_⟩
  rintro ⟨a, b, rfl, h, rfl, rfl⟩
  unfold extractSubs
  rw [List.append_assoc]
  rw [show g!":" ++ b = ':' :: b from rfl, cut_single h]

theorem element_legal (value : Str) : extractElementID value = .err ↔ ¬∃ e, IdReads value e := by
  rw [err_iff (extractElementID_ne_panic _)]
  simp only [idReads_iff]

theorem kind_iff (k : Str) : isAgentKind k = true ↔ k ∈ agentKinds := by simp [isAgentKind, agentKinds, or_assoc]

theorem agent_legal (value : Str) :
    (∃ k x, extractSubs g!":" value = .ok (k, x) ∧ isAgentKind k = true) ↔ ∃ k x, AgentText value k x := by
  simp only [subs_iff, kind_iff, AgentText]

theorem annotator_legal (value : Str) : parseAnnotatorValue value = .err ↔ ¬∃ k x, AgentText value k x := by
  rw [err_iff (parseAnnotatorValue_ne_panic _), ← agent_legal]
  refine not_congr ?_
  unfold parseAnnotatorValue
  constructor
  · rintro ⟨a, h⟩
    rw [bind_eq_ok] at h
    obtain ⟨⟨k, x⟩, hx, h⟩ := h
    simp only at h
    split at h
    · rename_i hk; exact ⟨k, x, hx, hk⟩
    · simp at h
  · rintro ⟨k, x, hx, hk⟩
    exact ⟨_, by rw [hx]; simp [hk]; rfl⟩

theorem checksum_legal (v : Version) (value : Str) : parseChecksum v value = .err ↔ ¬∃ c, ChecksumReads v value c := by
  rw [err_iff (parseChecksum_ne_panic _ _)]
  refine not_congr ?_
  constructor
  · rintro ⟨c, h⟩; exact ⟨c, checksumReads_of h⟩
  · rintro ⟨c, h1, h2⟩
    refine ⟨c, ?_⟩
    unfold parseChecksum
    rw [subs_iff.2 h1]
    simp only [Res.bind_ok, known_iff.2 h2, if_true]

theorem party_iff {k : Str} : (k = g!"Person" ∨ k = g!"Organization") ↔ k ∈ partyKinds := by simp [partyKinds]

theorem supplier_legal (value : Str) : parseSupplier value = .err ↔ ¬∃ k x, PartyReads value k x := by
  rw [err_iff (parseSupplier_ne_panic _)]
  refine not_congr ?_
  constructor
  · rintro ⟨c, h⟩; exact ⟨_, _, supplierReads_of h⟩
  · rintro ⟨k, x, ⟨h, -⟩ | ⟨h1, h2, h3⟩⟩
    · exact ⟨_, by unfold parseSupplier; rw [if_pos h]⟩
    · refine ⟨{ supplier := x, supplierType := k }, ?_⟩
      unfold parseSupplier
      rw [if_neg h1, subs_iff.2 h2]
      simp only [Res.bind_ok, if_pos (party_iff.2 h3)]

theorem originator_legal (value : Str) : parseOriginator value = .err ↔ ¬∃ k x, PartyReads value k x := by
  rw [err_iff (parseOriginator_ne_panic _)]
  refine not_congr ?_
  constructor
  · rintro ⟨c, h⟩; exact ⟨_, _, originatorReads_of h⟩
  · rintro ⟨k, x, ⟨h, -⟩ | ⟨h1, h2, h3⟩⟩
    · exact ⟨_, by unfold parseOriginator; rw [if_pos h]⟩
    · refine ⟨{ originator := x, originatorType := k }, ?_⟩
      unfold parseOriginator
      rw [if_neg h1, subs_iff.2 h2]
      simp only [Res.bind_ok, if_pos (party_iff.2 h3)]

theorem externalRef_legal (value : Str) : extractPackageExternalReference value = .err ↔ ¬(wordsOf value).length = 3 := by
  unfold extractPackageExternalReference
  rw [wordsOf_eq]
  split
  · rename_i h; simp [h]
  · rename_i h
    simp only [true_iff]
    intro hl
    rcases hs : spaceItems value with _ | ⟨a, _ | ⟨b, _ | ⟨c, _ | ⟨d, l⟩⟩⟩⟩
    · simp [hs] at hl
    · simp [hs] at hl
    · simp [hs] at hl
    · exact h _ _ _ hs
    · simp [hs] at hl

theorem ref_iff {text : Str} {r : DocElementID} : extractDocElementID text = .ok r ↔ RefReads text r := by
  refine ⟨refReads_of, ?_⟩
  rintro ⟨⟨⟨h1, h2⟩, h3, h4⟩, h5⟩
  refine extractDocElementID_eq_ok.2 ⟨h4, h1, h2, h3, ?_⟩
  rcases h5 with ⟨h5, h6⟩ | ⟨h5, h6⟩
  · rw [h6]; simp [renderDocElementID, h4, h5, spdxRefPrefix]
  · rw [h6]; simp [renderDocElementID, h4, h5, spdxRefPrefix, documentRefPrefix]

theorem ref_legal (value : Str) : extractDocElementID value = .err ↔ ¬∃ r, RefReads value r := by
  rw [err_iff (extractDocElementID_ne_panic _)]
  simp only [ref_iff]

theorem range_legal (p : TVPair) : parseRange p.value = .err ↔ ¬∃ r, RangeReads p r := by
  rw [err_iff (parseRange_ne_panic _)]
  refine not_congr ?_
  constructor
  · rintro ⟨⟨i, j⟩, h⟩
    obtain ⟨a, b, h1, h2, h3⟩ := parseRange_iff.1 h
    exact ⟨_, a, b, i, j, subs_iff.1 h1, h2, h3, rfl⟩
  · rintro ⟨_, a, b, i, j, h1, h2, h3, -⟩
    exact ⟨(i, j), parseRange_iff.2 ⟨a, b, subs_iff.2 h1, h2, h3⟩⟩

theorem relationship_legal (v : Version) (value : Str) :
    parseRelationshipValue v value = .err ↔ ¬∃ r, RelationshipSays v (value, []) r := by
  rw [err_iff (parseRelationshipValue_ne_panic _ _)]
  refine not_congr ?_
  constructor
  · rintro ⟨r, h⟩; exact ⟨r, relationshipSays_of h⟩
  · rintro ⟨r, ⟨a, b, h1, h2, h3⟩, -⟩
    rw [wordsOf_eq] at h1
    have ha : trimSpace a = a := trimSpace_of_mem (value := value) (by rw [h1]; simp)
    have hb : trimSpace b = b := trimSpace_of_mem (value := value) (by rw [h1]; simp)
    have hB : ∃ y, extractDocElementSpecial b (permittedSpecial v) = .ok y := by
      unfold extractDocElementSpecial
      split
      · exact ⟨_, rfl⟩
      · rename_i hc
        rcases h3 with h3 | ⟨h3, h4, -⟩
        · exact ⟨_, ref_iff.2 h3⟩
        · exfalso; apply hc
          cases v <;> first | exact absurd rfl h3 | (simp [permittedSpecial]; exact h4)
    obtain ⟨y, hy⟩ := hB
    refine ⟨{ refA := r.refA, relationship := trimSpace r.relationship, refB := y }, ?_⟩
    · unfold parseRelationshipValue
      rw [h1]
      simp only [ha, hb, ref_iff.2 h2, Res.bind_ok, hy]

theorem externalDocument_legal (value : Str) :
    extractExternalDocumentReference value = .err ↔ ¬∃ e, ExternalDocumentSays value e := by
  rw [err_iff (extractEDR_ne_panic _)]
  refine not_congr ?_
  constructor
  · rintro ⟨e, h⟩; exact ⟨e, edrSays_of h⟩
  · have key : ∀ d u a c : Str, d ≠ [] → ∃ e, edrTail (g!"DocumentRef-" ++ d) u a c = .ok e := by
      intro d u a c hd
      unfold edrTail
      rw [show g!"DocumentRef-" = documentRefPrefix from rfl]
      rw [if_neg (by rw [hasPrefix_iff.2 ⟨d, rfl⟩]; simp)]
      simp only [trimPrefix_append, if_neg hd]
      exact ⟨_, rfl⟩
    rintro ⟨e, h1, h2 | ⟨h2, h3⟩⟩
    · rw [wordsOf_eq] at h2
      obtain ⟨e', he⟩ := key e.documentRefID e.uri e.checksum.algorithm e.checksum.value h1
      refine ⟨e', ?_⟩
      unfold extractExternalDocumentReference
      rw [h2]
      simp only
      rw [if_neg (by rw [hasSuffix_iff.2 ⟨_, rfl⟩]; simp), trimSuffix_append]
      exact he
    · rw [wordsOf_eq] at h3
      obtain ⟨e', he⟩ := key e.documentRefID e.uri e.checksum.algorithm e.checksum.value h1
      refine ⟨e', ?_⟩
      unfold extractExternalDocumentReference
      rw [h3]
      simp only
      rw [List.append_assoc, show g!":" ++ e.checksum.value = ':' :: e.checksum.value from rfl, cut_single h2]
      exact he

end Verif
