import Verif.Lemmas.Str
import Verif.Model.Identifier
import Verif.Spec.Json

set_option linter.unusedSimpArgs false

/-!
# Lemmas about identifiers and JSON strings
-/

namespace Verif
open Spec

theorem jsonEscapeChar_plain {c : Char} (h : plainChar c = true) : jsonEscapeChar c = [c] := by
  simp only [plainChar, Bool.and_eq_true, decide_eq_true_eq, ne_eq] at h
  obtain ⟨⟨⟨⟨h1, h2⟩, h3⟩, h4⟩, h5⟩ := h
  unfold jsonEscapeChar
  have hn : c ≠ '\n' := by rintro rfl; revert h3; decide
  have hr : c ≠ '\r' := by rintro rfl; revert h3; decide
  have ht : c ≠ '\t' := by rintro rfl; revert h3; decide
  have h6 : ¬ (c.toNat < 0x20 ∨ c.toNat = 0x2028 ∨ c.toNat = 0x2029) := by omega
  rw [if_neg h1, if_neg h2, if_neg hn, if_neg hr, if_neg ht, if_neg h6]

theorem jsonQuote_plain {s : Str} (h : Plain s) : jsonQuote s = quoted s := by
  unfold jsonQuote quoted
  congr 2
  induction s with
  | nil => rfl
  | cons c s ih =>
    rw [List.flatMap_cons, jsonEscapeChar_plain (h c (by simp)), ih (fun x hx => h x (by simp [hx]))]
    rfl

theorem plain_trimmed {s : Str} (h : Plain s) : Trimmed isQuote s := by
  have key : ∀ c, plainChar c = true → isQuote c = false := by
    intro c hc
    simp only [plainChar, Bool.and_eq_true, decide_eq_true_eq, ne_eq] at hc
    simp [isQuote, hc.1.1.1.1]
  constructor
  · rintro c t rfl; exact key c (h c (by simp))
  · rintro c t rfl; exact key c (h c (by simp))

theorem trimQuotes_quoted {s : Str} (h : Plain s) : trimQuotes (quoted s) = s := by
  unfold trimQuotes quoted
  exact trim_pad (by decide) (by decide) (plain_trimmed h)

theorem plain_append {a b : Str} : Plain (a ++ b) ↔ Plain a ∧ Plain b := by
  unfold Plain
  constructor
  · intro h; exact ⟨fun c hc => h c (by simp [hc]), fun c hc => h c (by simp [hc])⟩
  · rintro ⟨h1, h2⟩ c hc
    rcases List.mem_append.1 hc with h | h
    · exact h1 c h
    · exact h2 c h

theorem trimIdPrefix_eq_ok {pre s e : Str} : trimIdPrefix pre s = .ok e ↔ s = pre ++ e ∧ e ≠ [] := by
  unfold trimIdPrefix
  cases h : cutPrefix pre s with
  | none =>
    have := cutPrefix_eq_none.1 h e
    simp [this]
  | some r =>
    have hs := cutPrefix_eq_some.1 h
    subst hs
    by_cases hr : r = []
    · simp [hr]
    · simp [hr]
      rintro rfl; exact hr

theorem trimIdPrefix_ne_panic (pre s : Str) : trimIdPrefix pre s ≠ .panic := by
  unfold trimIdPrefix
  split
  · split <;> simp
  · simp

theorem plain_spdxRef : Plain spdxRefPrefix := by decide
theorem plain_documentRef : Plain documentRefPrefix := by decide

theorem prefixId_plain {pre id : Str} (h : Plain id) (hp : Plain pre) : Plain (prefixId pre id) := by
  unfold prefixId
  split
  · exact plain_append.2 ⟨hp, h⟩
  · exact h

theorem extractElementID_eq_ok {v e : Str} :
    extractElementID v = .ok e ↔ v = spdxRefPrefix ++ e ∧ e ≠ [] ∧ ':' ∉ e := by
  unfold extractElementID
  cases hp : hasPrefix spdxRefPrefix v with
  | false =>
    have := hasPrefix_false_iff.1 hp e
    simp [this]
  | true =>
    obtain ⟨r, rfl⟩ := hasPrefix_iff.1 hp
    simp only [Bool.not_true, Bool.false_eq_true, if_false, trimPrefix_append]
    have hm : ':' ∈ spdxRefPrefix ++ r ↔ ':' ∈ r := by
      simp [spdxRefPrefix]
    cases hc : contains g!":" (spdxRefPrefix ++ r) with
    | true =>
      have := hm.1 (contains_single.1 hc)
      simp only [if_true, reduceCtorEq, List.append_cancel_left_eq, false_iff, not_and]
      rintro rfl _ h; exact h this
    | false =>
      have := fun h => contains_single_false.1 hc (hm.2 h)
      simp only [Bool.false_eq_true, if_false, List.append_cancel_left_eq]
      by_cases hr : r = []
      · simp [hr]; intro h1 h2; exact absurd h1 h2
      · simp only [hr, if_false, Res.ok.injEq]
        constructor
        · rintro rfl; exact ⟨rfl, hr, this⟩
        · rintro ⟨h, -⟩; exact h

theorem extractDocElementTail_eq_ok {d v : Str} {x : DocElementID} :
    extractDocElementTail d v = .ok x ↔
      ∃ e, v = spdxRefPrefix ++ e ∧ e ≠ [] ∧ ':' ∉ e ∧ x = { documentRefID := d, elementRefID := e } := by
  have hrel : extractDocElementTail d v =
      (extractElementID v >>= fun e => .ok { documentRefID := d, elementRefID := e }) := by
    unfold extractDocElementTail extractElementID
    simp only
    split
    · rfl
    · split
      · rfl
      · split <;> rfl
  rw [hrel]
  cases h : extractElementID v with
  | ok e =>
    have := extractElementID_eq_ok.1 h
    simp only [Res.bind_ok, Res.ok.injEq]
    constructor
    · rintro rfl; exact ⟨e, this.1, this.2.1, this.2.2, rfl⟩
    · rintro ⟨e', h', -, -, rfl⟩
      rw [this.1, List.append_cancel_left_eq] at h'
      rw [h']
  | err =>
    simp only [Res.bind_err, reduceCtorEq, false_iff]
    rintro ⟨e, h1, h2, h3, -⟩
    rw [extractElementID_eq_ok.2 ⟨h1, h2, h3⟩] at h; simp at h
  | panic =>
    simp only [Res.bind_panic, reduceCtorEq, false_iff]
    rintro ⟨e, h1, h2, h3, -⟩
    rw [extractElementID_eq_ok.2 ⟨h1, h2, h3⟩] at h; simp at h

theorem extractDocElementID_eq_ok {v : Str} {x : DocElementID} :
    extractDocElementID v = .ok x ↔
      x.specialID = [] ∧ x.elementRefID ≠ [] ∧ ':' ∉ x.elementRefID ∧ ':' ∉ x.documentRefID ∧
      v = renderDocElementID x := by
  have hnp : ∀ e : Str, hasPrefix documentRefPrefix (spdxRefPrefix ++ e) = false := by
    intro e; simp [hasPrefix, documentRefPrefix, spdxRefPrefix, List.isPrefixOf]
  constructor
  · intro h
    unfold extractDocElementID at h
    cases hp : hasPrefix documentRefPrefix v with
    | false =>
      simp only [hp, Bool.false_eq_true, if_false] at h
      obtain ⟨e, rfl, h2, h3, rfl⟩ := extractDocElementTail_eq_ok.1 h
      exact ⟨rfl, h2, h3, by simp, by simp [renderDocElementID]⟩
    | true =>
      simp only [hp, if_true] at h
      split at h
      · rename_i a b hs
        split at h
        · simp at h
        · rename_i hd
          obtain ⟨e, rfl, h2, h3, rfl⟩ := extractDocElementTail_eq_ok.1 h
          have hj := join_splitChar ':' v
          rw [hs] at hj
          simp only [join] at hj
          have hca : ':' ∉ a := splitChar_mem_not_mem (c := ':') (s := v) (by simp [hs])
          obtain ⟨r, hr⟩ := hasPrefix_iff.1 hp
          -- the prefix lies inside the first part
          have hpa : ∃ d, a = documentRefPrefix ++ d := by
            have heq : a ++ ':' :: (spdxRefPrefix ++ e) = documentRefPrefix ++ r := by
              rw [← hr, ← hj]; simp
            rcases List.append_eq_append_iff.1 heq with ⟨d, h1, h2⟩ | ⟨d, h1, h2⟩
            · cases d with
              | nil => exact ⟨[], by simpa using h1.symm⟩
              | cons x d =>
                exfalso
                simp only [List.cons_append, List.cons.injEq] at h2
                have : ':' ∈ documentRefPrefix := by rw [h1, ← h2.1]; simp
                revert this; decide
            · exact ⟨d, h1⟩
          obtain ⟨d, rfl⟩ := hpa
          simp only [trimPrefix_append] at hd ⊢
          refine ⟨trivial, h2, h3, fun hm => hca (by simp [hm]), ?_⟩
          simp [renderDocElementID, hd, ← hj]
      · simp at h
  · rintro ⟨h1, h2, h3, h4, rfl⟩
    obtain ⟨d, e, sp⟩ := x
    simp only at h1 h2 h3 h4
    subst h1
    by_cases hd : d = []
    · subst hd
      simp only [renderDocElementID, ne_eq, not_true_eq_false, if_false, List.nil_append]
      unfold extractDocElementID
      simp only [hnp, Bool.false_eq_true, if_false]
      exact extractDocElementTail_eq_ok.2 ⟨e, rfl, h2, h3, rfl⟩
    · simp only [renderDocElementID, ne_eq, not_true_eq_false, if_false, hd, not_false_eq_true, if_true]
      unfold extractDocElementID
      have e1 : documentRefPrefix ++ d ++ g!":" ++ spdxRefPrefix ++ e =
          (documentRefPrefix ++ d) ++ ':' :: (spdxRefPrefix ++ e) := by simp
      have e2 : hasPrefix documentRefPrefix ((documentRefPrefix ++ d) ++ ':' :: (spdxRefPrefix ++ e)) = true := by
        rw [List.append_assoc]; exact hasPrefix_append _ _
      have n1 : ':' ∉ documentRefPrefix ++ d := by simp [h4, documentRefPrefix]
      have n2 : ':' ∉ spdxRefPrefix ++ e := by simp [h3, spdxRefPrefix]
      rw [e1, e2, splitChar_append, splitChar_of_not_mem n1, splitChar_of_not_mem n2]
      simp only [if_true, List.cons_append, List.nil_append, trimPrefix_append, hd, if_false]
      exact extractDocElementTail_eq_ok.2 ⟨e, rfl, h2, h3, rfl⟩

theorem extractElementID_ne_panic (v : Str) : extractElementID v ≠ .panic := by
  unfold extractElementID
  simp only
  split
  · simp
  · split
    · simp
    · split <;> simp

theorem extractDocElementTail_ne_panic (d v : Str) : extractDocElementTail d v ≠ .panic := by
  unfold extractDocElementTail
  simp only
  split
  · simp
  · split
    · simp
    · split <;> simp

theorem extractDocElementID_ne_panic (v : Str) : extractDocElementID v ≠ .panic := by
  unfold extractDocElementID
  split
  · split
    · simp only
      split
      · simp
      · exact extractDocElementTail_ne_panic _ _
    · simp
  · exact extractDocElementTail_ne_panic _ _

theorem extractDocElementSpecial_ne_panic (v : Str) (p : List Str) : extractDocElementSpecial v p ≠ .panic := by
  unfold extractDocElementSpecial
  split
  · simp
  · exact extractDocElementID_ne_panic v

theorem extractSubs_ne_panic (sep v : Str) : extractSubs sep v ≠ .panic := by
  unfold extractSubs
  split <;> simp

end Verif
