import Verif.Lemmas.Str
import Verif.Lemmas.Identifier
import Verif.Lemmas.TVRead
import Verif.Model.TVWrite
import Verif.Model.TVParse
import Verif.Spec.Representable

set_option linter.unusedSimpArgs false

/-!
# Composite single-line values
-/

namespace Verif
open Spec

/-! ## One-line texts put together -/

theorem contains_sep {sub a b : Str} {c : Char} (hc : c ∉ sub) (ha : contains sub a = false)
    (hb : contains sub b = false) : contains sub (a ++ c :: b) = false := by
  rw [contains_false_iff] at ha hb ⊢
  intro x y h
  rw [List.append_assoc] at h
  rcases List.append_eq_append_iff.1 h with ⟨w, h1, h2⟩ | ⟨w, h1, h2⟩
  · -- x = a ++ w, c :: b = w ++ (sub ++ y)
    cases w with
    | nil =>
      cases sub with
      | nil => exact hb [] b (by simp)
      | cons s sub => simp at h2; exact hc (by simp [h2.1])
    | cons z w =>
      simp at h2
      exact hb w y (by rw [h2.2]; simp)
  · -- a = x ++ w, sub ++ y = w ++ c :: b
    rcases List.append_eq_append_iff.1 h2 with ⟨u, h3, h4⟩ | ⟨u, h3, h4⟩
    · exact ha x u (by rw [h1, h3]; simp)
    · cases u with
      | nil => simp at h3; exact ha x [] (by rw [h1, h3]; simp)
      | cons z u =>
        simp at h4
        exact hc (by rw [h3, h4.1]; simp)

/-- The end of a one-line text. -/
structure LineEnd (b : Str) : Prop where
  ne : b ≠ []
  nl : '\n' ∉ b
  last : ∀ c t, b = t ++ [c] → isSpace c = false
  tx : contains g!"<text>" b = false

theorem trimmed_of_oneLine {s : Str} (h : OneLine s) : Trimmed isSpace s := trim_eq_self_iff.1 h.2.1

theorem LineEnd.of_line1 {s : Str} (h : Line1 s) : LineEnd s :=
  ⟨h.1, h.2.1, (trimmed_of_oneLine h.2).2, h.2.2.2⟩

theorem LineEnd.of_word {s : Str} (h : Word s) : LineEnd s := by
  refine ⟨h.1, fun hn => ?_, fun c t e => h.2.1 c (by simp [e]), h.2.2⟩
  have := h.2.1 _ hn; revert this; decide

theorem line1_of_word {s : Str} (h : Word s) : Line1 s := by
  have := LineEnd.of_word h
  refine ⟨h.1, this.nl, trim_eq_self_iff.2 ⟨fun c t e => h.2.1 c (by simp [e]), this.last⟩, this.tx⟩

theorem LineEnd.cons {c : Char} {b : Str} (h : LineEnd b) (hn : c ≠ '\n') (hc : c ∉ g!"<text>") : LineEnd (c :: b) := by
  refine ⟨by simp, ?_, ?_, ?_⟩
  · simp only [List.mem_cons, not_or]; exact ⟨fun e => hn e.symm, h.nl⟩
  · intro x t e
    obtain ⟨b', y, rfl⟩ : ∃ b' y, b = b' ++ [y] := by
      rcases List.eq_nil_or_concat b with e | ⟨l, a, e⟩
      · exact absurd e h.ne
      · exact ⟨l, a, by simp [e]⟩
    rw [← List.cons_append] at e
    have := List.append_inj_right' e (by simp)
    simp at this; subst this
    exact h.last _ _ rfl
  · exact contains_sep (a := []) hc (by decide) h.tx

theorem LineEnd.append {c : Char} {a b : Str} (ha : '\n' ∉ a ∧ contains g!"<text>" a = false)
    (hc : c ∉ g!"<text>") (h : LineEnd (c :: b)) (hb : contains g!"<text>" b = false) : LineEnd (a ++ c :: b) := by
  refine ⟨by simp, ?_, ?_, contains_sep hc ha.2 hb⟩
  · rw [List.mem_append, not_or]; exact ⟨ha.1, h.nl⟩
  · intro x t e
    obtain ⟨b', y, hb'⟩ : ∃ b' y, c :: b = b' ++ [y] := by
      rcases List.eq_nil_or_concat (c :: b) with e | ⟨l, a, e⟩
      · simp at e
      · exact ⟨l, a, by simp [e]⟩
    rw [hb', ← List.append_assoc] at e
    have := List.append_inj_right' e (by simp)
    simp at this; subst this
    exact h.last _ _ hb'

theorem contains_tail_false {sub b : Str} {c : Char} (h : contains sub (c :: b) = false) : contains sub b = false := by
  have : c :: b = [c] ++ b := rfl
  rw [this] at h
  exact contains_append_right_false h

theorem line1_append {c : Char} {a b : Str} (ha : Line1 a) (hc : c ∉ g!"<text>") (h : LineEnd (c :: b)) :
    Line1 (a ++ c :: b) := by
  have hb := contains_tail_false h.tx
  have he := LineEnd.append (a := a) ⟨ha.2.1, ha.2.2.2⟩ hc h hb
  refine ⟨by simp, he.nl, trim_eq_self_iff.2 ⟨?_, he.last⟩, he.tx⟩
  intro x t e
  obtain ⟨y, a', rfl⟩ := List.exists_cons_of_ne_nil ha.1
  simp at e
  exact (trimmed_of_oneLine ha.2).1 x a' (by rw [e.1])

theorem line1_pairValue {k x : Str} (hk : Line1 k) (hx : Line1 x) : Line1 (pairValue k x) := by
  have := ((LineEnd.of_line1 hx).cons (c := ' ') (by decide) (by decide)).cons (c := ':') (by decide) (by decide)
  have := line1_append hk (by decide) this
  simpa [pairValue] using this

theorem line1_renderElementID {e : Str} (h : Word e) : Line1 (renderElementID e) := by
  have := (LineEnd.of_word h).cons (c := '-') (by decide) (by decide)
  have := line1_append (a := g!"SPDXRef") (by decide) (by decide) this
  simpa [renderElementID, spdxRefPrefix] using this

theorem word_sep {a b : Str} {c : Char} (ha : Solid a) (hb : Solid b) (hc : c ∉ g!"<text>")
    (hs : isSpace c = false) : Word (a ++ c :: b) := by
  refine ⟨by simp, ?_, contains_sep hc ha.2 hb.2⟩
  intro x hx
  simp only [List.mem_append, List.mem_cons] at hx
  rcases hx with hx | rfl | hx
  · exact ha.1 x hx
  · exact hs
  · exact hb.1 x hx

theorem word_renderElementID {e : Str} (h : Word e) : Word (renderElementID e) := by
  have := word_sep (a := g!"SPDXRef") (b := e) (c := '-') (by decide) h.2 (by decide) (by decide)
  simpa [renderElementID, spdxRefPrefix] using this

theorem word_renderRef {r : DocElementID} (h : RepRef r) : Word (renderDocElementID r) := by
  obtain ⟨h1, h2, h3⟩ := h
  have he := word_renderElementID h1.1
  unfold renderDocElementID
  simp only [h3, ne_eq, not_true_eq_false, if_false]
  by_cases hd : r.documentRefID = []
  · simpa [hd, renderElementID] using he
  · have hd' := h2.resolve_left hd
    have h4 := word_sep (a := r.documentRefID) (b := renderElementID r.elementRefID) (c := ':') hd'.1.2 he.2
      (by decide) (by decide)
    have h5 := word_sep (a := g!"DocumentRef") (c := '-') (by decide) h4.2 (by decide) (by decide)
    simpa [hd, renderElementID, documentRefPrefix, spdxRefPrefix] using h5

theorem trimSpace_word {s : Str} (h : Word s) : trimSpace s = s := (line1_of_word h).2.2.1

theorem space_not_mem_word {s : Str} (h : Solid s) : ' ' ∉ s := by
  intro hm; have := h.1 _ hm; revert this; decide

/-- Three words separated by single spaces. -/
theorem spaceItems_three {a b c : Str} (ha : Word a) (hb : Word b) (hc : Word c) :
    spaceItems (a ++ g!" " ++ b ++ g!" " ++ c) = [a, b, c] := by
  have e : a ++ g!" " ++ b ++ g!" " ++ c = a ++ ' ' :: (b ++ ' ' :: c) := by simp
  unfold spaceItems
  rw [e, splitChar_append, splitChar_append, splitChar_of_not_mem (space_not_mem_word ha.2),
    splitChar_of_not_mem (space_not_mem_word hb.2), splitChar_of_not_mem (space_not_mem_word hc.2)]
  simp [trimSpace_word ha, trimSpace_word hb, trimSpace_word hc, ha.1, hb.1, hc.1]

theorem line1_three {a b c : Str} (ha : Word a) (hb : Word b) (hc : Word c) :
    Line1 (a ++ g!" " ++ b ++ g!" " ++ c) := by
  have e : a ++ g!" " ++ b ++ g!" " ++ c = a ++ ' ' :: (b ++ ' ' :: c) := by simp
  rw [e]
  have hn : ∀ {s}, Word s → '\n' ∉ s ∧ contains g!"<text>" s = false :=
    fun h => ⟨(LineEnd.of_word h).nl, h.2.2⟩
  have h1 := (LineEnd.of_word hc).cons (c := ' ') (by decide) (by decide)
  have h2 := LineEnd.append (hn hb) (by decide) h1 hc.2.2
  exact line1_append (line1_of_word ha) (by decide) (h2.cons (by decide) (by decide))

/-! ## Values read back -/

theorem extractSubs_pairValue {k x : Str} (hk : ':' ∉ k) (hk' : trimSpace k = k) (hx : trimSpace x = x) :
    extractSubs g!":" (pairValue k x) = .ok (k, x) := by
  have e : pairValue k x = k ++ ':' :: (' ' :: x) := by simp [pairValue]
  unfold extractSubs
  rw [e, cut_single hk]
  simp only [hk', Res.ok.injEq, Prod.mk.injEq, true_and]
  exact trimSpace_pad_left (trim_eq_self_iff.1 hx)

theorem atoiDigits_append (acc : Nat) (a b : Str) :
    atoiDigits acc (a ++ b) = (atoiDigits acc a).bind fun n => atoiDigits n b := by
  induction a generalizing acc with
  | nil => rfl
  | cons c a ih =>
    simp only [List.cons_append, atoiDigits]
    cases digitVal c with
    | none => rfl
    | some d => exact ih _

theorem digitVal_digitChar {d : Nat} (h : d < 10) : digitVal d.digitChar = some d := by
  have : ∀ d : Fin 10, digitVal d.1.digitChar = some d.1 := by decide
  exact this ⟨d, h⟩

theorem atoiDigits_natDigits (n : Nat) : atoiDigits 0 (natDigits n) = some n := by
  unfold natDigits
  induction n using Nat.strongRecOn with
  | ind n ih =>
    rw [Nat.toDigits_eq_if (by decide)]
    split
    · rename_i h; simp [atoiDigits, digitVal_digitChar h]
    · rename_i h
      rw [atoiDigits_append, ih (n / 10) (by omega)]
      simp only [Option.bind_some, atoiDigits, digitVal_digitChar (Nat.mod_lt n (by decide : 10 > 0))]
      congr 1; omega

theorem natDigits_digits {n : Nat} {c : Char} (h : c ∈ natDigits n) : c.isDigit = true :=
  Nat.isDigit_of_mem_toDigits (by decide) (by decide) h

theorem natDigits_ne_nil (n : Nat) : natDigits n ≠ [] := Nat.toDigits_ne_nil

theorem atoi_itoa {n : Int} (h1 : -(2 ^ 63) ≤ n) (h2 : n < 2 ^ 63) : atoi (itoa n) = some n := by
  cases n with
  | ofNat n =>
    simp only [itoa]
    have hd : ∀ c ∈ natDigits n, c.isDigit = true := fun c h => natDigits_digits h
    have hne := natDigits_ne_nil n
    have ha := atoiDigits_natDigits n
    have hn : n < 2 ^ 63 := by simpa using (Int.ofNat_lt.1 (by simpa using h2))
    unfold atoi
    split
    rename_i neg ds heq
    have : neg = false ∧ ds = natDigits n := by
      split at heq
      · rename_i t ht; have := hd '-' (by rw [ht]; simp); exact absurd this (by decide)
      · rename_i t ht; have := hd '+' (by rw [ht]; simp); exact absurd this (by decide)
      · simp at heq; exact ⟨heq.1, heq.2.symm⟩
    obtain ⟨rfl, rfl⟩ := this
    simp only [hne, if_false, ha]
    simp [hn]
  | negSucc n =>
    simp only [itoa]
    have hne := natDigits_ne_nil (n + 1)
    have ha := atoiDigits_natDigits (n + 1)
    unfold atoi
    simp only [hne, if_false, ha]
    have : n + 1 ≤ 2 ^ 63 := by omega
    simp only [this, if_true, Option.some.injEq]
    omega

theorem isSpace_of_isDigit {c : Char} (h : c.isDigit = true) : isSpace c = false := by
  simp only [Char.isDigit, Bool.and_eq_true, decide_eq_true_eq] at h
  have h1 : 48 ≤ c.toNat := h.1
  have h2 : c.toNat ≤ 57 := h.2
  simp only [isSpace, Bool.or_eq_false_iff, Bool.and_eq_false_iff, decide_eq_false_iff_not, beq_eq_false_iff_ne]
  omega

theorem itoa_chars {n : Int} {c : Char} (h : c ∈ itoa n) : c = '-' ∨ c.isDigit = true := by
  cases n with
  | ofNat n => exact .inr (natDigits_digits h)
  | negSucc n =>
    simp only [itoa, List.mem_cons] at h
    rcases h with rfl | h
    · exact .inl rfl
    · exact .inr (natDigits_digits h)

theorem itoa_word (n : Int) : Word (itoa n) ∧ ':' ∉ itoa n := by
  refine ⟨⟨?_, ?_, ?_⟩, ?_⟩
  · cases n with
    | ofNat n => exact natDigits_ne_nil n
    | negSucc n => simp [itoa]
  · intro c hc
    rcases itoa_chars hc with rfl | h
    · decide
    · exact isSpace_of_isDigit h
  · rw [contains_false_iff]
    intro a b e
    have : '<' ∈ itoa n := by rw [e]; simp
    rcases itoa_chars this with h | h <;> revert h <;> decide
  · intro hc
    rcases itoa_chars hc with h | h <;> revert h <;> decide

theorem parseRange_itoa {a b : Int} (ha : RepInt a) (hb : RepInt b) :
    parseRange (itoa a ++ g!":" ++ itoa b) = .ok (a, b) := by
  have e : itoa a ++ g!":" ++ itoa b = itoa a ++ ':' :: itoa b := by simp
  unfold parseRange extractSubs
  rw [e, cut_single (itoa_word a).2]
  simp only [Res.bind_ok, trimSpace_word (itoa_word a).1, trimSpace_word (itoa_word b).1,
    atoi_itoa ha.2.1 ha.2.2, atoi_itoa hb.2.1 hb.2.2]

theorem line1_range (a b : Int) : Line1 (itoa a ++ g!":" ++ itoa b) := by
  have := word_sep (c := ':') (itoa_word a).1.2 (itoa_word b).1.2 (by decide) (by decide)
  exact line1_of_word (by simpa using this)

/-! ## External document references -/

theorem edr_text (e : ExternalDocumentRef) :
    g!"DocumentRef-" ++ e.documentRefID ++ g!" " ++ e.uri ++ g!" " ++ e.checksum.algorithm ++ g!":" ++ e.checksum.value =
    (g!"DocumentRef-" ++ e.documentRefID) ++ g!" " ++ e.uri ++ g!" " ++ (e.checksum.algorithm ++ ':' :: e.checksum.value) := by
  simp

theorem edr_words {e : ExternalDocumentRef} (h : RepExternalDocRef e) :
    Word (g!"DocumentRef-" ++ e.documentRefID) ∧ Word (e.checksum.algorithm ++ ':' :: e.checksum.value) := by
  refine ⟨?_, word_sep h.algorithm.1 h.value (by decide) (by decide)⟩
  have := word_sep (a := g!"DocumentRef") (c := '-') (by decide) h.documentRefID.2 (by decide) (by decide)
  simpa using this

theorem extractEDR_text {e : ExternalDocumentRef} (h : RepExternalDocRef e) :
    extractExternalDocumentReference (g!"DocumentRef-" ++ e.documentRefID ++ g!" " ++ e.uri ++ g!" " ++
      e.checksum.algorithm ++ g!":" ++ e.checksum.value) = .ok e := by
  rw [edr_text]
  unfold extractExternalDocumentReference
  rw [spaceItems_three (edr_words h).1 h.uri (edr_words h).2]
  simp only
  rw [cut_single h.algorithm.2]
  have hp : hasPrefix documentRefPrefix (g!"DocumentRef-" ++ e.documentRefID) = true :=
    hasPrefix_append documentRefPrefix _
  have ht : trimPrefix documentRefPrefix (g!"DocumentRef-" ++ e.documentRefID) = e.documentRefID :=
    trimPrefix_append documentRefPrefix _
  simp only [edrTail, hp, ht, h.documentRefID.1, Bool.not_true, Bool.false_eq_true, if_false]

/-! ## Verification codes -/

theorem cut_excludes {a b : Str} (h : contains g!"(excludes:" (a ++ g!" ") = false) :
    cut g!"(excludes:" (a ++ g!" " ++ g!"(excludes:" ++ b) = some (a ++ g!" ", b) := by
  have := cut_append_sep (c := '(') (t := g!"excludes:") (v := a ++ g!" ") (r := b) (by decide) h
  simpa using this

theorem trimSpace_pad_right {s : Str} (h : trimSpace s = s) : trimSpace (s ++ g!" ") = s := by
  have := trim_pad (p := isSpace) (a := []) (s := s) (b := g!" ") (by simp) (by decide) (trim_eq_self_iff.1 h)
  simpa [trimSpace] using this

theorem extractCode_text {c : VerificationCode} (h : RepCode c) : extractCodeAndExcludes (verificationValue c) = c := by
  obtain ⟨h1, h2, h3⟩ := h
  obtain ⟨value, ex⟩ := c
  simp only at h1 h2 h3
  rcases h3 with rfl | ⟨f, rfl, hf, hp⟩
  · simp [verificationValue, extractCodeAndExcludes, cut_none_of_not_contains h2]
  · have hv : contains g!"(excludes:" (value ++ g!" ") = false :=
      contains_sep (c := ' ') (by decide) h2 (by decide)
    have e : verificationValue ⟨value, [f]⟩ = value ++ g!" " ++ g!"(excludes:" ++ (g!" " ++ f ++ g!")") := by
      simp [verificationValue, join]
    unfold extractCodeAndExcludes
    rw [e, cut_excludes hv]
    have e2 : g!" " ++ f ++ g!")" = (' ' :: f) ++ ')' :: [] := by simp
    have hp' : ')' ∉ (' ' :: f) := by simp [hp]
    simp only
    rw [e2, cut_single hp']
    simp only [trimSpace_pad_right h1.2.2.1, trimSpace_pad_left (trimmed_of_oneLine hf)]

theorem line1_verification {c : VerificationCode} (h : RepCode c) : Line1 (verificationValue c) := by
  obtain ⟨h1, h2, h3⟩ := h
  obtain ⟨value, ex⟩ := c
  simp only at h1 h2 h3
  rcases h3 with rfl | ⟨f, rfl, hf, hp⟩
  · simpa [verificationValue] using h1
  · have e : verificationValue ⟨value, [f]⟩ = value ++ ' ' :: (g!"(excludes:" ++ ' ' :: (f ++ ')' :: [])) := by
      simp [verificationValue, join]
    rw [e]
    have h0 : LineEnd [')'] := ⟨by decide, by decide, by
      intro c t e
      cases t with
      | nil => simp at e; subst e; decide
      | cons a t => simp at e, by decide⟩
    have h4 : LineEnd (f ++ ')' :: []) := LineEnd.append ⟨hf.1, hf.2.2⟩ (by decide) h0 (by decide)
    have h5 := h4.cons (c := ' ') (by decide) (by decide)
    have h6 : LineEnd (g!"(excludes:" ++ ' ' :: (f ++ ')' :: [])) :=
      LineEnd.append (by decide) (by decide) h5 h4.tx
    exact line1_append h1 (by decide) (h6.cons (by decide) (by decide))

/-! ## Kinds and algorithms -/

theorem known_contains {v : Version} {a : Str} (h : a ∈ algorithmsOf v) : (knownAlgorithms v).contains a = true := by
  have : ∀ v, ∀ a ∈ algorithmsOf v, (knownAlgorithms v).contains a = true := by
    intro v; cases v <;> decide
  exact this v a h

theorem algorithm_line1 {v : Version} {a : Str} (h : a ∈ algorithmsOf v) : Line1 a ∧ ':' ∉ a := by
  have : ∀ v, ∀ a ∈ algorithmsOf v, Line1 a ∧ ':' ∉ a := by
    intro v; cases v <;> decide +kernel
  exact this v a h

theorem kind_line1 {k : Str} (h : k ∈ agentKinds) : (Line1 k ∧ ':' ∉ k) ∧ isAgentKind k = true := by
  have : ∀ k ∈ agentKinds, (Line1 k ∧ ':' ∉ k) ∧ isAgentKind k = true := by decide
  exact this k h

theorem partyKind_line1 {k : Str} (h : k ∈ partyKinds) :
    (Line1 k ∧ ':' ∉ k) ∧ (k = g!"Person" ∨ k = g!"Organization") := by
  have : ∀ k ∈ partyKinds, (Line1 k ∧ ':' ∉ k) ∧ (k = g!"Person" ∨ k = g!"Organization") := by decide
  exact this k h

theorem parseChecksum_text {v : Version} {c : Checksum} (h : RepChecksum v c) :
    parseChecksum v (pairValue c.algorithm c.value) = .ok c := by
  obtain ⟨h1, h2⟩ := h
  have h3 := algorithm_line1 h1
  unfold parseChecksum
  rw [extractSubs_pairValue h3.2 h3.1.2.2.1 h2.2.2.1]
  simp only [Res.bind_ok, known_contains h1, if_true]

theorem extractSubs_agent {k x : Str} (h : RepAgent k x) :
    extractSubs g!":" (pairValue k x) = .ok (k, x) ∧ isAgentKind k = true := by
  have hk := kind_line1 h.1
  exact ⟨extractSubs_pairValue hk.1.2 hk.1.1.2.2.1 h.2.2.2.1, hk.2⟩

theorem pairValue_ne_noassertion {k x : Str} : pairValue k x ≠ g!"NOASSERTION" := by
  intro e
  have : ':' ∈ g!"NOASSERTION" := by rw [← e]; simp [pairValue]
  revert this; decide

theorem parseSupplier_text {s : Supplier} (h : RepParty s.supplierType s.supplier) :
    parseSupplier (if s.supplierType = [] then s.supplier else pairValue s.supplierType s.supplier) = .ok s := by
  obtain ⟨name, kind⟩ := s
  simp only at h ⊢
  rcases h with ⟨hk, hn⟩ | ⟨rfl, rfl⟩
  · have h1 := partyKind_line1 hk
    simp only [h1.1.1.1, if_false]
    unfold parseSupplier
    rw [if_neg pairValue_ne_noassertion, extractSubs_pairValue h1.1.2 h1.1.1.2.2.1 hn.2.2.1]
    simp only [Res.bind_ok, h1.2, if_true]
  · simp [parseSupplier]

theorem parseOriginator_text {s : Originator} (h : RepParty s.originatorType s.originator) :
    parseOriginator (if s.originatorType = [] then s.originator else pairValue s.originatorType s.originator) = .ok s := by
  obtain ⟨name, kind⟩ := s
  simp only at h ⊢
  rcases h with ⟨hk, hn⟩ | ⟨rfl, rfl⟩
  · have h1 := partyKind_line1 hk
    simp only [h1.1.1.1, if_false]
    unfold parseOriginator
    rw [if_neg pairValue_ne_noassertion, extractSubs_pairValue h1.1.2 h1.1.1.2.2.1 hn.2.2.1]
    simp only [Res.bind_ok, h1.2, if_true]
  · simp [parseOriginator]

theorem extractRef3_text {r : PackageExternalRef} (h : RepRef3 r) :
    extractPackageExternalReference (r.category ++ g!" " ++ r.refType ++ g!" " ++ r.locator) =
      .ok { r with comment := [] } := by
  unfold extractPackageExternalReference
  rw [spaceItems_three h.category h.refType h.locator]

theorem extractDocElementID_rep {r : DocElementID} (h : RepRef r) :
    extractDocElementID (renderDocElementID r) = .ok r := by
  refine extractDocElementID_eq_ok.2 ⟨h.2.2, h.1.1.1, h.1.2, ?_, rfl⟩
  rcases h.2.1 with h | h
  · simp [h]
  · exact h.2

theorem specialRef_word {r : DocElementID} (h : SpecialRef r) : Word (renderDocElementID r) := by
  rcases h with rfl | rfl <;> decide

theorem parseRelationship_text {v : Version} {r : Relationship} (h : RepRelationship v r) :
    parseRelationshipValue v (renderDocElementID r.refA ++ g!" " ++ r.relationship ++ g!" " ++ renderDocElementID r.refB)
      = .ok { r with comment := [] } := by
  have ha := word_renderRef h.refA
  have hb : Word (renderDocElementID r.refB) := by
    rcases h.refB with hb | hb
    · exact word_renderRef hb
    · exact specialRef_word hb.2
  unfold parseRelationshipValue
  rw [spaceItems_three ha h.relationship hb]
  simp only [trimSpace_word ha, trimSpace_word hb, trimSpace_word h.relationship,
    extractDocElementID_rep h.refA, Res.bind_ok]
  have : extractDocElementSpecial (renderDocElementID r.refB) (permittedSpecial v) = .ok r.refB := by
    rcases h.refB with hb' | ⟨hv, hb'⟩
    · unfold extractDocElementSpecial
      have : (permittedSpecial v).contains (renderDocElementID r.refB) = false := by
        have hpre : ∀ s ∈ permittedSpecial v, ∃ c t, s = 'N' :: c :: t ∧ True := by
          cases v <;> simp [permittedSpecial]
        rw [Bool.eq_false_iff]
        intro hc
        have hm : renderDocElementID r.refB ∈ permittedSpecial v := by simpa using hc
        obtain ⟨c, t, e, -⟩ := hpre _ hm
        unfold renderDocElementID at e
        simp only [hb'.2.2, ne_eq, not_true_eq_false, if_false, documentRefPrefix, spdxRefPrefix] at e
        split at e <;> simp at e
      rw [this]
      simp only [Bool.false_eq_true, if_false]
      exact extractDocElementID_rep hb'
    · rcases hb' with e | e <;> rw [e] <;> cases v <;> first | exact absurd rfl hv | decide
  rw [this]
  rfl

end Verif
