import Verif.Lemmas.WriteRead
import Verif.Lemmas.Composite

/-!
# Which values survive: the converse direction

What the reader makes of a field whose value is not good.
-/

namespace Verif
open Spec

theorem dropCR_snoc (t : Str) : dropCR (t ++ ['\r']) = t := by simp [dropCR]

theorem dropCR_append (a b : Str) (hb : b ≠ []) : dropCR (a ++ b) = a ++ dropCR b := by
  rcases List.eq_nil_or_concat b with rfl | ⟨t, x, rfl⟩
  · exact absurd rfl hb
  · rw [List.concat_eq_append]
    by_cases hx : x = '\r'
    · subst hx; rw [← List.append_assoc, dropCR_snoc, dropCR_snoc]
    · have : ∀ u : Str, dropCR (u ++ [x]) = u ++ [x] := by
        intro u
        apply dropCR_of_last_ne
        intro w hw
        have := (List.append_inj' hw rfl).2
        simp at this; exact hx this
      rw [← List.append_assoc, this, this, List.append_assoc]

theorem cut_first {sep : Str} (hs : sep ≠ []) {s a b : Str} (h : cut sep s = some (a, b)) :
    contains sep a = false := by
  induction s generalizing a b with
  | nil => simp [cut, hs] at h
  | cons c t ih =>
    simp only [cut] at h
    split at h
    · simp at h
      obtain ⟨rfl, rfl⟩ := h
      simp [contains, cut, hs]
    · rename_i hp
      cases hc : cut sep t with
      | none => simp [hc] at h
      | some x =>
        obtain ⟨x, y⟩ := x
        simp [hc] at h
        obtain ⟨rfl, rfl⟩ := h
        have h1 := ih hc
        rw [contains_false_iff] at h1 ⊢
        intro u w e
        cases u with
        | nil =>
          rw [cutPrefix_eq_none] at hp
          refine hp (w ++ sep ++ y) ?_
          rw [cut_eq hc]
          have : c :: (x ++ sep ++ y) = (c :: x) ++ sep ++ y := by simp
          rw [this, e]; simp
        | cons z u =>
          simp at e
          exact h1 u w (by rw [e.2]; simp)

theorem dropCR_length (l : Str) : (dropCR l).length ≤ l.length := by
  unfold dropCR
  split
  · rename_i t h
    have := congrArg List.length h
    simp at this ⊢; omega
  · exact Nat.le_refl _

theorem dropCR_mem {l : Str} {c : Char} (h : c ∈ dropCR l) : c ∈ l := by
  unfold dropCR at h
  split at h
  · rename_i t ht
    have : c ∈ l.reverse := by rw [ht]; simp at h; simp [h]
    simpa using this
  · exact h

theorem dropCR_eq_of_length {l : Str} (h : l.length ≤ (dropCR l).length) : dropCR l = l := by
  unfold dropCR at h ⊢
  split at h
  · rename_i t ht
    have := congrArg List.length ht
    simp at this h; omega
  · rename_i hne
    rfl

theorem last_ne_of_dropCR {l : Str} (h : dropCR l = l) (t : Str) : l ≠ t ++ ['\r'] := by
  rintro rfl
  have := congrArg List.length h
  simp [dropCR] at this

theorem contains_crlf {a b : Str} (ha : '\n' ∉ a) (hl : ∀ t, a ≠ t ++ ['\r'])
    (hb : contains g!"\r\n" b = false) : contains g!"\r\n" (a ++ '\n' :: b) = false := by
  rw [contains_false_iff] at hb ⊢
  intro x y h
  rw [show x ++ g!"\r\n" ++ y = (x ++ ['\r']) ++ '\n' :: y by simp] at h
  rcases List.append_eq_append_iff.1 h with ⟨w, h1, h2⟩ | ⟨w, h1, h2⟩
  · cases w with
    | nil => exact hl x (by simpa using h1.symm)
    | cons z w =>
      simp at h2
      rcases List.eq_nil_or_concat w with rfl | ⟨w', q, rfl⟩
      · rw [show a ++ [z] = a ++ [z] from rfl] at h1
        have := (List.append_inj' h1 rfl).2
        simp at this
        rw [← h2.1] at this
        exact absurd this (by decide)
      · rw [List.concat_eq_append] at h1 h2
        have e : a ++ z :: (w' ++ [q]) = (a ++ z :: w') ++ [q] := by simp
        rw [e] at h1
        have := (List.append_inj' h1 rfl).2
        simp at this
        subst this
        exact hb w' y (by rw [h2.2]; simp)
  · cases w with
    | nil => exact hl x (by simpa using h1)
    | cons z w =>
      simp at h2
      exact ha (by rw [h1, ← h2.1]; simp)

/-- Outside a text block, a line is read only to append pairs. -/
theorem readLine_grows {r r' : TVReader} {l : Str} (h : readLine r l = .ok r') :
    ∃ more, r'.tvList = r.tvList ++ more := by
  unfold readLine at h
  split at h
  · unfold readLineMidtext at h
    split at h <;> (simp at h; subst h; first | exact ⟨_, rfl⟩ | exact ⟨[], by simp⟩)
  · unfold readLineReady at h
    simp only at h
    split at h
    · simp at h; subst h; exact ⟨[], by simp⟩
    split at h
    · simp at h; subst h; exact ⟨[], by simp⟩
    split at h
    · simp at h
    split at h
    · simp at h; subst h; exact ⟨_, rfl⟩
    split at h
    · simp at h; subst h; exact ⟨_, rfl⟩
    · simp at h; subst h; exact ⟨[], by simp⟩

theorem readLines_grows {ls : List Str} : ∀ {r r' : TVReader}, readLines r ls = .ok r' →
    ∃ more, r'.tvList = r.tvList ++ more := by
  induction ls with
  | nil => intro r r' h; simp [readLines] at h; subst h; exact ⟨[], by simp⟩
  | cons l ls ih =>
    intro r r' h
    simp only [readLines] at h
    split at h
    · rename_i r1 h1
      obtain ⟨m1, e1⟩ := readLine_grows h1
      obtain ⟨m2, e2⟩ := ih h
      exact ⟨m1 ++ m2, by rw [e2, e1]; simp⟩
    · cases h
    · cases h

/-- A line with a good tag. -/
theorem readLine_tag (r : TVReader) (t w : Str) (hm : r.midtext = false) (ht : GoodTag t) :
    readLine r (t ++ ':' :: w) = match cut textOpen w with
      | none =>
        .ok { r with tvList := r.tvList ++ [⟨t, trimSpace w⟩], currentTag := [], currentValue := [] }
      | some (_, body) =>
        match cut textClose body with
        | some (inner, _) =>
          .ok { r with tvList := r.tvList ++ [⟨t, inner⟩], currentTag := [], currentValue := [] }
        | none => .ok { r with currentTag := t, currentValue := body ++ g!"\n", midtext := true } := by
  have hhead : trimLeft isSpace (t ++ ':' :: w) = t ++ ':' :: w := by
    rw [trimLeft_eq_self_iff]
    intro c u h
    cases t with
    | nil => simp at h; rw [← h.1]; decide
    | cons a t =>
      simp at h; rw [← h.1]
      exact (trim_eq_self_iff.1 ht.noOuterSpace).1 a t rfl
  have hne : t ++ ':' :: w ≠ [] := by simp
  have hnc : hasPrefix g!"#" (t ++ ':' :: w) = false := by
    cases t with
    | nil => simp [hasPrefix, List.isPrefixOf]
    | cons a t =>
      simp [hasPrefix, List.isPrefixOf]
      rintro rfl
      exact ht.notComment t rfl
  have hcut : cut g!":" (t ++ ':' :: w) = some (t, w) := cut_single ht.noColon
  unfold readLine
  simp only [hm, Bool.false_eq_true, if_false]
  unfold readLineReady
  simp only [hhead, hne, if_false, hnc, Bool.false_eq_true, hcut]
  rw [ht.noOuterSpace, hm]
  rfl

/-- The rest of a text block, whatever it contains: the first value completed is no longer than the
text, and if the text itself comes out then it was good. -/
theorem readLines_midtext_any (s : Str) (hs : dropCR s = s) (hn : '\n' ∉ s) (w : Str) :
    ∀ (r r' : TVReader), r.midtext = true →
    readLines r ((splitChar '\n' (w ++ s)).map dropCR) = .ok r' →
    (r'.midtext = true) ∨
    ∃ p more, r'.tvList = r.tvList ++ p :: more ∧
      p.value.length ≤ r.currentValue.length + w.length + s.length ∧
      (s = g!"</text>" → p.value.length ≤ r.currentValue.length + w.length ∧
        (r.currentValue.length + w.length ≤ p.value.length →
          p.value = r.currentValue ++ w ∧ contains g!"</text>" w = false ∧ contains g!"\r\n" w = false)) := by
  induction w using lines_induction with
  | h1 v hv =>
    intro r r' hm h
    rw [splitChar_of_not_mem (by simp [hv, hn])] at h
    simp only [List.map_cons, List.map_nil, readLines, readLine, hm, if_true, readLineMidtext] at h
    have hlen := dropCR_length (v ++ s)
    cases hc : cut textClose (dropCR (v ++ s)) with
    | none => rw [hc] at h; simp at h; subst h; exact .inl rfl
    | some x =>
      obtain ⟨inner, after⟩ := x
      rw [hc] at h
      simp at h
      subst h
      have he := cut_eq hc
      have hl := congrArg List.length he
      simp [textClose] at hl hlen
      refine .inr ⟨_, [], rfl, by simp; omega, ?_⟩
      rintro rfl
      rw [dropCR_close] at he
      simp at hl hlen ⊢
      have e1 : v ++ g!"</text>" = inner ++ g!"</text>" ++ after := he
      refine ⟨by omega, fun hle => ?_⟩
      have : after = [] := by
        have : after.length = 0 := by
          have := congrArg List.length e1
          simp at this; omega
        exact List.length_eq_zero_iff.1 this
      subst this
      have e2 : v = inner := by
        rw [List.append_nil] at e1
        exact List.append_cancel_right e1
      subst e2
      refine ⟨rfl, cut_first (by decide) hc, ?_⟩
      rw [contains_false_iff]
      rintro a b rfl
      simp at hv
  | h2 a b ha ih =>
    intro r r' hm h
    rw [show a ++ '\n' :: b ++ s = a ++ '\n' :: (b ++ s) by simp, splitChar_append, splitChar_of_not_mem ha] at h
    simp only [List.cons_append, List.nil_append, List.map_cons, readLines, readLine, hm, if_true,
      readLineMidtext] at h
    have hlen := dropCR_length a
    cases hc : cut textClose (dropCR a) with
    | none =>
      rw [hc] at h
      simp only at h
      rcases ih _ _ rfl h with h1 | ⟨p, more, e, hle, hcl⟩
      · exact .inl h1
      · refine .inr ⟨p, more, e, ?_, ?_⟩
        · simp at hle ⊢; omega
        · intro hs'
          obtain ⟨h1, h2⟩ := hcl hs'
          simp at h1 h2 ⊢
          refine ⟨by omega, fun hge => ?_⟩
          have hd : dropCR a = a := dropCR_eq_of_length (by omega)
          obtain ⟨e1, e2, e3⟩ := h2 (by omega)
          rw [hd] at e1 hc
          refine ⟨by rw [e1], ?_, ?_⟩
          · refine contains_sep (by decide) ?_ e2
            show (cut textClose a).isSome = false
            rw [hc]; rfl
          · exact contains_crlf ha (last_ne_of_dropCR hd) e3
    | some x =>
      obtain ⟨inner, after⟩ := x
      rw [hc] at h
      simp only at h
      obtain ⟨more, e⟩ := readLines_grows h
      have he := congrArg List.length (cut_eq hc)
      simp [textClose] at he
      refine .inr ⟨⟨r.currentTag, r.currentValue ++ inner⟩, more, by rw [e]; simp, ?_, ?_⟩
      · simp; omega
      · intro _; simp
        refine ⟨by omega, fun hge => by omega⟩

theorem readTagValues_lines {text : Str} (fit : LinesFit text) {ps : List TVPair}
    (h : readTagValues text = .ok ps) :
    ∃ r, readLines {} ((rawLines text).map dropCR) = .ok r ∧ r.midtext = false ∧ r.tvList = ps := by
  unfold readTagValues at h
  rw [scanLines_ok fit] at h
  simp only [Res.bind_ok, readTagValueLines] at h
  cases hr : readLines {} ((rawLines text).map dropCR) with
  | ok r =>
    rw [hr] at h
    simp only [Res.bind_ok, TVReader.finalize] at h
    split at h
    · cases h
    · rename_i hm
      exact ⟨r, rfl, by simpa using hm, by simpa using h⟩
  | err => rw [hr] at h; cases h
  | panic => rw [hr] at h; cases h

theorem rawLines_newline (x : Str) : rawLines (x ++ g!"\n") = splitChar '\n' x := by
  rw [show x ++ g!"\n" = x ++ '\n' :: [] by rfl, rawLines_append, rawLines_nil, List.append_nil]

/-- A one-line field comes back only if its value is good. -/
theorem good_of_read_one {t v : Str} (ht : GoodTag t) (hn : '\n' ∉ v)
    (fit : LinesFit (t ++ g!": " ++ v ++ g!"\n"))
    (h : readTagValues (t ++ g!": " ++ v ++ g!"\n") = .ok [⟨t, v⟩]) : OneLine v := by
  obtain ⟨r, h1, hm, hl⟩ := readTagValues_lines fit h
  have e : t ++ g!": " ++ v = t ++ (':' :: ' ' :: v) := by simp
  have hd : dropCR (t ++ (':' :: ' ' :: v)) = t ++ ':' :: dropCR (' ' :: v) := by
    rw [show t ++ (':' :: ' ' :: v) = (t ++ [':']) ++ (' ' :: v) by simp, dropCR_append _ _ (by simp)]
    simp
  rw [rawLines_newline, e, splitChar_of_not_mem (by simp [ht.oneLine, hn])] at h1
  simp only [List.map_cons, List.map_nil, hd, readLines] at h1
  rw [readLine_tag _ _ _ rfl ht] at h1
  have hlen := dropCR_length (' ' :: v)
  cases hc : cut textOpen (dropCR (' ' :: v)) with
  | none =>
    rw [hc] at h1
    simp at h1
    subst h1
    simp at hl
    have htrim : trimSpace v = v := by rw [← hl]; exact trim_trim _ _
    refine ⟨hn, htrim, ?_⟩
    have hdv : dropCR (' ' :: v) = ' ' :: v := by
      apply dropCR_of_last_ne
      intro u hu
      cases u with
      | nil => simp at hu
      | cons z u =>
        simp at hu
        have := (trim_eq_self_iff.1 htrim).2 '\r' u hu.2
        revert this; decide
    rw [hdv] at hc
    have : contains g!"<text>" (' ' :: v) = false := by
      show (cut textOpen (' ' :: v)).isSome = false
      rw [hc]; rfl
    exact contains_tail_false this
  | some x =>
    obtain ⟨pre, body⟩ := x
    have he := congrArg List.length (cut_eq hc)
    rw [hc] at h1
    simp only at h1
    cases hc2 : cut textClose body with
    | none =>
      rw [hc2] at h1
      simp at h1
      subst h1
      simp at hm
    | some y =>
      obtain ⟨inner, after⟩ := y
      have he2 := congrArg List.length (cut_eq hc2)
      rw [hc2] at h1
      simp at h1
      subst h1
      simp at hl
      subst hl
      simp [textOpen, textClose] at he he2 hlen
      omega

/-- A value with a line break printed without `<text>` does not come back. -/
theorem not_read_two_lines {t v : Str} (ht : GoodTag t) (hn : '\n' ∈ v)
    (fit : LinesFit (t ++ g!": " ++ v ++ g!"\n")) :
    readTagValues (t ++ g!": " ++ v ++ g!"\n") ≠ .ok [⟨t, v⟩] := by
  intro h
  obtain ⟨r, h1, hm, hl⟩ := readTagValues_lines fit h
  have hc := contains_single.2 hn
  unfold contains at hc
  obtain ⟨⟨a, b⟩, hab⟩ := Option.isSome_iff_exists.1 hc
  obtain ⟨rfl, hna⟩ := cut_single_eq.1 hab
  have e : t ++ g!": " ++ (a ++ '\n' :: b) = (t ++ (':' :: ' ' :: a)) ++ '\n' :: b := by simp
  have hd : dropCR (t ++ (':' :: ' ' :: a)) = t ++ ':' :: dropCR (' ' :: a) := by
    rw [show t ++ (':' :: ' ' :: a) = (t ++ [':']) ++ (' ' :: a) by simp, dropCR_append _ _ (by simp)]
    simp
  rw [rawLines_newline, e, splitChar_append, splitChar_of_not_mem (by simp [ht.oneLine, hna])] at h1
  simp only [List.cons_append, List.nil_append, List.map_cons, hd, readLines] at h1
  rw [readLine_tag _ _ _ rfl ht] at h1
  have hlen := dropCR_length (' ' :: a)
  have hnd : '\n' ∉ dropCR (' ' :: a) := fun hx => by
    have := dropCR_mem hx
    simp at this; exact hna this
  cases hc : cut textOpen (dropCR (' ' :: a)) with
  | none =>
    rw [hc] at h1
    simp only at h1
    obtain ⟨more, hg⟩ := readLines_grows h1
    rw [hl] at hg
    simp at hg
    have : '\n' ∈ trimSpace (dropCR (' ' :: a)) := by rw [← hg.1]; simp
    exact hnd (mem_of_mem_trim this)
  | some x =>
    obtain ⟨pre, body⟩ := x
    have hbody := cut_eq hc
    have he := congrArg List.length hbody
    rw [hc] at h1
    simp only at h1
    cases hc2 : cut textClose body with
    | some y =>
      obtain ⟨inner, after⟩ := y
      rw [hc2] at h1
      simp only at h1
      obtain ⟨more, hg⟩ := readLines_grows h1
      rw [hl] at hg
      simp at hg
      have : '\n' ∈ inner := by rw [← hg.1]; simp
      apply hnd
      rw [hbody, cut_eq hc2]; simp [this]
    | none =>
      rw [hc2] at h1
      simp only at h1
      rw [← List.append_nil b] at h1
      rcases readLines_midtext_any [] rfl (by simp) b _ _ rfl h1 with h2 | ⟨p, more, e2, hle, -⟩
      · rw [hm] at h2; cases h2
      · rw [hl] at e2
        simp at e2
        rw [← e2.1] at hle
        simp [textOpen] at he hle hlen
        omega

/-- A value with a line break comes back only if it is good. -/
theorem good_of_read_text {t v : Str} (ht : GoodTag t) (hn : '\n' ∈ v)
    (fit : LinesFit (t ++ g!": " ++ (g!"<text>" ++ v ++ g!"</text>") ++ g!"\n"))
    (h : readTagValues (t ++ g!": " ++ (g!"<text>" ++ v ++ g!"</text>") ++ g!"\n") = .ok [⟨t, v⟩]) :
    contains g!"</text>" v = false ∧ contains g!"\r\n" v = false := by
  obtain ⟨r, h1, hm, hl⟩ := readTagValues_lines fit h
  have hc := contains_single.2 hn
  unfold contains at hc
  obtain ⟨⟨a, b⟩, hab⟩ := Option.isSome_iff_exists.1 hc
  obtain ⟨rfl, hna⟩ := cut_single_eq.1 hab
  have e : t ++ g!": " ++ (g!"<text>" ++ (a ++ '\n' :: b) ++ g!"</text>") =
      (t ++ (':' :: (g!" <text>" ++ a))) ++ '\n' :: (b ++ g!"</text>") := by simp
  have hd : dropCR (t ++ (':' :: (g!" <text>" ++ a))) = t ++ ':' :: (g!" <text>" ++ dropCR a) := by
    by_cases ha : a = []
    · subst ha
      have : t ++ (':' :: (g!" <text>" ++ [])) = (t ++ g!": <text") ++ ['>'] := by simp
      rw [this, dropCR_append _ _ (by simp)]
      simp [dropCR]
    · rw [show t ++ (':' :: (g!" <text>" ++ a)) = (t ++ g!": <text>") ++ a by simp, dropCR_append _ _ ha]
      simp
  rw [rawLines_newline, e, splitChar_append, splitChar_of_not_mem (by simp [ht.oneLine, hna])] at h1
  simp only [List.cons_append, List.nil_append, List.map_cons] at h1
  rw [show t ++ ':' :: ' ' :: '<' :: 't' :: 'e' :: 'x' :: 't' :: '>' :: a = t ++ (':' :: (g!" <text>" ++ a)) from rfl,
    hd] at h1
  simp only [readLines] at h1
  rw [readLine_tag _ _ _ rfl ht] at h1
  have hcut : cut textOpen (g!" <text>" ++ dropCR a) = some (g!" ", dropCR a) :=
    cut_append_sep (c := '<') (t := g!"text>") (v := g!" ") (r := dropCR a) (by decide) (by decide)
  rw [hcut] at h1
  simp only at h1
  have hlen := dropCR_length a
  cases hc2 : cut textClose (dropCR a) with
  | some y =>
    obtain ⟨inner, after⟩ := y
    rw [hc2] at h1
    simp only at h1
    obtain ⟨more, hg⟩ := readLines_grows h1
    rw [hl] at hg
    simp at hg
    have : '\n' ∈ inner := by rw [← hg.1]; simp
    exfalso
    apply hna
    apply dropCR_mem
    rw [cut_eq hc2]; simp [this]
  | none =>
    rw [hc2] at h1
    simp only at h1
    rcases readLines_midtext_any g!"</text>" (by decide) (by decide) b _ _ rfl h1 with h2 | ⟨p, more, e2, -, hcl⟩
    · rw [hm] at h2; cases h2
    · rw [hl] at e2
      simp at e2
      obtain ⟨h3, h4⟩ := hcl rfl
      rw [← e2.1] at h3 h4
      simp at h3 h4
      have hda : dropCR a = a := dropCR_eq_of_length (by omega)
      obtain ⟨-, h5, h6⟩ := h4 (by omega)
      rw [hda] at hc2
      refine ⟨contains_sep (by decide) ?_ h5, contains_crlf hna (last_ne_of_dropCR hda) h6⟩
      show (cut textClose a).isSome = false
      rw [hc2]; rfl

end Verif
