import Verif.Lemmas.Str
import Verif.Spec.TVFormat

/-!
# Lemmas about the tag-value line reader
-/

set_option linter.unusedSimpArgs false

namespace Verif
open Spec

theorem trimLeft_eq_nil_iff (l : Str) : trimLeft isSpace l = [] ↔ isBlank l = true := by
  unfold trimLeft isBlank
  induction l with
  | nil => simp
  | cons c l ih =>
    by_cases h : isSpace c = true
    · simp [h, List.dropWhile_cons, ih]
    · simp [h, List.dropWhile_cons]

theorem hash_iff_isComment (l : Str) : hasPrefix g!"#" (trimLeft isSpace l) = isComment l := by
  unfold isComment trimLeft
  cases List.dropWhile isSpace l with
  | nil => simp [hasPrefix, List.isPrefixOf]
  | cons c t =>
    simp [hasPrefix, List.isPrefixOf]
    by_cases h : c = '#'
    · subst h; simp
    · have h' : ¬ '#' = c := fun e => h e.symm
      simp [h, h']

theorem isComment_not_blank {l : Str} (h : isComment l = true) : isBlank l = false := by
  rw [← hash_iff_isComment] at h
  cases hb : isBlank l with
  | false => rfl
  | true => rw [(trimLeft_eq_nil_iff l).2 hb] at h; simp [hasPrefix, List.isPrefixOf] at h

/-- Cutting a line at its first colon before or after removing leading white space. -/
theorem cut_colon_trimLeft (l : Str) :
    cut g!":" (trimLeft isSpace l) = (cut g!":" l).map fun (a, b) => (trimLeft isSpace a, b) := by
  induction l with
  | nil => simp [trimLeft, cut]
  | cons c l ih =>
    by_cases h : isSpace c = true
    · have hc : ¬ ':' = c := by rintro rfl; revert h; decide
      have : trimLeft isSpace (c :: l) = trimLeft isSpace l := by simp [trimLeft, h]
      rw [this, ih]
      simp only [cut, cutPrefix, hc, if_false, Option.map_map]
      congr 1
      funext x
      simp [trimLeft, h]
    · have h' : isSpace c = false := by simpa using h
      rw [trimLeft_of_head h']
      simp only [cut, cutPrefix]
      by_cases hc : ':' = c
      · subst hc; simp [trimLeft]
      · simp only [hc, if_false, Option.map_map]
        congr 1
        funext x
        simp [trimLeft, h']

theorem readLine_midtext (r r' : TVReader) (l : Str) (h : readLine r l = .ok r') :
    r'.midtext = textStep r.midtext l := by
  unfold readLine at h
  unfold textStep
  split at h
  · rename_i hm
    simp only [hm, if_true]
    unfold readLineMidtext at h
    split at h
    · rename_i hc
      simp at h; subst h
      simp [hm, contains, textClose] at hc ⊢; simp [hc]
    · rename_i hc
      simp at h; subst h
      simp [contains, textClose] at hc ⊢; simp [hc]
  · rename_i hm
    have hm' : r.midtext = false := by simpa using hm
    simp only [hm', Bool.false_eq_true, if_false]
    unfold readLineReady at h
    simp only at h
    unfold opensText
    split at h
    · rename_i hb
      rw [trimLeft_eq_nil_iff] at hb
      simp at h; subst h; simp [hb, hm']
    · rename_i hb
      rw [trimLeft_eq_nil_iff] at hb
      split at h
      · rename_i hcm
        rw [hash_iff_isComment] at hcm
        simp at h; subst h; simp [hcm, hm']
      · rename_i hcm
        rw [hash_iff_isComment] at hcm
        rw [cut_colon_trimLeft] at h
        cases hcc : cut g!":" l with
        | none => simp [hcc] at h
        | some x =>
          obtain ⟨a, b⟩ := x
          simp only [hcc, Option.map_some] at h
          simp only [textOpen, textClose] at h
          have hb' : isBlank l = false := by simpa using hb
          have hcm' : isComment l = false := by simpa using hcm
          simp only [hb', hcm', Bool.not_false, Bool.true_and]
          cases ht : cut g!"<text>" b with
          | none => simp [ht] at h; subst h; simp [hm']
          | some y =>
            obtain ⟨c, body⟩ := y
            simp only [ht] at h
            cases hx : cut g!"</text>" body with
            | none => simp [hx] at h; subst h; simp [contains, hx]
            | some z => simp [hx] at h; subst h; simp [contains, hx, hm']

theorem readLine_err_iff (r : TVReader) (l : Str) :
    readLine r l = .err ↔ r.midtext = false ∧ Malformed l := by
  unfold readLine
  split
  · rename_i hm
    simp only [hm, Bool.true_eq_false, false_and, iff_false]
    unfold readLineMidtext
    split <;> simp
  · rename_i hm
    have hm' : r.midtext = false := by simpa using hm
    unfold readLineReady Malformed
    simp only
    split
    · rename_i hb
      rw [trimLeft_eq_nil_iff] at hb
      simp [hb]
    · rename_i hb
      rw [trimLeft_eq_nil_iff] at hb
      have hb' : isBlank l = false := by simpa using hb
      split
      · rename_i hcm
        rw [hash_iff_isComment] at hcm
        simp [hcm]
      · rename_i hcm
        rw [hash_iff_isComment] at hcm
        have hcm' : isComment l = false := by simpa using hcm
        rw [cut_colon_trimLeft]
        cases hcc : cut g!":" l with
        | none =>
          have : ':' ∉ l := by
            intro h
            have := contains_single.2 h
            simp [contains, hcc] at this
          simp [hm', hb', hcm', this]
        | some x =>
          have : ':' ∈ l := contains_single.1 (by simp [contains, hcc])
          simp only [Option.map_some, this, not_true_eq_false, and_false, iff_false]
          cases cut textOpen x.2 with
          | none => simp
          | some y =>
            simp only
            cases cut textClose y.2 <;> simp

theorem readLine_ne_panic (r : TVReader) (l : Str) : readLine r l ≠ .panic := by
  unfold readLine
  split
  · unfold readLineMidtext; split <;> simp
  · unfold readLineReady
    simp only
    split
    · simp
    · split
      · simp
      · split
        · simp
        · split
          · simp
          · split <;> simp

theorem readLines_ne_panic (r : TVReader) (ls : List Str) : readLines r ls ≠ .panic := by
  induction ls generalizing r with
  | nil => simp [readLines]
  | cons l ls ih =>
    simp only [readLines]
    cases h : readLine r l with
    | ok r' => exact ih r'
    | err => simp
    | panic => exact absurd h (readLine_ne_panic r l)

theorem readLines_append (r : TVReader) (a b : List Str) :
    readLines r (a ++ b) = (readLines r a >>= fun r' => readLines r' b) := by
  induction a generalizing r with
  | nil => simp [readLines]
  | cons l a ih =>
    simp only [List.cons_append, readLines]
    cases readLine r l with
    | ok r' => exact ih r'
    | err => rfl
    | panic => rfl

theorem readLines_midtext (r r' : TVReader) (ls : List Str) (h : readLines r ls = .ok r') :
    r'.midtext = ls.foldl textStep r.midtext := by
  induction ls generalizing r with
  | nil => simp [readLines] at h; simp [h]
  | cons l ls ih =>
    simp only [readLines] at h
    cases h1 : readLine r l with
    | ok r1 =>
      rw [h1] at h
      simp only [List.foldl_cons]
      rw [ih r1 h, readLine_midtext r r1 l h1]
    | err => simp [h1] at h
    | panic => simp [h1] at h

theorem readLines_err_iff (r : TVReader) (ls : List Str) :
    readLines r ls = .err ↔ ∃ pre l post, ls = pre ++ l :: post ∧
      pre.foldl textStep r.midtext = false ∧ Malformed l := by
  induction ls generalizing r with
  | nil => simp [readLines]
  | cons l ls ih =>
    simp only [readLines]
    cases h1 : readLine r l with
    | panic => exact absurd h1 (readLine_ne_panic r l)
    | err =>
      simp only [true_iff]
      have := (readLine_err_iff r l).1 h1
      exact ⟨[], l, ls, rfl, this.1, this.2⟩
    | ok r1 =>
      simp only
      rw [ih r1]
      have hm := readLine_midtext r r1 l h1
      constructor
      · rintro ⟨pre, x, post, rfl, hp, hx⟩
        exact ⟨l :: pre, x, post, rfl, by simpa [← hm] using hp, hx⟩
      · rintro ⟨pre, x, post, heq, hp, hx⟩
        cases pre with
        | nil =>
          simp only [List.nil_append, List.cons.injEq] at heq
          obtain ⟨rfl, rfl⟩ := heq
          have := (readLine_err_iff r l).2 ⟨hp, hx⟩
          rw [h1] at this; simp at this
        | cons y pre =>
          simp only [List.cons_append, List.cons.injEq] at heq
          obtain ⟨rfl, rfl⟩ := heq
          exact ⟨pre, x, post, rfl, by simpa [hm] using hp, hx⟩

/-- A blank or comment line outside a text block does nothing. -/
theorem readLine_skip (r : TVReader) (l : Str) (hm : r.midtext = false)
    (h : isBlank l = true ∨ isComment l = true) : readLine r l = .ok r := by
  unfold readLine
  simp only [hm, Bool.false_eq_true, if_false]
  unfold readLineReady
  simp only
  rcases h with h | h
  · rw [(trimLeft_eq_nil_iff l).2 h]; simp
  · rw [hash_iff_isComment, h]; simp

theorem isSpace_newline_not_hash : isSpace '#' = false := by decide

/-- Reading one one-line field. -/
theorem readLine_field (r : TVReader) (t v : Str) (hm : r.midtext = false)
    (hct : r.currentTag = []) (hcv : r.currentValue = []) (ht : GoodTag t)
    (hv : trimSpace v = v) (hx : contains g!"<text>" v = false) :
    readLine r (t ++ g!": " ++ v) = .ok { r with tvList := r.tvList ++ [⟨t, v⟩] } := by
  have hhead : trimLeft isSpace (t ++ g!": " ++ v) = t ++ g!": " ++ v := by
    rw [trimLeft_eq_self_iff]
    intro c u h
    cases t with
    | nil => simp at h; rw [← h.1]; decide
    | cons a t =>
      simp at h; rw [← h.1]
      exact (trim_eq_self_iff.1 ht.noOuterSpace).1 a t rfl
  have hne : t ++ g!": " ++ v ≠ [] := by simp
  have hnc : hasPrefix g!"#" (t ++ g!": " ++ v) = false := by
    cases t with
    | nil => simp [hasPrefix, List.isPrefixOf]
    | cons a t =>
      simp [hasPrefix, List.isPrefixOf]
      rintro rfl
      exact ht.notComment t rfl
  have hcut : cut g!":" (t ++ g!": " ++ v) = some (t, ' ' :: v) := by
    have := cut_single (c := ':') (a := t) (b := ' ' :: v) ht.noColon
    simpa using this
  have hcut2 : cut textOpen (' ' :: v) = none := by
    apply cut_none_of_not_contains
    rw [contains_false_iff] at hx ⊢
    intro a b h
    cases a with
    | nil => simp [textOpen] at h
    | cons x a => simp at h; exact hx a b (by simpa [textOpen] using h.2)
  unfold readLine
  simp only [hm, Bool.false_eq_true, if_false]
  unfold readLineReady
  simp only [hhead, hne, if_false, hnc, Bool.false_eq_true, hcut, hcut2]
  rw [ht.noOuterSpace, trimSpace_pad_left (trim_eq_self_iff.1 hv)]
  simp [hct, hcv, hm]

/-- Induction over the lines of a text. -/
theorem lines_induction {P : Str → Prop} (h1 : ∀ v, '\n' ∉ v → P v)
    (h2 : ∀ a b, '\n' ∉ a → P b → P (a ++ '\n' :: b)) (v : Str) : P v := by
  by_cases h : '\n' ∈ v
  · have hc := contains_single.2 h
    unfold contains at hc
    obtain ⟨⟨a, b⟩, hab⟩ := Option.isSome_iff_exists.1 hc
    obtain ⟨rfl, hna⟩ := cut_single_eq.1 hab
    exact h2 a b hna (lines_induction h1 h2 b)
  · exact h1 v h
termination_by v.length

theorem contains_append_left_false {sub a b : Str} (h : contains sub (a ++ b) = false) :
    contains sub a = false := by
  rw [contains_false_iff] at h ⊢
  rintro x y rfl
  exact h x (y ++ b) (by simp)

theorem contains_append_right_false {sub a b : Str} (h : contains sub (a ++ b) = false) :
    contains sub b = false := by
  rw [contains_false_iff] at h ⊢
  rintro x y rfl
  exact h (a ++ x) y (by simp)

theorem dropCR_before_newline {pre a b : Str} (hpre : ∀ c t, pre = t ++ [c] → c ≠ '\r')
    (h : contains g!"\r\n" (a ++ '\n' :: b) = false) : dropCR (pre ++ a) = pre ++ a := by
  apply dropCR_of_last_ne
  intro t ht
  rcases List.eq_nil_or_concat a with rfl | ⟨a', c, rfl⟩
  · simp at ht
    exact hpre '\r' t ht rfl
  · rw [List.concat_eq_append, ← List.append_assoc] at ht
    have := (List.append_inj' ht rfl).2
    simp at this
    subst this
    rw [contains_false_iff] at h
    exact h a' b (by simp)

theorem dropCR_close (a : Str) : dropCR (a ++ g!"</text>") = a ++ g!"</text>" := by
  apply dropCR_of_last_ne
  intro t ht
  have : a ++ g!"</text>" = (a ++ g!"</text") ++ ['>'] := by simp
  rw [this] at ht
  have := (List.append_inj' ht rfl).2
  simp at this

/-- Reading the remaining lines of an open text block. -/
theorem readLines_block (v : Str) : ∀ (r : TVReader), r.midtext = true →
    contains g!"</text>" v = false → contains g!"\r\n" v = false →
    readLines r ((splitChar '\n' (v ++ g!"</text>")).map dropCR) =
      .ok { midtext := false, tvList := r.tvList ++ [⟨r.currentTag, r.currentValue ++ v⟩],
            currentTag := [], currentValue := [] } := by
  induction v using lines_induction with
  | h1 v hv =>
    intro r hm hc _
    have hn : '\n' ∉ v ++ g!"</text>" := by simp [hv]
    rw [splitChar_of_not_mem hn]
    simp only [List.map_cons, List.map_nil, dropCR_close, readLines, readLine, hm, if_true,
      readLineMidtext]
    have := cut_append_sep (c := '<') (t := g!"/text>") (v := v) (r := []) (by decide) hc
    rw [List.append_nil] at this
    simp only [textClose, this]
  | h2 a b ha ih =>
    intro r hm hc hcr
    have : a ++ '\n' :: b ++ g!"</text>" = a ++ '\n' :: (b ++ g!"</text>") := by simp
    rw [this, splitChar_append, splitChar_of_not_mem ha]
    have hca : contains g!"</text>" a = false := contains_append_left_false hc
    have hcb : contains g!"</text>" b = false := by
      rw [show a ++ '\n' :: b = (a ++ ['\n']) ++ b by simp] at hc
      exact contains_append_right_false hc
    have hcrb : contains g!"\r\n" b = false := by
      rw [show a ++ '\n' :: b = (a ++ ['\n']) ++ b by simp] at hcr
      exact contains_append_right_false hcr
    have hd : dropCR a = a := by
      have := dropCR_before_newline (pre := []) (a := a) (b := b) (by simp) hcr
      simpa using this
    simp only [List.cons_append, List.nil_append, List.map_cons, hd, readLines, readLine, hm, if_true,
      readLineMidtext, textClose, cut_none_of_not_contains hca]
    rw [ih _ rfl hcb hcrb]
    simp

/-- Reading one written field. -/
theorem readLines_fieldText (r : TVReader) (p : TVPair) (hm : r.midtext = false)
    (hct : r.currentTag = []) (hcv : r.currentValue = []) (ht : GoodTag p.tag) (hv : GoodValue p.value) :
    readLines r ((rawLines (fieldText p)).map dropCR) = .ok { r with tvList := r.tvList ++ [p] } := by
  obtain ⟨t, v⟩ := p
  simp only at ht hv
  unfold GoodValue at hv
  have hraw : ∀ x : Str, rawLines (x ++ g!"\n") = splitChar '\n' x := by
    intro x
    rw [show x ++ g!"\n" = x ++ '\n' :: [] by rfl, rawLines_append, rawLines_nil, List.append_nil]
  unfold fieldText
  rw [hraw]
  by_cases hnl : '\n' ∈ v
  · simp only [hnl, if_true] at hv ⊢
    have hc := contains_single.2 hnl
    unfold contains at hc
    obtain ⟨⟨a, b⟩, hab⟩ := Option.isSome_iff_exists.1 hc
    obtain ⟨rfl, hna⟩ := cut_single_eq.1 hab
    have e : t ++ g!": " ++ (g!"<text>" ++ (a ++ '\n' :: b) ++ g!"</text>") =
        (t ++ g!": <text>" ++ a) ++ '\n' :: (b ++ g!"</text>") := by simp
    rw [e, splitChar_append]
    have hn1 : '\n' ∉ t ++ g!": <text>" ++ a := by
      simp [ht.oneLine, hna]
    rw [splitChar_of_not_mem hn1]
    have hca : contains g!"</text>" a = false := contains_append_left_false hv.1
    have hcb : contains g!"</text>" b = false := by
      have := hv.1
      rw [show a ++ '\n' :: b = (a ++ ['\n']) ++ b by simp] at this
      exact contains_append_right_false this
    have hcrb : contains g!"\r\n" b = false := by
      have := hv.2
      rw [show a ++ '\n' :: b = (a ++ ['\n']) ++ b by simp] at this
      exact contains_append_right_false this
    have hd : dropCR (t ++ g!": <text>" ++ a) = t ++ g!": <text>" ++ a := by
      refine dropCR_before_newline (b := b) ?_ hv.2
      intro c u h
      have h2 : t ++ g!": <text>" = (t ++ g!": <text") ++ ['>'] := by simp
      rw [h2] at h
      have := (List.append_inj' h rfl).2
      simp at this
      subst this; decide
    simp only [List.cons_append, List.nil_append, List.map_cons, hd, readLines]
    have hline : readLine r (t ++ g!": <text>" ++ a) =
        .ok { r with currentTag := t, currentValue := a ++ g!"\n", midtext := true } := by
      have hhead : trimLeft isSpace (t ++ g!": <text>" ++ a) = t ++ g!": <text>" ++ a := by
        rw [trimLeft_eq_self_iff]
        intro c u h
        cases t with
        | nil => simp at h; rw [← h.1]; decide
        | cons x t =>
          simp at h; rw [← h.1]
          exact (trim_eq_self_iff.1 ht.noOuterSpace).1 x t rfl
      have hne : t ++ g!": <text>" ++ a ≠ [] := by simp
      have hnc : hasPrefix g!"#" (t ++ g!": <text>" ++ a) = false := by
        cases t with
        | nil => simp [hasPrefix, List.isPrefixOf]
        | cons x t =>
          simp [hasPrefix, List.isPrefixOf]
          rintro rfl
          exact ht.notComment t rfl
      have hcut : cut g!":" (t ++ g!": <text>" ++ a) = some (t, g!" <text>" ++ a) := by
        have := cut_single (c := ':') (a := t) (b := g!" <text>" ++ a) ht.noColon
        simpa using this
      have hcut2 : cut textOpen (g!" <text>" ++ a) = some (g!" ", a) := by
        have := cut_append_sep (c := '<') (t := g!"text>") (v := g!" ") (r := a) (by decide) (by decide)
        exact this
      have hcut3 : cut textClose a = none := cut_none_of_not_contains hca
      unfold readLine
      simp only [hm, Bool.false_eq_true, if_false]
      unfold readLineReady
      simp only [hhead, hne, if_false, hnc, Bool.false_eq_true, hcut, hcut2, hcut3]
      rw [ht.noOuterSpace]
    rw [hline]
    simp only
    rw [readLines_block b _ rfl hcb hcrb]
    simp [hm, hct, hcv]
  · simp only [hnl, if_false] at hv ⊢
    have hn1 : '\n' ∉ t ++ g!": " ++ v := by simp [ht.oneLine, hnl]
    rw [splitChar_of_not_mem hn1]
    have hd : dropCR (t ++ g!": " ++ v) = t ++ g!": " ++ v := by
      apply dropCR_of_last_ne
      intro u hu
      rcases List.eq_nil_or_concat v with rfl | ⟨v', c, rfl⟩
      · have h2 : t ++ g!": " ++ [] = (t ++ g!":") ++ [' '] := by simp
        rw [h2] at hu
        have := (List.append_inj' hu rfl).2
        simp at this
      · rw [List.concat_eq_append, ← List.append_assoc] at hu
        have h3 := (List.append_inj' hu rfl).2
        simp at h3
        have := (trim_eq_self_iff.1 hv.1).2 c v' (by simp)
        rw [h3] at this
        revert this; decide
    simp only [List.map_cons, List.map_nil, hd, readLines]
    rw [readLine_field r t v hm hct hcv ht hv.1 hv.2]

/-- Lines of a text that starts with complete lines. -/
theorem rawLines_complete (x y : Str) : rawLines (x ++ g!"\n" ++ y) = rawLines (x ++ g!"\n") ++ rawLines y := by
  have h1 : x ++ g!"\n" ++ y = x ++ '\n' :: y := by simp
  have h2 : x ++ g!"\n" = x ++ '\n' :: [] := rfl
  rw [h1, h2, rawLines_append, rawLines_append, rawLines_nil, List.append_nil]

theorem rawLines_fieldText_append (p : TVPair) (y : Str) :
    rawLines (fieldText p ++ y) = rawLines (fieldText p) ++ rawLines y := by
  unfold fieldText
  exact rawLines_complete _ y

theorem readLines_fields (ps : List TVPair) (h : ∀ p ∈ ps, GoodTag p.tag ∧ GoodValue p.value)
    (r : TVReader) (hm : r.midtext = false) (hct : r.currentTag = []) (hcv : r.currentValue = []) :
    readLines r ((rawLines (ps.flatMap fieldText)).map dropCR) = .ok { r with tvList := r.tvList ++ ps } := by
  induction ps generalizing r with
  | nil => simp [rawLines_nil, readLines]
  | cons p ps ih =>
    rw [List.flatMap_cons, rawLines_fieldText_append, List.map_append, readLines_append,
      readLines_fieldText r p hm hct hcv (h p (by simp)).1 (h p (by simp)).2]
    simp only [Res.bind_ok]
    rw [ih (fun q hq => h q (by simp [hq])) { r with tvList := r.tvList ++ [p] } hm hct hcv]
    simp

theorem scanLines_ok {text : Str} (h : LinesFit text) : scanLines text = .ok ((rawLines text).map dropCR) := by
  unfold scanLines
  have : (rawLines text).all (fun l => byteLen l < maxScanToken) = true := by
    rw [List.all_eq_true]
    intro l hl
    have := h l (mem_rawLines hl)
    exact decide_eq_true this
  simp [this]

end Verif
