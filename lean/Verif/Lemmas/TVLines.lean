import Verif.Lemmas.TVRead
import Verif.Lemmas.SectionFields
import Verif.Spec.TVLines

/-!
# The pairs that are read are those the text consists of
-/

namespace Verif
open Spec

/-! ## Lines -/

theorem dropCR_iff {raw line : Str} : LineText raw line ↔ dropCR raw = line := by
  constructor
  · rintro (rfl | ⟨rfl, h⟩)
    · simp [dropCR]
    · exact dropCR_of_last_ne h
  · intro h
    by_cases hr : ∃ t, raw = t ++ g!"\r"
    · obtain ⟨t, rfl⟩ := hr
      left
      have : dropCR (t ++ g!"\r") = t := by simp [dropCR]
      rw [← h, this]
    · have hn : ∀ t, raw ≠ t ++ g!"\r" := fun t e => hr ⟨t, e⟩
      rw [dropCR_of_last_ne hn] at h
      subst h
      exact Or.inr ⟨rfl, hn⟩

theorem rawLines_line {l rest : Str} (h : '\n' ∉ l) : rawLines (l ++ g!"\n" ++ rest) = l :: rawLines rest := by
  have : l ++ g!"\n" ++ rest = l ++ '\n' :: rest := by simp
  rw [this, rawLines_append, splitChar_of_not_mem h]; rfl

theorem rawLines_last {l : Str} (h : '\n' ∉ l) (hn : l ≠ []) : rawLines l = [l] := by
  unfold rawLines
  simp only [splitChar_of_not_mem h]
  rw [if_neg]
  simpa using hn

theorem rawLines_many {front : List Str} (rest : Str) (h : ∀ l ∈ front, '\n' ∉ l) :
    rawLines ((front.flatMap fun l => l ++ g!"\n") ++ rest) = front ++ rawLines rest := by
  induction front with
  | nil => rfl
  | cons l front ih =>
    rw [List.flatMap_cons, List.append_assoc, rawLines_line (h l (by simp)), ih fun l hl => h l (by simp [hl])]
    rfl

theorem rawLines_iff {text : Str} {raw : List Str} : rawLines text = raw ↔ (∀ l ∈ raw, '\n' ∉ l) ∧
    (text = (raw.flatMap fun l => l ++ g!"\n") ∨
     ∃ front last, raw = front ++ [last] ∧ last ≠ [] ∧ text = (front.flatMap fun l => l ++ g!"\n") ++ last) := by
  constructor
  · rintro rfl
    refine ⟨fun l hl => splitChar_mem_not_mem (mem_rawLines hl), ?_⟩
    refine lines_induction (P := fun text => text = ((rawLines text).flatMap fun l => l ++ g!"\n") ∨
      ∃ front last, rawLines text = front ++ [last] ∧ last ≠ [] ∧ text = (front.flatMap fun l => l ++ g!"\n") ++ last) ?_ ?_ text
    · intro v hv
      by_cases hn : v = []
      · subst hn; left; rw [rawLines_nil]; rfl
      · right
        rw [rawLines_last hv hn]
        exact ⟨[], v, rfl, hn, rfl⟩
    · intro a b ha ih
      have e : a ++ '\n' :: b = a ++ g!"\n" ++ b := by simp
      rw [e, rawLines_line ha]
      rcases ih with ih | ⟨front, last, h1, h2, h3⟩
      · left; rw [List.flatMap_cons, ← ih]
      · right
        refine ⟨a :: front, last, by rw [h1]; rfl, h2, ?_⟩
        rw [h3, List.flatMap_cons]; simp
  · rintro ⟨h, rfl | ⟨front, last, rfl, h2, rfl⟩⟩
    · have := rawLines_many [] h
      simpa [rawLines_nil] using this
    · rw [rawLines_many _ fun l hl => h l (by simp [hl]), rawLines_last (h last (by simp)) h2]

theorem pointwise_map_iff {α β : Type} {f : α → β} {l : List α} {m : List β} : Pointwise (fun a b => f a = b) l m ↔ l.map f = m := by
  constructor
  · intro h
    induction h with
    | nil => rfl
    | cons h1 _ ih => rw [List.map_cons, h1, ih]
  · rintro rfl
    induction l with
    | nil => exact .nil
    | cons a l ih => exact .cons rfl ih

theorem textLines_iff {text : Str} {ls : List Str} : scanLines text = .ok ls ↔ TextLines text ls := by
  have hp : ∀ raw : List Str, Pointwise LineText raw ls ↔ raw.map dropCR = ls := by
    intro raw
    rw [← pointwise_map_iff]
    have : LineText = fun a b => dropCR a = b := by funext a b; exact propext dropCR_iff
    rw [this]
  unfold TextLines
  simp only [hp]
  constructor
  · intro h
    unfold scanLines at h
    simp only at h
    split at h
    · rename_i hl
      simp only [Res.ok.injEq] at h
      obtain ⟨h1, h2⟩ := (rawLines_iff (text := text)).1 rfl
      refine ⟨rawLines text, fun l hm => ⟨h1 l hm, ?_⟩, h, h2⟩
      rw [List.all_eq_true] at hl
      exact of_decide_eq_true (hl l hm)
    · simp at h
  · rintro ⟨raw, h1, h2, h3⟩
    have e := (rawLines_iff (text := text)).2 ⟨fun l hl => (h1 l hl).1, h3⟩
    unfold scanLines
    simp only [e]
    rw [if_pos, h2]
    rw [List.all_eq_true]
    intro l hl
    exact decide_eq_true (h1 l hl).2

/-! ## One line -/

theorem fieldLine_iff {l tag rest : Str} : FieldLine l tag rest ↔ isComment l = false ∧
    ∃ t, cut g!":" l = some (t, rest) ∧ tag = trimSpace t := by
  refine and_congr Iff.rfl (exists_congr fun t => ?_)
  rw [cut_single_eq]
  constructor
  · rintro ⟨h1, h2, h3⟩; exact ⟨⟨by rw [h1]; simp, h2⟩, h3⟩
  · rintro ⟨⟨h1, h2⟩, h3⟩; exact ⟨by rw [h1]; simp, h2, h3⟩

theorem fieldLine_notBlank {l tag rest : Str} (h : FieldLine l tag rest) : isBlank l = false := by
  obtain ⟨-, t, rfl, -⟩ := h
  simp [isBlank, show isSpace ':' = false by decide]

theorem textOpened_iff {rest body : Str} : TextOpened rest body ↔ ∃ before, cut textOpen rest = some (before, body) := by
  refine exists_congr fun b => ?_
  constructor
  · rintro ⟨rfl, h⟩
    have := cut_append_sep (c := '<') (t := g!"text>") (v := b) (r := body) (by decide) (without_iff.2 h)
    simpa [textOpen] using this
  · intro h; exact ⟨cut_eq h, without_iff.1 (cut_first (by decide) h)⟩

theorem textClosed_iff {line inner : Str} : TextClosed line inner ↔ ∃ after, cut textClose line = some (inner, after) := by
  constructor
  · rintro ⟨h, a, rfl⟩
    have := cut_append_sep (c := '<') (t := g!"/text>") (v := inner) (r := a) (by decide) (without_iff.2 h)
    exact ⟨a, by simpa [textClose] using this⟩
  · rintro ⟨a, h⟩; exact ⟨without_iff.1 (cut_first (by decide) h), a, cut_eq h⟩

theorem without_cut {sep s : Str} : Without sep s ↔ cut sep s = none := by
  rw [← without_iff]
  constructor
  · exact cut_none_of_not_contains
  · intro h
    cases hc : contains sep s with
    | false => rfl
    | true => unfold contains at hc; rw [h] at hc; simp at hc

/-- A field line outside a block. -/
theorem readLine_fieldLine {r : TVReader} {l tag rest : Str} (hm : r.midtext = false) (h : FieldLine l tag rest) :
    readLine r l = match cut textOpen rest with
      | none => .ok { r with tvList := r.tvList ++ [⟨tag, trimSpace rest⟩], currentTag := [], currentValue := [] }
      | some (_, body) => match cut textClose body with
        | some (inner, _) => .ok { r with tvList := r.tvList ++ [⟨tag, inner⟩], currentTag := [], currentValue := [] }
        | none => .ok { r with currentTag := tag, currentValue := body ++ g!"\n", midtext := true } := by
  have hb := fieldLine_notBlank h
  obtain ⟨hc, t, ht, rfl⟩ := fieldLine_iff.1 h
  unfold readLine
  rw [if_neg (by simp [hm])]
  unfold readLineReady
  simp only [trimLeft_eq_nil_iff, hb, hash_iff_isComment, hc, Bool.false_eq_true, if_false, cut_colon_trimLeft, ht, Option.map_some]
  have e : trimSpace (trimLeft isSpace t) = trimSpace t := by
    unfold trimSpace trim
    congr 1
    exact trimLeft_eq_self_iff.2 (trimLeft_trimmed isSpace t)
  rw [e]
  rfl

/-- A line outside a block is blank, a comment, a field, or an error. -/
theorem line_cases (l : Str) : (isBlank l = true ∨ isComment l = true) ∨ (∃ tag rest, FieldLine l tag rest) ∨ Malformed l := by
  by_cases hb : isBlank l = true
  · exact Or.inl (Or.inl hb)
  · by_cases hc : isComment l = true
    · exact Or.inl (Or.inr hc)
    · right
      rw [Bool.not_eq_true] at hb hc
      by_cases hcol : ':' ∈ l
      · left
        have hx := contains_single.2 hcol
        cases hcut : cut g!":" l with
        | none => unfold contains at hx; rw [hcut] at hx; simp at hx
        | some x => exact ⟨_, x.2, fieldLine_iff.2 ⟨hc, x.1, hcut, rfl⟩⟩
      · exact Or.inr ⟨hb, hc, hcol⟩

/-! ## The lines of a text -/

theorem join_snoc (first : Str) (middle : List Str) (inner : Str) :
    join g!"\n" (first :: (middle ++ [inner])) = ((first :: middle).flatMap fun l => l ++ g!"\n") ++ inner := by
  induction middle generalizing first with
  | nil => simp [join]
  | cons m middle ih =>
    rw [List.cons_append, join, ih m]
    simp

theorem finalize_ok {r : TVReader} {ps : List TVPair} : r.finalize = .ok ps ↔ r.midtext = false ∧ r.tvList = ps := by
  unfold TVReader.finalize
  cases r.midtext <;> simp

/-- The lines of a block after the first one. -/
theorem readLines_midblock {r : TVReader} (hm : r.midtext = true) {middle : List Str} (h : ∀ m ∈ middle, Without g!"</text>" m)
    (ls : List Str) : readLines r (middle ++ ls) =
      readLines { r with currentValue := r.currentValue ++ middle.flatMap fun l => l ++ g!"\n" } ls := by
  induction middle generalizing r with
  | nil => simp
  | cons m middle ih =>
    have e : readLine r m = .ok { r with currentValue := r.currentValue ++ (m ++ g!"\n") } := by
      unfold readLine
      rw [if_pos hm]
      unfold readLineMidtext
      rw [show textClose = g!"</text>" from rfl, without_cut.1 (h m (by simp))]
    simp only [List.cons_append, readLines, e]
    rw [ih (r := { r with currentValue := r.currentValue ++ (m ++ g!"\n") }) hm fun x hx => h x (by simp [hx])]
    simp

theorem readLine_close {r : TVReader} (hm : r.midtext = true) {l inner : Str} (h : TextClosed l inner) :
    readLine r l = .ok { midtext := false, tvList := r.tvList ++ [⟨r.currentTag, r.currentValue ++ inner⟩], currentTag := [],
                         currentValue := [] } := by
  obtain ⟨a, h⟩ := textClosed_iff.1 h
  unfold readLine
  rw [if_pos hm]
  unfold readLineMidtext
  rw [h]

/-- What the lines say is read. -/
theorem readLines_said {ls : List Str} {ps : List TVPair} (h : LinesSay ls ps) : ∀ r : TVReader, r.midtext = false →
    ∃ r', readLines r ls = .ok r' ∧ r'.midtext = false ∧ r'.tvList = r.tvList ++ ps := by
  induction h with
  | done => intro r hm; exact ⟨r, rfl, hm, by simp⟩
  | skip h _ ih =>
    intro r hm
    obtain ⟨r', h1, h2, h3⟩ := ih r hm
    exact ⟨r', by simp only [readLines, readLine_skip r _ hm h, h1], h2, h3⟩
  | @plain l tag rest ls ps h hr _ ih =>
    intro r hm
    have e := readLine_fieldLine hm h
    rw [show textOpen = g!"<text>" from rfl, without_cut.1 hr] at e
    obtain ⟨r', h1, h2, h3⟩ := ih { r with tvList := r.tvList ++ [⟨tag, trimSpace rest⟩], currentTag := [], currentValue := [] } hm
    exact ⟨r', by simp only [readLines, e]; exact h1, h2, by rw [h3]; simp⟩
  | @quoted l tag rest body value ls ps h hr hb _ ih =>
    intro r hm
    have e := readLine_fieldLine hm h
    obtain ⟨b, hr⟩ := textOpened_iff.1 hr
    obtain ⟨a, hb⟩ := textClosed_iff.1 hb
    simp only [hr, hb] at e
    obtain ⟨r', h1, h2, h3⟩ := ih { r with tvList := r.tvList ++ [⟨tag, value⟩], currentTag := [], currentValue := [] } hm
    exact ⟨r', by simp only [readLines, e]; exact h1, h2, by rw [h3]; simp⟩
  | @block l tag rest first last inner middle ls ps h hr hf hmid hl _ ih =>
    intro r hm
    have e := readLine_fieldLine hm h
    obtain ⟨b, hr⟩ := textOpened_iff.1 hr
    simp only [hr, show textClose = g!"</text>" from rfl, without_cut.1 hf] at e
    simp only [readLines, e]
    rw [readLines_midblock rfl hmid]
    simp only [readLines]
    rw [readLine_close rfl hl]
    simp only
    obtain ⟨r', h1, h2, h3⟩ := ih { midtext := false, tvList := r.tvList ++ [⟨tag, (first ++ g!"\n" ++ middle.flatMap fun l => l ++ g!"\n") ++ inner⟩], currentTag := [], currentValue := [] } rfl
    refine ⟨r', h1, h2, ?_⟩
    rw [h3, join_snoc, List.flatMap_cons]
    simp

/-- What is read is what the lines say. -/
theorem said_readLines {ls : List Str} : ∀ (r r' : TVReader), readLines r ls = .ok r' → r'.midtext = false →
    (r.midtext = false → ∃ ps, r'.tvList = r.tvList ++ ps ∧ LinesSay ls ps) ∧
    (r.midtext = true → ∃ middle last inner rest ps, ls = middle ++ last :: rest ∧ (∀ m ∈ middle, Without g!"</text>" m) ∧
      TextClosed last inner ∧ LinesSay rest ps ∧
      r'.tvList = r.tvList ++ ⟨r.currentTag, r.currentValue ++ (middle.flatMap fun l => l ++ g!"\n") ++ inner⟩ :: ps) := by
  induction ls with
  | nil =>
    intro r r' h hm
    simp only [readLines, Res.ok.injEq] at h
    subst h
    exact ⟨fun _ => ⟨[], by simp, .done⟩, fun h => by rw [hm] at h; simp at h⟩
  | cons l ls ih =>
    intro r r' h hm
    constructor
    · intro hr
      rcases line_cases l with hs | ⟨tag, rest, hf⟩ | hbad
      · simp only [readLines, readLine_skip r _ hr hs] at h
        obtain ⟨ps, h1, h2⟩ := (ih r r' h hm).1 hr
        exact ⟨ps, h1, .skip hs h2⟩
      · simp only [readLines, readLine_fieldLine hr hf] at h
        cases ho : cut textOpen rest with
        | none =>
          simp only [ho] at h
          obtain ⟨ps, h1, h2⟩ := (ih _ r' h hm).1 (by exact hr)
          exact ⟨_, by rw [h1, List.append_assoc]; rfl, .plain hf (without_cut.2 ho) h2⟩
        | some x =>
          obtain ⟨b, body⟩ := x
          simp only [ho] at h
          cases hc : cut textClose body with
          | some y =>
            obtain ⟨inner, after⟩ := y
            simp only [hc] at h
            obtain ⟨ps, h1, h2⟩ := (ih _ r' h hm).1 (by exact hr)
            exact ⟨_, by rw [h1, List.append_assoc]; rfl,
              .quoted hf (textOpened_iff.2 ⟨b, ho⟩) (textClosed_iff.2 ⟨after, hc⟩) h2⟩
          | none =>
            simp only [hc] at h
            obtain ⟨middle, last, inner, tail, ps, rfl, h2, h3, h4, h5⟩ := (ih _ r' h hm).2 rfl
            refine ⟨⟨tag, join g!"\n" (body :: (middle ++ [inner]))⟩ :: ps, ?_,
              .block hf (textOpened_iff.2 ⟨b, ho⟩) (without_cut.2 hc) h2 h3 h4⟩
            rw [h5, join_snoc, List.flatMap_cons]
      · have := (readLine_err_iff r l).2 ⟨hr, hbad⟩
        simp [readLines, this] at h
    · intro hr
      cases hc : cut textClose l with
      | none =>
        have hw : Without g!"</text>" l := without_cut.2 hc
        have e : readLine r l = .ok { r with currentValue := r.currentValue ++ (l ++ g!"\n") } := by
          unfold readLine
          rw [if_pos hr]
          unfold readLineMidtext
          rw [hc]
        simp only [readLines, e] at h
        obtain ⟨middle, last, inner, tail, ps, rfl, h2, h3, h4, h5⟩ := (ih _ r' h hm).2 (by exact hr)
        refine ⟨l :: middle, last, inner, tail, ps, rfl, ?_, h3, h4, ?_⟩
        · intro m hmem
          rcases List.mem_cons.1 hmem with rfl | hmem
          · exact hw
          · exact h2 m hmem
        · rw [h5, List.flatMap_cons]; simp
      | some y =>
        obtain ⟨inner, after⟩ := y
        have hcl : TextClosed l inner := textClosed_iff.2 ⟨after, hc⟩
        simp only [readLines, readLine_close hr hcl] at h
        obtain ⟨ps, h1, h2⟩ := (ih _ r' h hm).1 rfl
        refine ⟨[], l, inner, ls, ps, rfl, by simp, hcl, h2, ?_⟩
        rw [h1]; simp

theorem lines_iff {ls : List Str} {ps : List TVPair} : readTagValueLines ls = .ok ps ↔ LinesSay ls ps := by
  unfold readTagValueLines
  rw [bind_eq_ok]
  simp only [finalize_ok]
  constructor
  · rintro ⟨r, h1, h2, rfl⟩
    obtain ⟨ps, h3, h4⟩ := (said_readLines {} r h1 h2).1 rfl
    rw [h3]; exact h4
  · intro h
    obtain ⟨r, h1, h2, h3⟩ := readLines_said h {} rfl
    exact ⟨r, h1, h2, by rw [h3]; rfl⟩

theorem pairs_iff {text : Str} {ps : List TVPair} : readTagValues text = .ok ps ↔ PairsOf text ps := by
  unfold readTagValues
  rw [bind_eq_ok]
  simp only [textLines_iff, lines_iff, PairsOf]

end Verif
