import Verif.Model.IdSearcher
import Verif.Spec.IdSearcher
import Verif.Spec.SameDoc
import Verif.Lemmas.Map
import Verif.Lemmas.Str

/-!
# C30, C31, C32: short-form identifiers
-/

namespace Verif
open Spec

/-! ## Text -/

theorem cut_least (sep : Str) : ∀ (s a b : Str), cut sep s = some (a, b) → ∀ a' b', s = a' ++ sep ++ b' →
    a.length ≤ a'.length := by
  intro s
  induction s with
  | nil =>
    intro a b h a' b' e
    unfold cut at h
    split at h
    · simp only [Option.some.injEq, Prod.mk.injEq] at h; simp [← h.1]
    · cases h
  | cons c t ih =>
    intro a b h a' b' e
    unfold cut at h
    cases hp : cutPrefix sep (c :: t) with
    | some r =>
      rw [hp] at h
      simp only [Option.some.injEq, Prod.mk.injEq] at h
      simp [← h.1]
    | none =>
      rw [hp] at h
      cases hc : cut sep t with
      | none => rw [hc] at h; simp at h
      | some x =>
        obtain ⟨a0, b0⟩ := x
        rw [hc] at h
        simp only [Option.map_some, Option.some.injEq, Prod.mk.injEq] at h
        obtain ⟨rfl, rfl⟩ := h
        cases a' with
        | nil =>
          rw [List.nil_append] at e
          exact absurd e (cutPrefix_eq_none.1 hp b')
        | cons y a' =>
          simp only [List.cons_append, List.cons.injEq] at e
          have := ih a0 b0 hc a' b' (by simpa using e.2)
          simp only [List.length_cons]
          omega

theorem cut_iff_first {sep s a b : Str} : cut sep s = some (a, b) ↔ FirstAt sep s a b := by
  constructor
  · intro h
    exact ⟨cut_eq h, cut_least sep s a b h⟩
  · rintro ⟨e, hl⟩
    have : (cut sep s).isSome = true := by rw [e]; exact cut_isSome_append sep a b
    obtain ⟨⟨a', b'⟩, hc⟩ := Option.isSome_iff_exists.1 this
    have e' := cut_eq hc
    have h1 := cut_least sep s a' b' hc a b e
    have h2 := hl a' b' e'
    have hlen : a.length = a'.length := by omega
    rw [e, List.append_assoc, List.append_assoc] at e'
    obtain ⟨rfl, e2⟩ := List.append_inj e' hlen
    have := List.append_cancel_left e2
    subst this
    exact hc

theorem stripped_iff {w x : Str} : Stripped w x ↔ x = trimSpace w := by
  constructor
  · rintro ⟨l, r, rfl, hs, h1, h2⟩
    exact (trim_pad (fun c hc => hs c (by simp [hc])) (fun c hc => hs c (by simp [hc])) ⟨h1, h2⟩).symm
  · rintro rfl
    obtain ⟨l, hl, hl'⟩ := trimLeft_suffix isSpace w
    obtain ⟨r, hr, hr'⟩ := trimRight_prefix isSpace (trimLeft isSpace w)
    refine ⟨l, r, ?_, ?_, (trim_trimmed isSpace w).1, (trim_trimmed isSpace w).2⟩
    · calc w = l ++ trimLeft isSpace w := hl
        _ = l ++ (trimRight isSpace (trimLeft isSpace w) ++ r) := by rw [← hr]
        _ = l ++ trimSpace w ++ r := by simp [trimSpace, trim]
    · intro c hc
      rcases List.mem_append.1 hc with h | h
      · exact hl' c h
      · exact hr' c h

theorem mem_splitChar_iff {d : Char} {s w : Str} : w ∈ splitChar d s ↔
    ∃ a b, s = a ++ w ++ b ∧ d ∉ w ∧ (a = [] ∨ ∃ x, a = x ++ [d]) ∧ (b = [] ∨ ∃ y, b = d :: y) := by
  constructor
  · intro h
    have hd := splitChar_mem_not_mem h
    obtain ⟨p, q, e⟩ := List.append_of_mem h
    have hj := join_splitChar d s
    rw [e] at hj
    have jcons : ∀ (x : Str) (l : List Str), join [d] (x :: l) = x ++ (if l = [] then [] else d :: join [d] l) := by
      intro x l; cases l <;> simp [join]
    have japp : ∀ (l m : List Str), m ≠ [] → join [d] (l ++ m) = (if l = [] then [] else join [d] l ++ [d]) ++ join [d] m := by
      intro l m hm
      induction l with
      | nil => simp
      | cons x l ih =>
        rw [List.cons_append, jcons, jcons, if_neg (by simp [hm]), ih]
        cases l <;> simp
    rw [japp p _ (by simp), jcons] at hj
    refine ⟨_, _, by rw [← List.append_assoc] at hj; exact hj.symm, hd, ?_, ?_⟩
    · split
      · exact .inl rfl
      · exact .inr ⟨_, rfl⟩
    · split
      · exact .inl rfl
      · exact .inr ⟨_, rfl⟩
  · rintro ⟨a, b, rfl, hd, ha, hb⟩
    have step : w ∈ splitChar d (w ++ b) := by
      rcases hb with rfl | ⟨y, rfl⟩
      · rw [List.append_nil, splitChar_of_not_mem hd]; simp
      · rw [splitChar_append, splitChar_of_not_mem hd]; simp
    rcases ha with rfl | ⟨x, rfl⟩
    · simpa using step
    · rw [show x ++ [d] ++ w ++ b = x ++ d :: (w ++ b) by simp, splitChar_append]
      exact List.mem_append.2 (.inr step)

/-! ## C30 -/

/-- The three replacements. -/
def unbreak (c : Char) : Char := if c = '(' ∨ c = ')' ∨ c = '+' then ' ' else c

theorem replace_eq (s : Str) : replaceChar '+' ' ' (replaceChar ')' ' ' (replaceChar '(' ' ' s)) = s.map unbreak := by
  simp only [replaceChar, List.map_map]
  congr 1
  funext c
  simp only [Function.comp, unbreak]
  by_cases h1 : c = '('
  · subst h1; decide
  · by_cases h2 : c = ')'
    · subst h2; decide
    · by_cases h3 : c = '+'
      · subst h3; decide
      · simp [h1, h2, h3]

theorem unbreak_space {c : Char} : unbreak c = ' ' ↔ IsBreak c := by
  unfold unbreak IsBreak
  split
  · next h => simp [h]
  · next h => simp only [not_or] at h; simp [h]

theorem unbreak_of_not {c : Char} (h : ¬ IsBreak c) : unbreak c = c := by
  simp only [IsBreak, not_or] at h
  simp [unbreak, h]

theorem mem_split_iff (s w : Str) : w ∈ splitChar ' ' (s.map unbreak) ↔ Chunk s w := by
  rw [mem_splitChar_iff]
  constructor
  · rintro ⟨a, b, e, hw, ha, hb⟩
    obtain ⟨ab, b0, rfl, e1, rfl⟩ := List.map_eq_append_iff.1 e
    obtain ⟨a0, w0, rfl, rfl, rfl⟩ := List.map_eq_append_iff.1 e1
    have hw0 : ∀ c ∈ w0, ¬ IsBreak c := fun c hc hb => hw (List.mem_map.2 ⟨c, hc, unbreak_space.2 hb⟩)
    have : w0.map unbreak = w0 := by
      conv => rhs; rw [← List.map_id w0]
      exact List.map_congr_left fun c hc => unbreak_of_not (hw0 c hc)
    rw [this]
    refine ⟨a0, b0, rfl, hw0, ?_, ?_⟩
    · rcases ha with h | ⟨x, h⟩
      · exact .inl (by simpa using h)
      · obtain ⟨x0, c0, rfl, -, h2⟩ := List.map_eq_append_iff.1 h
        obtain ⟨c, t, rfl, hc, ht⟩ := List.map_eq_cons_iff.1 h2
        have : t = [] := by simpa using ht
        subst this
        exact .inr ⟨x0, c, rfl, unbreak_space.1 hc⟩
    · rcases hb with h | ⟨y, h⟩
      · exact .inl (by simpa using h)
      · obtain ⟨c, t, rfl, hc, -⟩ := List.map_eq_cons_iff.1 h
        exact .inr ⟨c, t, rfl, unbreak_space.1 hc⟩
  · rintro ⟨a, b, rfl, hw, ha, hb⟩
    have : w.map unbreak = w := by
      conv => rhs; rw [← List.map_id w]
      exact List.map_congr_left fun c hc => unbreak_of_not (hw c hc)
    refine ⟨a.map unbreak, b.map unbreak, by simp [this], fun h => hw _ h (.inl rfl), ?_, ?_⟩
    · rcases ha with rfl | ⟨x, c, rfl, hc⟩
      · exact .inl rfl
      · exact .inr ⟨x.map unbreak, by simp [unbreak_space.2 hc]⟩
    · rcases hb with rfl | ⟨c, y, rfl, hc⟩
      · exact .inl rfl
      · exact .inr ⟨y.map unbreak, by simp [unbreak_space.2 hc]⟩

theorem skip_iff (x : Str) : skipElement x = false ↔ x ≠ [] ∧ ¬ IsOperator x := by
  simp [skipElement, equalFold, IsOperator, and_assoc]

/-- **C30.** The individual licenses of an expression are exactly its words that are not operators, without
white space around them, in order. -/
theorem C30_individual (so : Sorter) (lic : Str) :
    SortedBy id (getIndividualLicenses so lic) ∧ ∀ x, x ∈ getIndividualLicenses so lic ↔ Names lic x := by
  refine ⟨so.sorted id _, fun x => ?_⟩
  simp only [getIndividualLicenses, so.mem, replace_eq, List.mem_filter, List.mem_map, mem_split_iff, Names,
    Bool.not_eq_true', skip_iff, stripped_iff]
  constructor
  · rintro ⟨⟨w, h1, h2⟩, h3⟩; exact ⟨w, h1, h2.symm, h3⟩
  · rintro ⟨w, h1, h2, h3⟩; exact ⟨⟨w, h1, h2.symm⟩, h3⟩

/-- **C30.** They contain no parenthesis, plus or space. -/
theorem C30_no_breaks (so : Sorter) (lic x : Str) (h : x ∈ getIndividualLicenses so lic) :
    x ≠ [] ∧ ¬ IsOperator x ∧ ∀ c ∈ x, ¬ IsBreak c := by
  obtain ⟨w, ⟨a, b, -, hw, -, -⟩, ⟨l, r, rfl, -⟩, h1, h2⟩ := ((C30_individual so lic).2 x).1 h
  exact ⟨h1, h2, fun c hc => hw c (by simp [hc])⟩

example : getIndividualLicenses insertionSorter g!"(MIT and GPL-2.0+) OR BSD WITH x" =
    [g!"BSD", g!"GPL-2.0", g!"MIT", g!"x"] := by decide +kernel

example : Names g!"(MIT and GPL-2.0+) OR BSD" g!"GPL-2.0" :=
  ((C30_individual insertionSorter _).2 _).1 (by decide +kernel)

/-- Repeated names are listed repeatedly. -/
theorem C30_repetition_false : getIndividualLicenses insertionSorter g!"MIT OR MIT" = [g!"MIT", g!"MIT"] := by decide +kernel

/-- Only the space character separates: with tabs the whole expression is one name. -/
theorem C30_tab_false : getIndividualLicenses insertionSorter g!"MIT\tOR\tBSD" = [g!"MIT\tOR\tBSD"] := by decide +kernel

/-! ## C31 -/

theorem atom_of_plain {s : Str} {e : Expr} (h : Reads .or s e) (h1 : contains g!" AND " s = false)
    (h2 : contains g!" OR " s = false) : Reads .atom s e := by
  cases h with
  | or h3 h4 => exact absurd rfl (contains_false_iff.1 h2 _ _)
  | or1 h3 =>
    cases h3 with
    | and h3 h4 => exact absurd rfl (contains_false_iff.1 h1 _ _)
    | and1 h3 => exact h3

theorem makeElement_reads {s : Str} {e : Expr} (h : Reads .or s e) : Reads .atom (makeElement s) e := by
  unfold makeElement
  split
  · exact .paren h
  · next hn =>
    simp only [Bool.or_eq_true, not_or, Bool.not_eq_true] at hn
    exact atom_of_plain h hn.1 hn.2

/-- **C31.** The conjunction of several license expressions means the conjunction of their meanings: none of
them is torn apart by the precedence of AND over OR. -/
theorem C31_conjunction (id₀ : Str) (e₀ : Expr) (ids : List Str) (es : List Expr)
    (h₀ : Reads .or id₀ e₀) (h : Pointwise (Reads .or) ids es) :
    Reads .and (join g!" AND " ((id₀ :: ids).map makeElement)) (conj e₀ es) := by
  have key : ∀ (ids : List Str) (es : List Expr) (s : Str) (e : Expr), Pointwise (Reads .or) ids es → Reads .and s e →
      Reads .and (join g!" AND " (s :: ids.map makeElement)) (conj e es) := by
    intro ids es s e h
    induction h generalizing s e with
    | nil => intro hs; exact hs
    | cons h1 _ ih =>
      next a b l m _ =>
      intro hs
      have h2 : Reads .and (s ++ g!" AND " ++ makeElement a) (.and e b) := .and hs (makeElement_reads h1)
      have := ih _ _ h2
      rw [List.map_cons, join]
      cases l with
      | nil => simpa [conj, join] using this
      | cons x l => simpa [conj, join] using this
  exact key ids es _ _ h (.and1 (makeElement_reads h₀))

/-- **C31.** An identifier is parenthesised exactly if it contains AND or OR between spaces, and otherwise
unchanged. -/
theorem C31_element (lic : Str) :
    ((∃ a b, lic = a ++ g!" AND " ++ b) ∨ (∃ a b, lic = a ++ g!" OR " ++ b) → makeElement lic = g!"(" ++ lic ++ g!")") ∧
    (¬ ((∃ a b, lic = a ++ g!" AND " ++ b) ∨ (∃ a b, lic = a ++ g!" OR " ++ b)) → makeElement lic = lic) := by
  unfold makeElement
  refine ⟨fun h => ?_, fun h => ?_⟩
  · rw [if_pos (by simpa only [Bool.or_eq_true, contains_iff] using h)]
  · rw [if_neg (by simpa only [Bool.or_eq_true, contains_iff] using h)]

theorem C31_license (w : Str) (h : w ≠ [] ∧ ' ' ∉ w ∧ '(' ∉ w ∧ ')' ∉ w ∧
    w.map Char.toUpper ≠ g!"AND" ∧ w.map Char.toUpper ≠ g!"OR" ∧ w.map Char.toUpper ≠ g!"WITH") : Reads .atom w (.lic w) :=
  .word ⟨h.1, h.2.1, h.2.2.1, h.2.2.2.1, by rintro (e | e | e); exact h.2.2.2.2.1 e; exact h.2.2.2.2.2.1 e; exact h.2.2.2.2.2.2 e⟩

example : join g!" AND " ([g!"MIT OR BSD", g!"GPL-2.0"].map makeElement) = g!"(MIT OR BSD) AND GPL-2.0" ∧
    Reads .or g!"MIT OR BSD" (.or (.lic g!"MIT") (.lic g!"BSD")) ∧ Reads .or g!"GPL-2.0" (.lic g!"GPL-2.0") :=
  ⟨by decide +kernel,
   .or (s := g!"MIT") (t := g!"BSD") (.or1 (.and1 (C31_license _ (by decide)))) (.and1 (C31_license _ (by decide))),
   .or1 (.and1 (C31_license _ (by decide)))⟩

/-- Operators in lower case and operators between tabs, which the splitting into names or the tag's text
allow, are not protected. -/
theorem C31_other_operators_false :
    join g!" AND " ([g!"MIT or BSD", g!"X"].map makeElement) = g!"MIT or BSD AND X" ∧
    join g!" AND " ([g!"MIT\tOR BSD", g!"X"].map makeElement) = g!"MIT\tOR BSD AND X" := by decide +kernel

/-! ## C32 -/

theorem kept_iff (c : Char) : kept c = decide (IsIdChar c) := by
  rw [Bool.eq_iff_iff]
  simp [kept, IsIdChar, or_assoc]

theorem stripTrash_eq (s : Str) : stripTrash s = idChars s := by
  unfold stripTrash idChars
  congr 1
  funext c
  exact kept_iff c

theorem kept_ascii {c : Char} (h : kept c = true) : runeLen c = 1 := by
  have : c.toNat < 0x80 := by
    simp only [kept, Bool.or_eq_true, decide_eq_true_eq] at h
    have hal : c.isAlphanum = true → c.toNat < 0x80 := by
      intro h
      simp only [Char.isAlphanum, Char.isAlpha, Char.isUpper, Char.isLower, Char.isDigit, Bool.or_eq_true, Bool.and_eq_true,
        decide_eq_true_eq] at h
      have e : c.toNat = c.val.toNat := rfl
      rcases h with (⟨h1, h2⟩ | ⟨h1, h2⟩) | ⟨h1, h2⟩ <;>
        · have := UInt32.le_iff_toNat_le.1 h2
          simp at this
          omega
    rcases h with ((((((((((h | h) | h) | h) | h) | h) | h) | h) | h) | h) | h) | h
    · exact hal h
    all_goals (subst h; decide)
  simp [runeLen, this]

theorem byteLen_strip (s : Str) : byteLen (stripTrash s) = (idChars s).length := by
  rw [← stripTrash_eq]
  unfold byteLen stripTrash
  induction s with
  | nil => rfl
  | cons c s ih =>
    simp only [List.filter_cons]
    split
    · next h => simp [kept_ascii h, ih]; omega
    · exact ih

theorem searchLine_iff (line id : Str) : searchLine line = some id ↔ ShortForm line id := by
  unfold searchLine ShortForm
  cases hc : cut shortTag line with
  | none =>
    simp only [reduceCtorEq, false_iff]
    rintro ⟨b, a, t, h, -⟩
    rw [show shortTag = g!"SPDX-License-Identifier:" from rfl, cut_iff_first.2 h] at hc
    cases hc
  | some x =>
    obtain ⟨before, after⟩ := x
    have hf : FirstAt g!"SPDX-License-Identifier:" line before after := cut_iff_first.1 hc
    have huniq : ∀ b a, FirstAt g!"SPDX-License-Identifier:" line b a → b = before ∧ a = after := by
      intro b a h
      have := cut_iff_first.2 h
      rw [show cut g!"SPDX-License-Identifier:" line = some (before, after) from hc] at this
      simp at this
      exact ⟨this.1.symm, this.2.symm⟩
    simp only [byteLen_strip]
    by_cases hl : (idChars before).length > 5
    · rw [if_pos hl]
      simp only [reduceCtorEq, false_iff]
      rintro ⟨b, a, t, h, h5, -⟩
      obtain ⟨rfl, rfl⟩ := huniq b a h
      omega
    · rw [if_neg hl]
      simp only [Option.some.injEq, stripTrash_eq]
      cases hs : cut g!"*/" after with
      | none =>
        constructor
        · rintro rfl
          refine ⟨before, after, after, hf, by omega, .inr ⟨rfl, ?_⟩, _, stripped_iff.2 rfl, rfl⟩
          exact contains_false_iff.1 (by simp [contains, hs])
        · rintro ⟨b, a, t, h, -, ht, x, hx, rfl⟩
          obtain ⟨rfl, rfl⟩ := huniq b a h
          rcases ht with ⟨rest, h'⟩ | ⟨rfl, -⟩
          · rw [cut_iff_first.2 h'] at hs; cases hs
          · rw [stripped_iff.1 hx]
      | some y =>
        obtain ⟨p, q⟩ := y
        constructor
        · rintro rfl
          exact ⟨before, after, p, hf, by omega, .inl ⟨q, cut_iff_first.1 hs⟩, _, stripped_iff.2 rfl, rfl⟩
        · rintro ⟨b, a, t, h, -, ht, x, hx, rfl⟩
          obtain ⟨rfl, rfl⟩ := huniq b a h
          rcases ht with ⟨rest, h'⟩ | ⟨rfl, hn⟩
          · rw [cut_iff_first.2 h'] at hs
            simp only [Option.some.injEq, Prod.mk.injEq] at hs
            rw [stripped_iff.1 hx, hs.1]
          · exact absurd (cut_eq hs) (hn p q)

theorem collect_ids (lines : List Str) (m : List (Str × Nat)) (hm : (m.map (·.1)).Nodup) :
    ((lines.foldl addLine m).map (·.1)).Nodup ∧ ∀ x, x ∈ (lines.foldl addLine m).map (·.1) ↔ x ∈ m.map (·.1) ∨ ∃ l ∈ lines, searchLine l = some x := by
  induction lines generalizing m with
  | nil => simp [hm]
  | cons l ls ih =>
    simp only [List.foldl_cons, addLine]
    cases hs : searchLine l with
    | none =>
      obtain ⟨h1, h2⟩ := ih m hm
      refine ⟨h1, fun x => ?_⟩
      rw [h2]
      simp [hs]
    | some lid =>
      obtain ⟨h1, h2⟩ := ih _ (mapInsert_nodup lid 1 m hm)
      refine ⟨h1, fun x => ?_⟩
      rw [h2, mapInsert_keys]
      simp only [List.mem_cons, exists_eq_or_imp, hs, Option.some.injEq]
      constructor
      · rintro ((h | h) | h)
        · exact .inr (.inl h.symm)
        · exact .inl h
        · exact .inr (.inr h)
      · rintro (h | h | h)
        · exact .inl (.inr h)
        · exact .inl (.inl h.symm)
        · exact .inr h

/-- **C32.** Searching a text returns, sorted and each once, exactly the short-form identifiers of its lines
(up to the first line that is too long for the line scanner, if there is one). -/
theorem C32_search (so : Sorter) (text : Str) : ∃ ids, searchFileIDs so (some text) = .ok ids ∧
    SortedBy id ids ∧ ids.Nodup ∧
    ∀ x, x ∈ ids ↔ ∃ l ∈ (rawLines text).takeWhile (fun l => byteLen l < 65536), ShortForm (dropCR l) x := by
  obtain ⟨h1, h2⟩ := collect_ids (scannedLines text) [] (by simp)
  refine ⟨_, rfl, so.sorted id _, (so.perm id _).nodup_iff.2 h1, fun x => ?_⟩
  rw [so.mem, h2]
  simp only [List.map_nil, List.not_mem_nil, false_or, scannedLines, List.mem_map, searchLine_iff]
  constructor
  · rintro ⟨_, ⟨l, hl, rfl⟩, hs⟩; exact ⟨l, hl, hs⟩
  · rintro ⟨l, hl, hs⟩; exact ⟨_, ⟨l, hl, rfl⟩, hs⟩

/-- **C32.** An identifier has identifier characters only, and a text without the tag yields none. -/
theorem C32_characters (so : Sorter) (text : Str) (ids : List Str) (h : searchFileIDs so (some text) = .ok ids) :
    (∀ x ∈ ids, ∀ c ∈ x, IsIdChar c) ∧ (contains g!"SPDX-License-Identifier:" text = false → ids = []) := by
  obtain ⟨ids', h1, -, -, h2⟩ := C32_search so text
  rw [h] at h1
  obtain rfl : ids = ids' := by simpa using h1
  refine ⟨fun x hx c hc => ?_, fun hn => ?_⟩
  · obtain ⟨l, -, b, a, t, -, -, -, y, -, rfl⟩ := (h2 x).1 hx
    simpa using (List.mem_filter.1 hc).2
  · refine List.eq_nil_iff_forall_not_mem.2 fun x hx => ?_
    obtain ⟨l, hl, b, a, t, ⟨e, -⟩, -⟩ := (h2 x).1 hx
    have hl' := mem_rawLines (List.takeWhile_sublist _ |>.subset hl)
    obtain ⟨p, q, rfl, -⟩ := mem_splitChar_iff.1 hl'
    have hd : ∃ r, l = dropCR l ++ r := by
      unfold dropCR
      split
      · next t e => exact ⟨['\r'], by simpa using congrArg List.reverse e⟩
      · exact ⟨[], by simp⟩
    obtain ⟨r, hr⟩ := hd
    refine contains_false_iff.1 hn (p ++ b) (a ++ r ++ q) ?_
    conv => lhs; rw [hr, e]
    simp

/-- **C32.** If no line is too long, all lines are searched. -/
theorem C32_all_lines (text : Str) (h : ∀ l ∈ rawLines text, byteLen l < 65536) :
    (rawLines text).takeWhile (fun l => decide (byteLen l < 65536)) = rawLines text := by
  generalize rawLines text = ls at h
  induction ls with
  | nil => rfl
  | cons l ls ih =>
    rw [List.takeWhile_cons, if_pos (by simpa using h l (by simp)), ih fun x hx => h x (by simp [hx])]

example : searchFileIDs insertionSorter (some g!"/* SPDX-License-Identifier: MIT */\n// SPDX-License-Identifier: GPL-2.0+ OR BSD\nif find(\"SPDX-License-Identifier: X\")\n# SPDX-License-Identifier: MIT\r\n") =
    .ok [g!"GPL-2.0+ OR BSD", g!"MIT"] := by decide +kernel

/-- The end of an HTML comment becomes part of the identifier; so does a space before a removed character. -/
theorem C32_comment_end_false :
    searchFileIDs insertionSorter (some g!"<!-- SPDX-License-Identifier: MIT -->") = .ok [g!"MIT --"] ∧
    searchFileIDs insertionSorter (some g!"{# SPDX-License-Identifier: MIT #}") = .ok [g!"MIT "] := by decide +kernel

/-- The colon of a reference into another document is lost. -/
theorem C32_document_ref_false :
    searchFileIDs insertionSorter (some g!"// SPDX-License-Identifier: DocumentRef-x:LicenseRef-y") =
      .ok [g!"DocumentRef-xLicenseRef-y"] := by decide +kernel

end Verif
