import Verif.Model.RdfState
import Verif.Spec.Words
import Verif.Lemmas.Number
import Verif.Lemmas.Sort
import Verif.Lemmas.JsonPrint
import Verif.Props.C30_C32_IdSearcher

/-!
# C89: the operations on texts
-/

namespace Verif
open Spec

/-- C89: white space is the white space of Unicode. -/
theorem C89_space (c : Char) : isSpace c = true ↔ c.toNat ∈ whiteSpace := by
  simp only [isSpace, whiteSpace, Bool.or_eq_true, Bool.and_eq_true, decide_eq_true_eq, beq_iff_eq, List.mem_cons,
    List.not_mem_nil, or_false]
  omega

/-- C89: trimming takes the characters of the set away at both ends, and no others. -/
theorem C89_trim (p : Char → Bool) (s x : Str) : trim p s = x ↔ WithoutEnds (fun c => p c = true) s x := by
  constructor
  · rintro rfl
    obtain ⟨l, hl, hl'⟩ := trimLeft_suffix p s
    obtain ⟨r, hr, hr'⟩ := trimRight_prefix p (trimLeft p s)
    refine ⟨l, r, ?_, ?_, ?_, ?_⟩
    · calc s = l ++ trimLeft p s := hl
        _ = l ++ (trimRight p (trimLeft p s) ++ r) := by rw [← hr]
        _ = l ++ trim p s ++ r := by simp [trim]
    · intro c hc
      rcases List.mem_append.1 hc with h | h
      · exact hl' c h
      · exact hr' c h
    · intro c t e; simp [(trim_trimmed p s).1 c t e]
    · intro c t e; simp [(trim_trimmed p s).2 c t e]
  · rintro ⟨l, r, rfl, hs, h1, h2⟩
    exact trim_pad (fun c hc => hs c (by simp [hc])) (fun c hc => hs c (by simp [hc]))
      ⟨fun c t e => by simpa using h1 c t e, fun c t e => by simpa using h2 c t e⟩

/-- C89: trimming of white space. -/
theorem C89_trim_space (s x : Str) : trimSpace s = x ↔ WithoutEnds (fun c => c.toNat ∈ whiteSpace) s x := by
  unfold trimSpace
  rw [C89_trim]
  simp only [C89_space]

/-- C89: a text is cut at the first occurrence of the separator. -/
theorem C89_cut (sep s a b : Str) : cut sep s = some (a, b) ↔ FirstAt sep s a b := cut_iff_first

/-- C89: it is not cut only if the separator does not occur. -/
theorem C89_uncut (sep s : Str) : (cut sep s = none ↔ ∀ a b, s ≠ a ++ sep ++ b) ∧ (contains sep s = true ↔ ∃ a b, s = a ++ sep ++ b) := by
  refine ⟨?_, contains_iff⟩
  rw [← contains_false_iff]
  cases h : cut sep s <;> simp [contains, h]

/-- C89: beginnings and ends of texts. -/
theorem C89_ends (p s x : Str) : (hasPrefix p s = true ↔ ∃ r, s = p ++ r) ∧ (hasSuffix p s = true ↔ ∃ r, s = r ++ p) ∧
    (trimPrefix p s = x ↔ s = p ++ x ∨ (x = s ∧ ∀ r, s ≠ p ++ r)) ∧ (trimSuffix p s = x ↔ s = x ++ p ∨ (x = s ∧ ∀ r, s ≠ r ++ p)) := by
  have key : ∀ p s x : Str, trimPrefix p s = x ↔ s = p ++ x ∨ (x = s ∧ ∀ r, s ≠ p ++ r) := by
    intro p s x
    unfold trimPrefix
    cases h : cutPrefix p s with
    | some r =>
      have e := cutPrefix_eq_some.1 h
      constructor
      · rintro rfl; exact .inl e
      · rintro (h' | ⟨_, h'⟩)
        · exact List.append_cancel_left (e.symm.trans h')
        · exact absurd e (h' r)
    | none =>
      have e := cutPrefix_eq_none.1 h
      constructor
      · rintro rfl; exact .inr ⟨rfl, e⟩
      · rintro (h' | ⟨h', _⟩)
        · exact absurd h' (e x)
        · exact h'.symm
  refine ⟨hasPrefix_iff, hasSuffix_iff, key p s x, ?_⟩
  unfold trimSuffix
  have h1 : (trimPrefix p.reverse s.reverse).reverse = x ↔ trimPrefix p.reverse s.reverse = x.reverse :=
    ⟨fun h => by rw [← h, List.reverse_reverse], fun h => by rw [h, List.reverse_reverse]⟩
  rw [h1, key]
  constructor
  · rintro (h | ⟨h, h'⟩)
    · exact .inl (by have := congrArg List.reverse h; simpa using this)
    · exact .inr ⟨by simpa using h, fun r e => h' r.reverse (by simp [e])⟩
  · rintro (h | ⟨h, h'⟩)
    · exact .inl (by simp [h])
    · exact .inr ⟨by simp [h], fun r e => h' r.reverse (by have := congrArg List.reverse e; simpa using this)⟩

/-- C89: joining puts the separator between the texts. -/
theorem C89_join (sep s : Str) (l : List Str) (h : l ≠ []) : join sep l = s ↔ Pieces sep s l := by
  have key : ∀ (l : List Str) (p : Str), join sep (p :: l) = p ++ (l.map fun q => sep ++ q).flatten := by
    intro l
    induction l with
    | nil => intro p; simp [join]
    | cons q l ih => intro p; rw [join, ih]; simp
  cases l with
  | nil => exact absurd rfl h
  | cons p l => rw [key, Pieces, eq_comm]

/-- C89: splitting gives the pieces between the separators. -/
theorem C89_split (c : Char) (s : Str) (l : List Str) : splitChar c s = l ↔ Pieces [c] s l ∧ ∀ p ∈ l, c ∉ p := by
  constructor
  · rintro rfl
    exact ⟨(C89_join _ _ _ (splitChar_ne_nil c s)).1 (join_splitChar c s), fun p hp => splitChar_mem_not_mem hp⟩
  · rintro ⟨h1, h2⟩
    induction l generalizing s with
    | nil => exact h1.elim
    | cons p l ih =>
      simp only [Pieces] at h1
      cases l with
      | nil => simp at h1; subst h1; exact splitChar_of_not_mem (h2 _ (by simp))
      | cons q l =>
        have e : s = p ++ c :: (q ++ (l.map fun x => [c] ++ x).flatten) := by rw [h1]; simp
        rw [e, splitChar_append, splitChar_of_not_mem (h2 p (by simp)),
          ih _ (by rw [Pieces]) fun x hx => h2 x (List.mem_cons_of_mem _ hx)]
        rfl

/-- C89: the length of a text is that of its UTF-8 encoding. -/
theorem C89_length (s : Str) : byteLen s = (s.map fun c => c.utf8Size).sum := by
  unfold byteLen
  congr 1
  apply List.map_congr_left
  intro c _
  have h : c.val.toNat = c.toNat := rfl
  unfold runeLen Char.utf8Size
  simp only [UInt32.le_iff_toNat_le, h]
  show (if c.toNat < 128 then 1 else if c.toNat < 2048 then 2 else if c.toNat < 65536 then 3 else 4) =
    if c.toNat ≤ 127 then 1 else if c.toNat ≤ 2047 then 2 else if c.toNat ≤ 65535 then 3 else 4
  split <;> split <;> (try split) <;> (try split) <;> (try split) <;> (try split) <;> first | rfl | omega

/-- C89: texts are compared as in a dictionary. -/
theorem C89_order (a b : Str) : (strLt a b = true ↔ Before a b) ∧ (strLe a b = true ↔ a = b ∨ Before a b) := by
  have le : ∀ a b : Str, strLe a b = true ↔ a = b ∨ Before a b := by
    intro a
    induction a with
    | nil =>
      intro b
      cases b with
      | nil => simp [strLe]
      | cons d b => simp [strLe]; exact .inl ⟨d, b, rfl⟩
    | cons c a ih =>
      intro b
      cases b with
      | nil =>
        constructor
        · intro h; simp [strLe] at h
        · rintro (h | ⟨_, _, h⟩ | ⟨p, _, _, _, _, _, h, _⟩)
          · cases h
          · simp at h
          · simp at h
      | cons d b =>
        unfold strLe
        by_cases e : c = d
        · subst e
          rw [if_pos rfl, ih]
          constructor
          · rintro (rfl | ⟨x, r, rfl⟩ | ⟨p, x, y, r, r', rfl, rfl, h⟩)
            · exact .inl rfl
            · exact .inr (.inl ⟨x, r, rfl⟩)
            · exact .inr (.inr ⟨c :: p, x, y, r, r', rfl, rfl, h⟩)
          · rintro (h | ⟨x, r, h⟩ | ⟨p, x, y, r, r', h1, h2, h⟩)
            · injection h with _ h; exact .inl h
            · injection h with _ h; exact .inr (.inl ⟨x, r, h⟩)
            · cases p with
              | nil =>
                injection h1 with h1 _; injection h2 with h2 _
                rw [← h1, ← h2] at h; omega
              | cons z p =>
                injection h1 with _ h1; injection h2 with _ h2
                exact .inr (.inr ⟨p, x, y, r, r', h1, h2, h⟩)
        · rw [if_neg e, decide_eq_true_eq]
          constructor
          · intro h; exact .inr (.inr ⟨[], c, d, a, b, rfl, rfl, h⟩)
          · rintro (h | ⟨x, r, h⟩ | ⟨p, x, y, r, r', h1, h2, h⟩)
            · injection h with h _; exact absurd h e
            · injection h with h _; exact absurd h.symm e
            · cases p with
              | nil =>
                injection h1 with h1 _; injection h2 with h2 _
                rw [h1, h2]; exact h
              | cons z p =>
                injection h1 with h1 _; injection h2 with h2 _
                exact absurd (h1.trans h2.symm) e
  refine ⟨?_, le a b⟩
  have irr : ¬ Before a a := by
    rintro (⟨c, r, h⟩ | ⟨p, c, d, r, r', h1, h2, h⟩)
    · have := congrArg List.length h; simp at this
    · rw [h1] at h2
      have := List.append_cancel_left h2
      injection this with h3 _
      rw [h3] at h; omega
  unfold strLt
  rw [Bool.and_eq_true, le]
  simp only [Bool.not_eq_true', beq_eq_false_iff_ne]
  constructor
  · rintro ⟨h | h, h'⟩
    · exact absurd h h'
    · exact h
  · intro h
    exact ⟨.inr h, fun e => irr (e ▸ h)⟩

/-- C89: a number is written with its decimal digits, without zeros in front. -/
theorem C89_digits (n : Nat) : DigitsText (natDigits n) n ∧ (natDigits n = g!"0" ∨ ∀ t, natDigits n ≠ '0' :: t) :=
  ⟨digits_iff.2 ⟨natDigits_ne_nil n, atoiDigits_natDigits n⟩, (natDigits_spelt n).imp id And.right⟩

/-- C89: a negative number gets a minus sign. -/
theorem C89_number (n : Int) : (0 ≤ n → itoa n = natDigits n.toNat) ∧ (n < 0 → itoa n = g!"-" ++ natDigits (-n).toNat) := by
  cases n with
  | ofNat n => exact ⟨fun _ => rfl, fun h => absurd h (by simp)⟩
  | negSucc n => exact ⟨fun h => absurd h (by omega), fun _ => by rw [itoa]; rfl⟩

/-- C89: the numbers that are read. -/
theorem C89_reads_number (s : Str) (k : Int) : atoi s = some k ↔ NumberText s k := number_iff.symm

theorem toLower_nat (c : Char) : c.toLower.toNat = if 65 ≤ c.toNat ∧ c.toNat ≤ 90 then c.toNat + 32 else c.toNat := by
  unfold Char.toLower
  split
  · rename_i h
    rw [if_pos ⟨h.1, h.2⟩]
    have h1 : 65 ≤ c.toNat := h.1
    have h2 : c.toNat ≤ 90 := h.2
    have : c.val.toNat = c.toNat := rfl
    show (c.val + 32).toNat = c.val.toNat + 32
    rw [UInt32.toNat_add]
    show (c.val.toNat + 32) % 4294967296 = _
    omega
  · rename_i h
    rw [if_neg fun h' => h ⟨h'.1, h'.2⟩]

theorem toUpper_nat (c : Char) : c.toUpper.toNat = if 97 ≤ c.toNat ∧ c.toNat ≤ 122 then c.toNat - 32 else c.toNat := by
  unfold Char.toUpper
  split
  · rename_i h
    rw [if_pos ⟨h.1, h.2⟩]
    have h1 : 97 ≤ c.toNat := h.1
    have h2 : c.toNat ≤ 122 := h.2
    have : c.val.toNat = c.toNat := rfl
    show (c.val + 4294967264).toNat = c.val.toNat - 32
    rw [UInt32.toNat_add]
    show (c.val.toNat + 4294967264) % 4294967296 = _
    omega
  · rename_i h
    rw [if_neg fun h' => h ⟨h'.1, h'.2⟩]

/-- C89: what the characters of ASCII are the lower case of: themselves unless they are capitals, their capitals, and of the
dotted capital I and the Kelvin sign. -/
theorem C89_lower (c d : Char) (hd : d.toNat < 128) : toLower [c] = [d] ↔
    (c = d ∧ ¬ (65 ≤ d.toNat ∧ d.toNat ≤ 90)) ∨ (97 ≤ d.toNat ∧ d.toNat ≤ 122 ∧ c.toNat + 32 = d.toNat) ∨
    (d = 'i' ∧ c = '\u0130') ∨ (d = 'k' ∧ c = '\u212a') := by
  have inj : ∀ a b : Char, a = b ↔ a.toNat = b.toNat := fun a b => Char.toNat_inj.symm
  have e : toLower [c] = [d] ↔ lowerChar c = d := by simp [toLower]
  have ei : 'i'.toNat = 105 := rfl
  have ek : 'k'.toNat = 107 := rfl
  have e1 : '\u0130'.toNat = 0x130 := rfl
  have e2 : '\u212a'.toNat = 0x212A := rfl
  rw [e, lowerChar]
  simp only [inj, ei, ek, e1, e2]
  split
  · rw [ei]; omega
  · split
    · rw [ek]; omega
    · rw [toLower_nat]
      split <;> omega

/-- C89: and the upper case of: themselves unless they are small letters, their small letters, and of the dotless small i and
the long s. -/
theorem C89_upper (c d : Char) (hd : d.toNat < 128) : toUpper [c] = [d] ↔
    (c = d ∧ ¬ (97 ≤ d.toNat ∧ d.toNat ≤ 122)) ∨ (65 ≤ d.toNat ∧ d.toNat ≤ 90 ∧ c.toNat = d.toNat + 32) ∨
    (d = 'I' ∧ c = '\u0131') ∨ (d = 'S' ∧ c = '\u017f') := by
  have inj : ∀ a b : Char, a = b ↔ a.toNat = b.toNat := fun a b => Char.toNat_inj.symm
  have e : toUpper [c] = [d] ↔ upperChar c = d := by simp [toUpper]
  have ei : 'I'.toNat = 73 := rfl
  have ek : 'S'.toNat = 83 := rfl
  have e1 : '\u0131'.toNat = 0x131 := rfl
  have e2 : '\u017f'.toNat = 0x17F := rfl
  rw [e, upperChar]
  simp only [inj, ei, ek, e1, e2]
  split
  · rw [ei]; omega
  · split
    · rw [ek]; omega
    · rw [toUpper_nat]
      split <;> omega

/-- C89: a text is put into another case character by character. -/
theorem C89_case (c : Char) (s : Str) : toLower (c :: s) = toLower [c] ++ toLower s ∧ toUpper (c :: s) = toUpper [c] ++ toUpper s ∧
    toLower [] = [] ∧ toUpper [] = [] := ⟨rfl, rfl, rfl, rfl⟩

/-- The byte order mark is not white space, but the no-break space is. -/
theorem C89_sample : trimSpace g!"\u00a0 a b\u3000 " = g!"a b" ∧ trimSpace g!"\ufeffa" = g!"\ufeffa" ∧
    splitChar ',' g!",a,,b" = [[], g!"a", [], g!"b"] ∧ strLt g!"a-" g!"a.b" = true ∧ byteLen g!"\u00e9\u20ac" = 5 ∧
    atoi g!"+07" = some 7 ∧ atoi g!"9223372036854775808" = none := by decide +kernel

end Verif
