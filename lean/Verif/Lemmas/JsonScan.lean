import Verif.Model.JsonText
import Verif.Spec.JsonText
import Verif.Lemmas.Str

/-!
# Scanning JSON text follows the grammar
-/

namespace Verif
open Spec

/-! ## Blanks -/

theorem isJsonSpace_iff {c : Char} : isJsonSpace c = true ↔ c = ' ' ∨ c = '\t' ∨ c = '\n' ∨ c = '\r' := by
  simp only [isJsonSpace, Bool.or_eq_true, decide_eq_true_eq]
  constructor
  · rintro (((h | h) | h) | h) <;> simp [h]
  · rintro (h | h | h | h) <;> simp [h]

theorem skip_blank {b t : Str} (h : Blank b) : skipJsonSpace (b ++ t) = skipJsonSpace t := by
  induction b with
  | nil => rfl
  | cons c b ih =>
    have hc := isJsonSpace_iff.2 (h c (by simp))
    rw [skipJsonSpace, List.cons_append, List.dropWhile_cons_of_pos hc]
    exact ih fun x hx => h x (by simp [hx])

theorem skip_self {c : Char} {t : Str} (h : isJsonSpace c = false) : skipJsonSpace (c :: t) = c :: t := by
  rw [skipJsonSpace, List.dropWhile_cons_of_neg (by simp [h])]

theorem skip_split (s : Str) : ∃ b, s = b ++ skipJsonSpace s ∧ Blank b := by
  induction s with
  | nil => exact ⟨[], rfl, by simp [Blank]⟩
  | cons c s ih =>
    cases h : isJsonSpace c with
    | true =>
      obtain ⟨b, h1, h2⟩ := ih
      refine ⟨c :: b, ?_, ?_⟩
      · rw [skipJsonSpace, List.dropWhile_cons_of_pos h, List.cons_append]
        exact congrArg (c :: ·) h1
      · intro x hx
        rcases List.mem_cons.1 hx with rfl | hx
        · exact isJsonSpace_iff.1 h
        · exact h2 x hx
    | false => exact ⟨[], (skip_self h).symm, by simp [Blank]⟩

theorem skip_nil_iff {s : Str} : skipJsonSpace s = [] ↔ Blank s := by
  constructor
  · intro h
    obtain ⟨b, h1, h2⟩ := skip_split s
    rw [h, List.append_nil] at h1
    rw [h1]; exact h2
  · intro h
    have := skip_blank (t := []) h
    rwa [List.append_nil] at this

theorem blank_nil : Blank [] := by simp [Blank]

/-! ## Strings -/

theorem isHexDigit_iff {c : Char} : isHexDigit c = true ↔ c ∈ g!"0123456789abcdefABCDEF" := by
  constructor
  · intro h
    have hn : ('0'.toNat ≤ c.toNat ∧ c.toNat ≤ '9'.toNat) ∨ ('a'.toNat ≤ c.toNat ∧ c.toNat ≤ 'f'.toNat) ∨
        ('A'.toNat ≤ c.toNat ∧ c.toNat ≤ 'F'.toNat) := by
      unfold isHexDigit hexVal at h
      split at h
      · exact .inl ‹_›
      · split at h
        · exact .inr (.inl ‹_›)
        · split at h
          · exact .inr (.inr ‹_›)
          · cases h
    have key : ∀ n, n < 103 → (48 ≤ n ∧ n ≤ 57) ∨ (97 ≤ n ∧ n ≤ 102) ∨ (65 ≤ n ∧ n ≤ 70) →
        Char.ofNat n ∈ g!"0123456789abcdefABCDEF" := by decide
    have e : Char.ofNat c.toNat = c := Char.ofNat_toNat c
    rw [← e]
    have hn' : (48 ≤ c.toNat ∧ c.toNat ≤ 57) ∨ (97 ≤ c.toNat ∧ c.toNat ≤ 102) ∨ (65 ≤ c.toNat ∧ c.toNat ≤ 70) := hn
    exact key _ (by omega) hn'
  · intro h
    revert c
    decide

theorem isDigit_iff {c : Char} : isDigit c = true ↔ c ∈ g!"0123456789" := by
  constructor
  · intro h
    simp only [isDigit, Bool.and_eq_true, decide_eq_true_eq] at h
    have key : ∀ n, n < 58 → (48 ≤ n ∧ n ≤ 57) → Char.ofNat n ∈ g!"0123456789" := by decide
    have e : Char.ofNat c.toNat = c := Char.ofNat_toNat c
    rw [← e]
    have h' : 48 ≤ c.toNat ∧ c.toNat ≤ 57 := h
    exact key _ (by omega) h'
  · intro h
    revert c
    decide

theorem fourHex_iff {x : Str} : FourHex x ↔ ∃ a b c d, x = [a, b, c, d] ∧
    (isHexDigit a && isHexDigit b && isHexDigit c && isHexDigit d) = true := by
  constructor
  · rintro ⟨h, h'⟩
    match x, h with
    | [a, b, c, d], _ =>
      refine ⟨a, b, c, d, rfl, ?_⟩
      simp only [Bool.and_eq_true, isHexDigit_iff]
      exact ⟨⟨⟨h' a (by simp), h' b (by simp)⟩, h' c (by simp)⟩, h' d (by simp)⟩
  · rintro ⟨a, b, c, d, rfl, h⟩
    simp only [Bool.and_eq_true, isHexDigit_iff] at h
    refine ⟨rfl, ?_⟩
    intro y hy
    simp only [List.mem_cons, List.not_mem_nil, or_false] at hy
    rcases hy with rfl | rfl | rfl | rfl
    · exact h.1.1.1
    · exact h.1.1.2
    · exact h.1.2
    · exact h.2

theorem scanString_sound (s : Str) : ∀ raw r, scanString s = some (raw, r) → s = raw ++ g!"\"" ++ r ∧ StringText raw := by
  fun_induction scanString s with
  | case1 => simp
  | case2 t => rintro raw r ⟨⟩; exact ⟨rfl, .nil⟩
  | case3 a b c d t h ih =>
    intro raw r h'
    rw [Option.map_eq_some_iff] at h'
    obtain ⟨⟨raw', r'⟩, h1, h2⟩ := h'
    cases h2
    obtain ⟨e, he⟩ := ih _ _ h1
    exact ⟨by rw [e]; rfl, .code (x := [a, b, c, d]) (fourHex_iff.2 ⟨a, b, c, d, rfl, h⟩) he⟩
  | case4 => simp
  | case5 e t hn h ih =>
    intro raw r h'
    rw [Option.map_eq_some_iff] at h'
    obtain ⟨⟨raw', r'⟩, h1, h2⟩ := h'
    cases h2
    obtain ⟨e', he⟩ := ih _ _ h1
    exact ⟨by rw [e']; rfl, .short (by simpa using h) he⟩
  | case6 => simp
  | case7 => simp
  | case8 c t hn1 hn2 hn3 h ih =>
    intro raw r h'
    rw [Option.map_eq_some_iff] at h'
    obtain ⟨⟨raw', r'⟩, h1, h2⟩ := h'
    cases h2
    obtain ⟨e', he⟩ := ih _ _ h1
    refine ⟨by rw [e']; rfl, .char ?_ ?_ ?_ he⟩
    · exact Nat.le_of_not_lt fun hh => h (.inl hh)
    · intro hh; exact hn1 hh
    · intro hh; exact h (.inr hh)

theorem scanString_complete {raw : Str} (h : StringText raw) (r : Str) : scanString (raw ++ g!"\"" ++ r) = some (raw, r) := by
  induction h with
  | nil => simp [scanString]
  | @char c t h1 h2 h3 _ ih =>
    rw [List.cons_append, List.cons_append, scanString]
    · rw [if_neg (by rintro (h | h); omega; exact h3 h), ih]; rfl
    all_goals simp_all
  | @short e t h1 _ ih =>
    have hu : e ≠ 'u' := by rintro rfl; revert h1; decide
    rw [List.cons_append, List.cons_append, List.cons_append, List.cons_append, scanString]
    · rw [if_pos (by simpa using h1), ih]; rfl
    · rintro a b c d t' rfl; exact absurd rfl hu
  | @code x t h1 _ ih =>
    obtain ⟨a, b, c, d, rfl, h⟩ := fourHex_iff.1 h1
    show scanString ('\\' :: 'u' :: a :: b :: c :: d :: (t ++ g!"\"" ++ r)) = _
    rw [scanString, if_pos h, ih]; rfl

/-! ## Numbers -/

theorem digits_all {s : Str} (h : Digits s) : ∀ c ∈ s, isDigit c = true := fun c hc => isDigit_iff.2 (h.2 c hc)

/-- The text does not go on with a digit. -/
def NoDigit (r : Str) : Prop := ∀ c t, r = c :: t → isDigit c = false

theorem scanDigits_complete {ds r : Str} (h : ∀ c ∈ ds, isDigit c = true) (hr : NoDigit r) : scanDigits (ds ++ r) = (ds, r) := by
  unfold scanDigits
  induction ds with
  | nil =>
    cases r with
    | nil => rfl
    | cons c r => simp [hr c r rfl]
  | cons c ds ih =>
    have := ih fun x hx => h x (by simp [hx])
    simp only [Prod.mk.injEq] at this
    simp [h c (by simp), this.1, this.2]

theorem scanDigits1_complete {ds r : Str} (h : Digits ds) (hr : NoDigit r) : scanDigits1 (ds ++ r) = some (ds, r) := by
  unfold scanDigits1
  rw [scanDigits_complete (digits_all h) hr, if_neg h.1]

theorem scanDigits1_sound {s ds r : Str} (h : scanDigits1 s = some (ds, r)) : s = ds ++ r ∧ Digits ds := by
  unfold scanDigits1 at h
  split at h
  · cases h
  · next hne =>
    cases h
    refine ⟨(List.takeWhile_append_dropWhile).symm, hne, fun c hc => isDigit_iff.1 ?_⟩
    exact List.all_eq_true.1 List.all_takeWhile c hc

/-- What may stand before the rest of a number's text is over. -/
def NumEnds (r : Str) : Prop := ∀ c t, r = c :: t → isDigit c = false ∧ c ≠ '.' ∧ c ≠ 'e' ∧ c ≠ 'E'

theorem scanSign_split (s : Str) : s = (scanSign s).1 ++ (scanSign s).2 ∧ ((scanSign s).1 = [] ∨ (scanSign s).1 = g!"-") := by
  unfold scanSign
  split
  · exact ⟨rfl, .inr rfl⟩
  · exact ⟨rfl, .inl rfl⟩

theorem scanExpSign_split (s : Str) : s = (scanExpSign s).1 ++ (scanExpSign s).2 ∧
    ((scanExpSign s).1 = [] ∨ (scanExpSign s).1 = g!"+" ∨ (scanExpSign s).1 = g!"-") := by
  unfold scanExpSign
  split
  · exact ⟨rfl, .inr (.inl rfl)⟩
  · exact ⟨rfl, .inr (.inr rfl)⟩
  · exact ⟨rfl, .inl rfl⟩

theorem scanInt_sound {s i r : Str} (h : scanInt s = some (i, r)) : s = i ++ r ∧ (i = g!"0" ∨ (Digits i ∧ ∀ t, i ≠ '0' :: t)) := by
  unfold scanInt at h
  split at h
  · cases h; exact ⟨rfl, .inl rfl⟩
  · next hn =>
    obtain ⟨rfl, hd⟩ := scanDigits1_sound h
    exact ⟨rfl, .inr ⟨hd, fun t ht => hn (t ++ r) (by rw [ht]; rfl)⟩⟩

theorem scanFraction_sound {s f r : Str} (h : scanFraction s = some (f, r)) :
    s = f ++ r ∧ (f = [] ∨ ∃ ds, f = g!"." ++ ds ∧ Digits ds) := by
  unfold scanFraction at h
  split at h
  · rw [Option.map_eq_some_iff] at h
    obtain ⟨⟨ds, r'⟩, h1, h2⟩ := h
    cases h2
    obtain ⟨rfl, hd⟩ := scanDigits1_sound h1
    exact ⟨rfl, .inr ⟨ds, rfl, hd⟩⟩
  · cases h; exact ⟨rfl, .inl rfl⟩

theorem scanExponent_sound {s e r : Str} (h : scanExponent s = some (e, r)) :
    s = e ++ r ∧ (e = [] ∨ ∃ x s ds, e = x ++ s ++ ds ∧ (x = g!"e" ∨ x = g!"E") ∧ (s = [] ∨ s = g!"+" ∨ s = g!"-") ∧ Digits ds) := by
  unfold scanExponent at h
  split at h
  · next c t =>
    split at h
    · next hc =>
      rw [Option.map_eq_some_iff] at h
      obtain ⟨⟨ds, r'⟩, h1, h2⟩ := h
      cases h2
      obtain ⟨h3, hd⟩ := scanDigits1_sound h1
      obtain ⟨h4, h5⟩ := scanExpSign_split t
      rw [h3] at h4
      refine ⟨?_, .inr ⟨[c], (scanExpSign t).1, ds, rfl, ?_, h5, hd⟩⟩
      · simp only [List.cons_append, List.append_assoc]
        exact congrArg (c :: ·) h4
      · rcases hc with rfl | rfl
        · exact .inl rfl
        · exact .inr rfl
    · cases h; exact ⟨rfl, .inl rfl⟩
  · cases h; exact ⟨rfl, .inl rfl⟩

theorem scanNumber_sound {s l r : Str} (h : scanNumber s = some (l, r)) : s = l ++ r ∧ NumberSpelt l := by
  unfold scanNumber at h
  obtain ⟨h1, h2⟩ := scanSign_split s
  split at h
  · cases h
  · next i s1 hi =>
    split at h
    · cases h
    · next f s2 hf =>
      split at h
      · cases h
      · next e s3 he =>
        cases h
        obtain ⟨e1, h3⟩ := scanInt_sound hi
        obtain ⟨e2, h4⟩ := scanFraction_sound hf
        obtain ⟨e3, h5⟩ := scanExponent_sound he
        refine ⟨?_, _, i, f, e, rfl, h2, h3, h4, h5⟩
        rw [e1, e2, e3] at h1
        simpa using h1

theorem digits_first {ds : Str} (h : Digits ds) : ∃ c t, ds = c :: t ∧ isDigit c = true := by
  cases ds with
  | nil => exact absurd rfl h.1
  | cons c t => exact ⟨c, t, rfl, digits_all h c (by simp)⟩

theorem scanExponent_complete {e r : Str} (h : e = [] ∨ ∃ x s ds, e = x ++ s ++ ds ∧ (x = g!"e" ∨ x = g!"E") ∧
    (s = [] ∨ s = g!"+" ∨ s = g!"-") ∧ Digits ds) (hr : NumEnds r) : scanExponent (e ++ r) = some (e, r) := by
  have hn : NoDigit r := fun c t h => (hr c t h).1
  rcases h with rfl | ⟨x, s, ds, rfl, hx, hs, hd⟩
  · cases r with
    | nil => rfl
    | cons c t =>
      obtain ⟨-, -, h1, h2⟩ := hr c t rfl
      simp [scanExponent, h1, h2]
  · have hsign : scanExpSign (s ++ (ds ++ r)) = (s, ds ++ r) := by
      rcases hs with rfl | rfl | rfl
      · obtain ⟨c, t, rfl, hc⟩ := digits_first hd
        have h1 : c ≠ '+' := by rintro rfl; revert hc; decide
        have h2 : c ≠ '-' := by rintro rfl; revert hc; decide
        show scanExpSign (c :: (t ++ r)) = ([], c :: (t ++ r))
        unfold scanExpSign
        split
        · next h => cases h; exact absurd rfl h1
        · next h => cases h; exact absurd rfl h2
        · rfl
      · rfl
      · rfl
    have hx' : ∃ c, x = [c] ∧ (c = 'e' ∨ c = 'E') := by
      rcases hx with rfl | rfl
      · exact ⟨_, rfl, .inl rfl⟩
      · exact ⟨_, rfl, .inr rfl⟩
    obtain ⟨c, rfl, hc⟩ := hx'
    show scanExponent (c :: (s ++ ds ++ r)) = _
    rw [scanExponent, if_pos hc, List.append_assoc, hsign, scanDigits1_complete hd hn]
    rfl

/-- What an exponent, or what comes after it, begins with. -/
theorem exponent_head {e r : Str} (h : e = [] ∨ ∃ x s ds, e = x ++ s ++ ds ∧ (x = g!"e" ∨ x = g!"E") ∧
    (s = [] ∨ s = g!"+" ∨ s = g!"-") ∧ Digits ds) (hr : NumEnds r) : ∀ c t, e ++ r = c :: t → isDigit c = false ∧ c ≠ '.' := by
  intro c t ht
  rcases h with rfl | ⟨x, s, ds, rfl, hx, -⟩
  · exact ⟨(hr c t ht).1, (hr c t ht).2.1⟩
  · rcases hx with rfl | rfl <;> cases ht <;> decide

theorem scanFraction_complete {f r : Str} (h : f = [] ∨ ∃ ds, f = g!"." ++ ds ∧ Digits ds)
    (hr : ∀ c t, r = c :: t → isDigit c = false ∧ c ≠ '.') : scanFraction (f ++ r) = some (f, r) := by
  rcases h with rfl | ⟨ds, rfl, hd⟩
  · show scanFraction r = _
    unfold scanFraction
    split
    · next t => exact absurd rfl (hr _ t rfl).2
    · rfl
  · show scanFraction ('.' :: (ds ++ r)) = _
    rw [scanFraction, scanDigits1_complete hd fun c t h => (hr c t h).1]
    rfl

theorem fraction_head {f r : Str} (h : f = [] ∨ ∃ ds, f = g!"." ++ ds ∧ Digits ds)
    (hr : ∀ c t, r = c :: t → isDigit c = false ∧ c ≠ '.') : NoDigit (f ++ r) := by
  intro c t ht
  rcases h with rfl | ⟨ds, rfl, -⟩
  · exact (hr c t ht).1
  · cases ht; decide

theorem scanInt_complete {i r : Str} (h : i = g!"0" ∨ (Digits i ∧ ∀ t, i ≠ '0' :: t)) (hr : NoDigit r) :
    scanInt (i ++ r) = some (i, r) := by
  rcases h with rfl | ⟨hd, h0⟩
  · rfl
  · unfold scanInt
    split
    · next t ht =>
      obtain ⟨c, u, rfl, -⟩ := digits_first hd
      cases ht
      exact absurd rfl (h0 u)
    · exact scanDigits1_complete hd hr

theorem scanNumber_complete {l r : Str} (h : NumberSpelt l) (hr : NumEnds r) : scanNumber (l ++ r) = some (l, r) := by
  obtain ⟨sign, i, f, e, rfl, hs, hi, hf, he⟩ := h
  have h1 := scanExponent_complete he hr
  have h1' := exponent_head he hr
  have h2 := scanFraction_complete hf h1'
  have h2' := fraction_head hf h1'
  have h3 := scanInt_complete hi h2'
  have h4 : scanSign (sign ++ (i ++ (f ++ (e ++ r)))) = (sign, i ++ (f ++ (e ++ r))) := by
    rcases hs with rfl | rfl
    · show scanSign (i ++ (f ++ (e ++ r))) = _
      unfold scanSign
      split
      · next t ht =>
        rcases hi with rfl | ⟨hd, -⟩
        · cases ht
        · obtain ⟨c, u, rfl, hc⟩ := digits_first hd
          cases ht
          exact absurd hc (by decide)
      · rfl
    · rfl
  simp only [List.append_assoc]
  unfold scanNumber
  simp only [h4, h3, h2, h1, List.append_assoc]

theorem number_head {l : Str} (h : NumberSpelt l) : ∃ c t, l = c :: t ∧ (c = '-' ∨ isDigit c = true) := by
  obtain ⟨sign, i, f, e, rfl, hs, hi, -, -⟩ := h
  rcases hs with rfl | rfl
  · rcases hi with rfl | ⟨hd, -⟩
    · exact ⟨_, _, rfl, .inr (by decide)⟩
    · obtain ⟨c, t, rfl, hc⟩ := digits_first hd
      exact ⟨c, _, rfl, .inr hc⟩
  · exact ⟨_, _, rfl, .inl rfl⟩

end Verif
