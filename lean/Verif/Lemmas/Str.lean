import Verif.Model.GoStr

/-!
# Lemmas about Go strings
-/

namespace Verif

/-! ## Prefixes -/

theorem cutPrefix_eq_some {p s r : Str} : cutPrefix p s = some r ↔ s = p ++ r := by
  induction p generalizing s with
  | nil => simp [cutPrefix, eq_comm]
  | cons a p ih =>
    cases s with
    | nil => simp [cutPrefix]
    | cons c s =>
      simp only [cutPrefix, List.cons_append, List.cons.injEq]
      by_cases h : a = c
      · simp [h, ih]
      · simp [h]; intro h'; exact absurd h'.symm h

theorem cutPrefix_append (p r : Str) : cutPrefix p (p ++ r) = some r := cutPrefix_eq_some.2 rfl

theorem cutPrefix_self (p : Str) : cutPrefix p p = some [] := by
  have := cutPrefix_append p []; simpa using this

theorem cutPrefix_eq_none {p s : Str} : cutPrefix p s = none ↔ ∀ r, s ≠ p ++ r := by
  constructor
  · intro h r hr; rw [cutPrefix_eq_some.2 hr] at h; simp at h
  · intro h
    cases hc : cutPrefix p s with
    | none => rfl
    | some r => exact absurd (cutPrefix_eq_some.1 hc) (h r)

theorem hasPrefix_iff {p s : Str} : hasPrefix p s = true ↔ ∃ r, s = p ++ r := by
  unfold hasPrefix
  rw [List.isPrefixOf_iff_prefix]
  constructor
  · rintro ⟨r, h⟩; exact ⟨r, h.symm⟩
  · rintro ⟨r, h⟩; exact ⟨r, h.symm⟩

theorem hasPrefix_false_iff {p s : Str} : hasPrefix p s = false ↔ ∀ r, s ≠ p ++ r := by
  constructor
  · intro h r hr
    have := hasPrefix_iff.2 ⟨r, hr⟩
    simp [h] at this
  · intro h
    cases hp : hasPrefix p s with
    | false => rfl
    | true => obtain ⟨r, hr⟩ := hasPrefix_iff.1 hp; exact absurd hr (h r)

@[simp] theorem hasPrefix_append (p r : Str) : hasPrefix p (p ++ r) = true := hasPrefix_iff.2 ⟨r, rfl⟩

theorem hasSuffix_iff {p s : Str} : hasSuffix p s = true ↔ ∃ r, s = r ++ p := by
  unfold hasSuffix
  rw [List.isPrefixOf_iff_prefix]
  constructor
  · rintro ⟨r, h⟩
    refine ⟨r.reverse, ?_⟩
    have := congrArg List.reverse h
    simpa using this.symm
  · rintro ⟨r, h⟩
    refine ⟨r.reverse, ?_⟩
    simp [h]

@[simp] theorem trimPrefix_append (p r : Str) : trimPrefix p (p ++ r) = r := by
  simp [trimPrefix, cutPrefix_append]

@[simp] theorem trimSuffix_append (p r : Str) : trimSuffix p (r ++ p) = r := by
  simp [trimSuffix]

/-! ## Cutting at a separator -/

theorem cut_eq {sep : Str} {s a b : Str} (h : cut sep s = some (a, b)) : s = a ++ sep ++ b := by
  induction s generalizing a b with
  | nil =>
    simp only [cut] at h
    split at h
    · simp at h; obtain ⟨rfl, rfl⟩ := h; simp_all
    · simp at h
  | cons c t ih =>
    simp only [cut] at h
    split at h
    · rename_i r hr
      simp at h
      obtain ⟨rfl, rfl⟩ := h
      simpa using cutPrefix_eq_some.1 hr
    · cases hc : cut sep t with
      | none => simp [hc] at h
      | some x =>
        obtain ⟨x, y⟩ := x
        simp [hc] at h
        obtain ⟨rfl, rfl⟩ := h
        have := ih hc
        simp [this]

theorem cut_isSome_append (sep a b : Str) : (cut sep (a ++ sep ++ b)).isSome = true := by
  induction a with
  | nil =>
    cases sep with
    | nil => cases b <;> simp [cut, cutPrefix]
    | cons x sep =>
      simp only [List.nil_append, List.cons_append, cut]
      rw [← List.cons_append, cutPrefix_append]; rfl
  | cons c a ih =>
    simp only [List.cons_append, cut]
    split
    · rfl
    · rw [List.append_assoc] at ih ⊢
      simpa using ih

theorem contains_iff {sub s : Str} : contains sub s = true ↔ ∃ a b, s = a ++ sub ++ b := by
  unfold contains
  constructor
  · intro h
    obtain ⟨⟨a, b⟩, hx⟩ := Option.isSome_iff_exists.1 h
    exact ⟨a, b, cut_eq hx⟩
  · rintro ⟨a, b, rfl⟩
    exact cut_isSome_append sub a b

theorem contains_false_iff {sub s : Str} : contains sub s = false ↔ ∀ a b, s ≠ a ++ sub ++ b := by
  constructor
  · intro h a b hs
    have := contains_iff.2 ⟨a, b, hs⟩
    simp [h] at this
  · intro h
    cases hc : contains sub s with
    | false => rfl
    | true => obtain ⟨a, b, hab⟩ := contains_iff.1 hc; exact absurd hab (h a b)

theorem cut_none_of_not_contains {sub s : Str} (h : contains sub s = false) : cut sub s = none := by
  unfold contains at h; simpa using h

theorem contains_of_cut_some {sub s : Str} {x : Str × Str} (h : cut sub s = some x) :
    contains sub s = true := by simp [contains, h]

theorem contains_single {c : Char} {s : Str} : contains [c] s = true ↔ c ∈ s := by
  rw [contains_iff]
  constructor
  · rintro ⟨a, b, rfl⟩; simp
  · intro h
    obtain ⟨a, b, h⟩ := List.append_of_mem h
    exact ⟨a, b, by simp [h]⟩

theorem contains_single_false {c : Char} {s : Str} : contains [c] s = false ↔ c ∉ s := by
  rw [← Bool.not_eq_true, contains_single]

/-- A match that begins before a character not occurring in the pattern ends before it. -/
theorem cutPrefix_before {p w z : Str} {c : Char} (hc : c ∉ p) :
    cutPrefix p (w ++ c :: z) = (cutPrefix p w).map (· ++ c :: z) := by
  induction p generalizing w with
  | nil => simp [cutPrefix]
  | cons a p ih =>
    have h1 : a ≠ c := fun h => hc (by simp [h])
    have h2 : c ∉ p := fun h => hc (by simp [h])
    cases w with
    | nil => simp [cutPrefix, h1]
    | cons b w =>
      simp only [List.cons_append, cutPrefix]
      by_cases h : a = b
      · simp [h, ih h2]
      · simp [h]

/-- Cutting at the first occurrence, when the separator's first character does not recur in it
(so that occurrences cannot overlap). -/
theorem cut_append_sep {c : Char} {t v r : Str} (ht : c ∉ t) (hv : contains (c :: t) v = false) :
    cut (c :: t) (v ++ (c :: t) ++ r) = some (v, r) := by
  induction v with
  | nil =>
    simp only [List.nil_append, List.cons_append, cut]
    rw [← List.cons_append, cutPrefix_append]
  | cons x v ih =>
    have hv' : contains (c :: t) v = false := by
      rw [contains_false_iff] at hv ⊢
      intro a b h
      exact hv (x :: a) b (by simp [h])
    have hp : cutPrefix (c :: t) (x :: v) = none := by
      rw [cutPrefix_eq_none]
      intro r' h
      rw [contains_false_iff] at hv
      exact hv [] r' (by simpa using h)
    simp only [List.cons_append, cut]
    have : cutPrefix (c :: t) (x :: (v ++ c :: t ++ r)) = none := by
      simp only [cutPrefix] at hp ⊢
      split
      · rename_i heq
        simp only [heq, if_true] at hp
        rw [List.append_assoc, List.cons_append, cutPrefix_before ht]
        simp [hp]
      · rfl
    rw [List.append_assoc, List.cons_append] at this
    rw [List.append_assoc, List.cons_append, this]
    rw [List.append_assoc, List.cons_append] at ih
    simp [ih hv']

theorem cut_single {c : Char} {a b : Str} (h : c ∉ a) : cut [c] (a ++ c :: b) = some (a, b) := by
  have := cut_append_sep (c := c) (t := []) (v := a) (r := b) (by simp) (contains_single_false.2 h)
  simpa using this

theorem cut_single_none {c : Char} {a : Str} (h : c ∉ a) : cut [c] a = none :=
  cut_none_of_not_contains (contains_single_false.2 h)

theorem cut_single_eq {c : Char} {s a b : Str} : cut [c] s = some (a, b) ↔ s = a ++ c :: b ∧ c ∉ a := by
  constructor
  · intro h
    refine ⟨by simpa using cut_eq h, ?_⟩
    induction s generalizing a b with
    | nil => simp [cut] at h
    | cons x s ih =>
      simp only [cut, cutPrefix] at h
      by_cases hx : c = x
      · subst hx; simp at h; simp [h.1]
      · simp only [hx, if_false] at h
        cases hc : cut [c] s with
        | none => simp [hc] at h
        | some y =>
          obtain ⟨y, z⟩ := y
          simp [hc] at h
          obtain ⟨rfl, rfl⟩ := h
          simp [hx, ih hc]
  · rintro ⟨rfl, h⟩; exact cut_single h

/-! ## Splitting at a character -/

theorem splitChar_ne_nil (c : Char) (s : Str) : splitChar c s ≠ [] := by
  cases s with
  | nil => simp [splitChar]
  | cons x s =>
    simp only [splitChar]
    split
    · simp
    · split <;> simp

theorem splitChar_cons_ne {c x : Char} {s : Str} (h : x ≠ c) :
    ∃ w ws, splitChar c s = w :: ws ∧ splitChar c (x :: s) = (x :: w) :: ws := by
  cases hs : splitChar c s with
  | nil => exact absurd hs (splitChar_ne_nil c s)
  | cons w ws => exact ⟨w, ws, rfl, by simp [splitChar, h, hs]⟩

theorem splitChar_of_not_mem {c : Char} {s : Str} (h : c ∉ s) : splitChar c s = [s] := by
  induction s with
  | nil => rfl
  | cons x s ih =>
    have hx : x ≠ c := fun e => h (by simp [e])
    have hs : c ∉ s := fun e => h (by simp [e])
    simp [splitChar, hx, ih hs]

theorem splitChar_append (c : Char) (a b : Str) :
    splitChar c (a ++ c :: b) = splitChar c a ++ splitChar c b := by
  induction a with
  | nil => simp [splitChar]
  | cons x a ih =>
    by_cases hx : x = c
    · simp [splitChar, hx, ih]
    · obtain ⟨w, ws, h1, h2⟩ := splitChar_cons_ne (s := a) hx
      rw [h2]
      simp [splitChar, hx, ih, h1]

theorem splitChar_mem_not_mem {c : Char} {s w : Str} (h : w ∈ splitChar c s) : c ∉ w := by
  induction s generalizing w with
  | nil => simp [splitChar] at h; simp [h]
  | cons x s ih =>
    by_cases hx : x = c
    · simp only [splitChar, hx, if_true, List.mem_cons] at h
      rcases h with rfl | h
      · simp
      · exact ih h
    · obtain ⟨v, vs, h1, h2⟩ := splitChar_cons_ne (s := s) hx
      rw [h2] at h
      rcases List.mem_cons.1 h with rfl | h
      · have := ih (w := v) (by simp [h1])
        simp [this, Ne.symm hx]
      · exact ih (by simp [h1, h])

theorem join_splitChar (c : Char) (s : Str) : join [c] (splitChar c s) = s := by
  induction s with
  | nil => rfl
  | cons x s ih =>
    by_cases hx : x = c
    · simp only [splitChar, hx, if_true]
      cases hs : splitChar c s with
      | nil => exact absurd hs (splitChar_ne_nil c s)
      | cons w ws => simp only [join]; rw [← hs, ih]; simp
    · obtain ⟨v, vs, h1, h2⟩ := splitChar_cons_ne (s := s) hx
      rw [h2]
      rw [h1] at ih
      cases vs with
      | nil => simp only [join] at ih ⊢; simp [ih]
      | cons y ys => simp only [join, List.cons_append] at ih ⊢; simp [ih]

/-! ## Trimming -/

theorem trimLeft_of_head {p : Char → Bool} {c : Char} {s : Str} (h : p c = false) :
    trimLeft p (c :: s) = c :: s := by simp [trimLeft, h]

theorem trimLeft_eq_self_iff {p : Char → Bool} {s : Str} :
    trimLeft p s = s ↔ ∀ c t, s = c :: t → p c = false := by
  cases s with
  | nil => simp [trimLeft]
  | cons c t =>
    simp only [trimLeft, List.dropWhile_cons]
    constructor
    · intro h c' t' e
      cases e
      by_cases hp : p c = true
      · simp only [hp, if_true] at h
        have : (List.dropWhile p t).length ≤ t.length := (List.dropWhile_suffix p).length_le
        have h2 := congrArg List.length h
        simp at h2; omega
      · simpa using hp
    · intro h
      simp [h c t rfl]

/-- `s` neither starts nor ends with a character satisfying `p`. -/
def Trimmed (p : Char → Bool) (s : Str) : Prop :=
  (∀ c t, s = c :: t → p c = false) ∧ (∀ c t, s = t ++ [c] → p c = false)

theorem trimRight_eq_self_iff {p : Char → Bool} {s : Str} :
    trimRight p s = s ↔ ∀ c t, s = t ++ [c] → p c = false := by
  have h : trimRight p s = s ↔ trimLeft p s.reverse = s.reverse := by
    unfold trimRight trimLeft
    constructor
    · intro h; have := congrArg List.reverse h; simpa using this
    · intro h; have := congrArg List.reverse h; simpa using this
  rw [h, trimLeft_eq_self_iff]
  constructor
  · intro H c t e; exact H c t.reverse (by simp [e])
  · intro H c t e
    refine H c t.reverse ?_
    have := congrArg List.reverse e
    simpa using this

theorem trimRight_prefix (p : Char → Bool) (s : Str) : ∃ r, s = trimRight p s ++ r ∧ ∀ c ∈ r, p c = true := by
  refine ⟨(s.reverse.takeWhile p).reverse, ?_, ?_⟩
  · have h := List.takeWhile_append_dropWhile (p := p) (l := s.reverse)
    have := congrArg List.reverse h
    simp only [List.reverse_append, List.reverse_reverse] at this
    exact this.symm
  · intro c hc
    rw [List.mem_reverse] at hc
    have := List.all_takeWhile (p := p) (l := s.reverse)
    exact List.all_eq_true.1 this c hc

theorem trimLeft_suffix (p : Char → Bool) (s : Str) : ∃ r, s = r ++ trimLeft p s ∧ ∀ c ∈ r, p c = true := by
  refine ⟨s.takeWhile p, ?_, ?_⟩
  · exact (List.takeWhile_append_dropWhile (p := p) (l := s)).symm
  · intro c hc
    exact List.all_eq_true.1 (List.all_takeWhile (p := p) (l := s)) c hc

theorem trimLeft_trimmed (p : Char → Bool) (s : Str) : ∀ c t, trimLeft p s = c :: t → p c = false := by
  intro c t h
  have := List.head?_dropWhile_not (p := p) s
  unfold trimLeft at h
  rw [h] at this
  simpa using this

theorem trimRight_trimmed (p : Char → Bool) (s : Str) : ∀ c t, trimRight p s = t ++ [c] → p c = false := by
  intro c t h
  have h2 : trimLeft p s.reverse = c :: t.reverse := by
    have := congrArg List.reverse h
    simpa [trimRight, trimLeft] using this
  exact trimLeft_trimmed p _ _ _ h2

theorem trim_trimmed (p : Char → Bool) (s : Str) : Trimmed p (trim p s) := by
  refine ⟨?_, trimRight_trimmed p _⟩
  intro c t h
  obtain ⟨r, hr, -⟩ := trimRight_prefix p (trimLeft p s)
  unfold trim at h
  rw [h] at hr
  exact trimLeft_trimmed p s c (t ++ r) (by simpa using hr)

theorem trim_eq_self_iff {p : Char → Bool} {s : Str} : trim p s = s ↔ Trimmed p s := by
  constructor
  · intro h; rw [← h]; exact trim_trimmed p s
  · rintro ⟨h1, h2⟩
    unfold trim
    rw [trimLeft_eq_self_iff.2 h1, trimRight_eq_self_iff.2 h2]

theorem trim_of_trimmed {p : Char → Bool} {s : Str} (h : Trimmed p s) : trim p s = s :=
  trim_eq_self_iff.2 h

@[simp] theorem trim_trim (p : Char → Bool) (s : Str) : trim p (trim p s) = trim p s :=
  trim_of_trimmed (trim_trimmed p s)

theorem trimmed_nil (p : Char → Bool) : Trimmed p [] := by
  constructor <;> simp

/-- Padding on both sides is removed. -/
theorem trim_pad {p : Char → Bool} {a s b : Str} (ha : ∀ c ∈ a, p c = true) (hb : ∀ c ∈ b, p c = true)
    (hs : Trimmed p s) : trim p (a ++ s ++ b) = s := by
  have hL : ∀ (x : Str), trimLeft p (a ++ x) = trimLeft p x := by
    intro x
    induction a with
    | nil => rfl
    | cons y a ih =>
      have hy := ha y (by simp)
      simp only [trimLeft, List.cons_append, List.dropWhile_cons, hy, if_true]
      exact ih (fun c hc => ha c (by simp [hc]))
  have hR : ∀ (x : Str), trimRight p (x ++ b) = trimRight p x := by
    intro x
    unfold trimRight
    rw [List.reverse_append]
    have : ∀ (b' : Str), (∀ c ∈ b', p c = true) → List.dropWhile p (b' ++ x.reverse) = List.dropWhile p x.reverse := by
      intro b'
      induction b' with
      | nil => simp
      | cons y b' ih =>
        intro h
        simp only [List.cons_append, List.dropWhile_cons, h y (by simp), if_true]
        exact ih (fun c hc => h c (by simp [hc]))
    rw [this b.reverse (fun c hc => hb c (by simpa using hc))]
  unfold trim
  cases s with
  | nil =>
    rw [List.append_assoc, hL]
    have h0 : trimLeft p ([] ++ b) = [] := by
      have : ∀ (b' : Str), (∀ c ∈ b', p c = true) → List.dropWhile p b' = [] := by
        intro b'
        induction b' with
        | nil => simp
        | cons y b' ih =>
          intro h
          simp only [List.dropWhile_cons, h y (by simp), if_true]
          exact ih (fun c hc => h c (by simp [hc]))
      exact this b hb
    rw [h0]; rfl
  | cons c t =>
    rw [List.append_assoc, hL]
    have : trimLeft p (c :: t ++ b) = c :: t ++ b := by
      rw [List.cons_append]
      exact trimLeft_of_head (hs.1 c t rfl)
    rw [this, hR, trimRight_eq_self_iff.2 hs.2]

theorem trimSpace_pad_left {s : Str} (h : Trimmed isSpace s) : trimSpace (' ' :: s) = s := by
  have := trim_pad (p := isSpace) (a := [' ']) (b := []) (s := s) (by decide) (by simp) h
  simpa [trimSpace] using this

theorem mem_of_mem_trim {p : Char → Bool} {s : Str} {c : Char} (h : c ∈ trim p s) : c ∈ s := by
  obtain ⟨r, hr, -⟩ := trimRight_prefix p (trimLeft p s)
  obtain ⟨l, hl, -⟩ := trimLeft_suffix p s
  rw [hl, hr]
  unfold trim at h
  simp [h]

/-! ## Lines -/

theorem rawLines_append (a b : Str) : rawLines (a ++ '\n' :: b) = splitChar '\n' a ++ rawLines b := by
  unfold rawLines
  simp only [splitChar_append]
  have hb := splitChar_ne_nil '\n' b
  have hl : (splitChar '\n' a ++ splitChar '\n' b).getLast? = (splitChar '\n' b).getLast? := by
    rw [List.getLast?_append]
    cases h : (splitChar '\n' b).getLast? with
    | none => exact absurd (List.getLast?_eq_none_iff.1 h) hb
    | some x => rfl
  rw [hl]
  split
  · rw [List.dropLast_append_of_ne_nil hb]
  · rfl

theorem rawLines_nil : rawLines [] = [] := by simp [rawLines, splitChar]

theorem mem_rawLines {s l : Str} (h : l ∈ rawLines s) : l ∈ splitChar '\n' s := by
  simp only [rawLines] at h
  split at h
  · exact List.dropLast_subset _ h
  · exact h

theorem dropCR_of_last_ne {l : Str} (h : ∀ t, l ≠ t ++ ['\r']) : dropCR l = l := by
  unfold dropCR
  split
  · rename_i t ht
    exfalso
    have := congrArg List.reverse ht
    simp at this
    exact h t.reverse this
  · rfl

end Verif
