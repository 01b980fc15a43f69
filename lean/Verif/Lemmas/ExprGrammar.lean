import Verif.Spec.IdSearcher

/-!
# The grammar of license expressions is unambiguous
-/

namespace Verif
open Spec

/-- The word so far, if any. -/
def flushWord : Str → List Str
  | [] => []
  | w => [w]

/-- The words and parentheses of an expression. -/
def lexFrom : Str → Str → List Str
  | cur, [] => flushWord cur
  | cur, c :: s =>
    if c = ' ' then flushWord cur ++ lexFrom [] s
    else if c = '(' ∨ c = ')' then flushWord cur ++ [c] :: lexFrom [] s
    else lexFrom (cur ++ [c]) s

theorem lexFrom_space (b : Str) : ∀ (a cur : Str), lexFrom cur (a ++ ' ' :: b) = lexFrom cur a ++ lexFrom [] b
  | [], cur => by simp [lexFrom]
  | c :: a, cur => by
    have ih := lexFrom_space b a
    simp only [List.cons_append, lexFrom, ih]
    by_cases h1 : c = ' '
    · simp [h1]
    · by_cases h2 : c = '(' ∨ c = ')' <;> simp [h1, h2]

theorem lexFrom_close : ∀ (a cur : Str), lexFrom cur (a ++ [')']) = lexFrom cur a ++ [[')']]
  | [], cur => by simp [lexFrom, flushWord]
  | c :: a, cur => by
    have ih := lexFrom_close a
    simp only [List.cons_append, lexFrom, ih]
    by_cases h1 : c = ' '
    · simp [h1]
    · by_cases h2 : c = '(' ∨ c = ')' <;> simp [h1, h2]

theorem lexFrom_word : ∀ (w cur : Str), ' ' ∉ w → '(' ∉ w → ')' ∉ w → lexFrom cur w = flushWord (cur ++ w)
  | [], cur, _, _, _ => by simp [lexFrom]
  | c :: w, cur, h1, h2, h3 => by
    simp only [List.mem_cons, not_or] at h1 h2 h3
    simp only [lexFrom, Ne.symm h1.1, Ne.symm h2.1, Ne.symm h3.1, or_self, if_false]
    rw [lexFrom_word w _ h1.2 h2.2 h3.2]; simp

theorem flushWord_pos {w : Str} (h : w ≠ []) : flushWord w = [w] := by
  cases w with
  | nil => exact absurd rfl h
  | cons => rfl

/-- The grammar over words. -/
inductive ReadsT : Level → List Str → Expr → Prop
  | word {w} : IsLicense w → ReadsT .atom [w] (.lic w)
  | exception {w x} : IsLicense w → IsLicense x → ReadsT .atom [w, g!"WITH", x] (.lic (w ++ g!" WITH " ++ x))
  | paren {s e} : ReadsT .or s e → ReadsT .atom (g!"(" :: (s ++ [g!")"])) e
  | and1 {s e} : ReadsT .atom s e → ReadsT .and s e
  | and {s t e f} : ReadsT .and s e → ReadsT .atom t f → ReadsT .and (s ++ g!"AND" :: t) (.and e f)
  | or1 {s e} : ReadsT .and s e → ReadsT .or s e
  | or {s t e f} : ReadsT .or s e → ReadsT .and t f → ReadsT .or (s ++ g!"OR" :: t) (.or e f)

theorem lex_license {w : Str} (h : IsLicense w) : lexFrom [] w = [w] := by
  obtain ⟨h0, h1, h2, h3, _⟩ := h
  rw [lexFrom_word w [] h1 h2 h3, List.nil_append, flushWord_pos h0]

theorem lex_op (m s t : Str) (hm : ' ' ∉ m) (h2 : '(' ∉ m) (h3 : ')' ∉ m) (h0 : m ≠ []) :
    lexFrom [] (s ++ (' ' :: m ++ g!" ") ++ t) = lexFrom [] s ++ m :: lexFrom [] t := by
  have e : s ++ (' ' :: m ++ g!" ") ++ t = s ++ ' ' :: (m ++ ' ' :: t) := by
    change s ++ (' ' :: m ++ [' ']) ++ t = _
    simp
  rw [e, lexFrom_space, lexFrom_space, lexFrom_word m [] hm h2 h3, List.nil_append, flushWord_pos h0]
  rfl

theorem Spec.Reads.toT {lv : Level} {s : Str} {e : Expr} (h : Reads lv s e) : ReadsT lv (lexFrom [] s) e := by
  induction h with
  | word hw => rw [lex_license hw]; exact .word hw
  | exception hw hx =>
    rename_i w x
    rw [show (w ++ g!" WITH " ++ x) = w ++ (' ' :: g!"WITH" ++ g!" ") ++ x from rfl,
      lex_op g!"WITH" w x (by decide) (by decide) (by decide) (by decide), lex_license hw, lex_license hx]
    exact .exception hw hx
  | @paren s e _ ih =>
    have : lexFrom [] (g!"(" ++ s ++ g!")") = g!"(" :: (lexFrom [] s ++ [g!")"]) := by
      change lexFrom [] ('(' :: (s ++ [')'])) = _
      simp only [lexFrom, flushWord]
      rw [lexFrom_close]; rfl
    rw [this]; exact .paren ih
  | and1 _ ih => exact .and1 ih
  | @and s t e f _ _ ih1 ih2 =>
    rw [show (s ++ g!" AND " ++ t) = s ++ (' ' :: g!"AND" ++ g!" ") ++ t from rfl,
      lex_op g!"AND" s t (by decide) (by decide) (by decide) (by decide)]
    exact .and ih1 ih2
  | or1 _ ih => exact .or1 ih
  | @or s t e f _ _ ih1 ih2 =>
    rw [show (s ++ g!" OR " ++ t) = s ++ (' ' :: g!"OR" ++ g!" ") ++ t from rfl,
      lex_op g!"OR" s t (by decide) (by decide) (by decide) (by decide)]
    exact .or ih1 ih2

/-- How deep in parentheses one is after some words. -/
def nesting : List Str → Int
  | [] => 0
  | w :: ws => (if w = g!"(" then 1 else if w = g!")" then -1 else 0) + nesting ws

theorem nesting_append : ∀ a b, nesting (a ++ b) = nesting a + nesting b
  | [], b => by simp [nesting]
  | x :: a, b => by simp only [List.cons_append, nesting, nesting_append a b]; omega

theorem license_ne {w : Str} (h : IsLicense w) : w ≠ g!"(" ∧ w ≠ g!")" ∧ w ≠ g!"AND" ∧ w ≠ g!"OR" ∧ w ≠ g!"WITH" := by
  obtain ⟨_, _, h2, h3, h4⟩ := h
  refine ⟨?_, ?_, ?_, ?_, ?_⟩ <;> rintro rfl
  · exact h2 (by decide)
  · exact h3 (by decide)
  · exact h4 (.inl (by decide))
  · exact h4 (.inr (.inl (by decide)))
  · exact h4 (.inr (.inr (by decide)))

theorem nesting_word {w : Str} (h : IsLicense w) (ws : List Str) : nesting (w :: ws) = nesting ws := by
  simp [nesting, (license_ne h).1, (license_ne h).2.1]

theorem ReadsT.balanced {lv : Level} {ts : List Str} {e : Expr} (h : ReadsT lv ts e) :
    nesting ts = 0 ∧ ∀ p q, ts = p ++ q → 0 ≤ nesting p := by
  have two : ∀ (op : Str) (s t : List Str), nesting [op] = 0 → (nesting s = 0 ∧ ∀ p q, s = p ++ q → 0 ≤ nesting p) →
      (nesting t = 0 ∧ ∀ p q, t = p ++ q → 0 ≤ nesting p) →
      nesting (s ++ op :: t) = 0 ∧ ∀ p q, s ++ op :: t = p ++ q → 0 ≤ nesting p := by
    intro op s t hop ⟨hs, hs'⟩ ⟨ht, ht'⟩
    have hop' : ∀ l, nesting (op :: l) = nesting l := fun l => by
      have := nesting_append [op] l
      simpa [hop] using this
    refine ⟨by rw [nesting_append, hop', hs, ht]; rfl, fun p q e => ?_⟩
    rcases List.append_eq_append_iff.1 e with ⟨a, rfl, ha⟩ | ⟨a, rfl, ha⟩
    · rw [nesting_append, hs]
      cases a with
      | nil => simp [nesting]
      | cons x a =>
        injection ha with h1 h2
        subst h1
        rw [hop']
        have := ht' a q h2
        omega
    · exact hs' p a rfl
  induction h with
  | word hw =>
    refine ⟨by rw [nesting_word hw]; rfl, fun p q e => ?_⟩
    cases p with
    | nil => simp [nesting]
    | cons x p =>
      simp only [List.cons_append, List.cons.injEq] at e
      obtain ⟨rfl, e⟩ := e
      have : p = [] := by
        cases p with
        | nil => rfl
        | cons y p => simp at e
      subst this
      rw [nesting_word hw]; simp [nesting]
  | @exception w x hw hx =>
    have hp : ∀ p q, [w, g!"WITH", x] = p ++ q → nesting p = 0 := by
      intro p q e
      match p with
      | [] => rfl
      | [a] =>
        simp only [List.cons_append, List.nil_append, List.cons.injEq] at e
        rw [← e.1, nesting_word hw]; rfl
      | [a, b] =>
        simp only [List.cons_append, List.nil_append, List.cons.injEq] at e
        rw [← e.1, ← e.2.1, nesting_word hw]; rfl
      | [a, b, c] =>
        simp only [List.cons_append, List.nil_append, List.cons.injEq] at e
        rw [← e.1, ← e.2.1, ← e.2.2.1, nesting_word hw, show nesting [g!"WITH", x] = nesting [x] from by simp [nesting], nesting_word hx]; rfl
      | _ :: _ :: _ :: _ :: _ => simp at e
    exact ⟨hp _ [] (by simp), fun p q e => by rw [hp p q e]; omega⟩
  | @paren s e _ ih =>
    obtain ⟨h0, hp⟩ := ih
    have ho : ∀ l, nesting (g!"(" :: l) = 1 + nesting l := fun l => rfl
    have hc : nesting [g!")"] = -1 := rfl
    refine ⟨by rw [ho, nesting_append, h0, hc]; rfl, fun p q e => ?_⟩
    cases p with
    | nil => simp [nesting]
    | cons x p =>
      simp only [List.cons_append, List.cons.injEq] at e
      obtain ⟨rfl, e⟩ := e
      rw [ho]
      rcases List.append_eq_append_iff.1 e with ⟨a, rfl, ha⟩ | ⟨a, rfl, ha⟩
      · rw [nesting_append, h0]
        cases a with
        | nil => simp [nesting]
        | cons y a =>
          simp only [List.cons_append, List.cons.injEq] at ha
          obtain ⟨rfl, ha⟩ := ha
          have : a = [] := by
            cases a with
            | nil => rfl
            | cons z a => simp at ha
          subst this
          rw [hc]; omega
      · have := hp p a rfl; omega
  | and1 _ ih => exact ih
  | and _ _ ih1 ih2 => exact two _ _ _ rfl ih1 ih2
  | or1 _ ih => exact ih
  | or _ _ ih1 ih2 => exact two _ _ _ rfl ih1 ih2

theorem ReadsT.atom_op {s : List Str} {e : Expr} (h : ReadsT .atom s e) {op : Str} (hop : op = g!"AND" ∨ op = g!"OR")
    {a b : List Str} (hs : s = a ++ op :: b) : 1 ≤ nesting a := by
  cases h with
  | @word w hw =>
    exfalso
    have hne := license_ne hw
    cases a with
    | nil =>
      simp only [List.nil_append, List.cons.injEq] at hs
      rcases hop with rfl | rfl
      · exact hne.2.2.1 hs.1
      · exact hne.2.2.2.1 hs.1
    | cons x a => simp at hs
  | @exception w x hw hx =>
    exfalso
    have hne := license_ne hw
    have hne' := license_ne hx
    match a with
    | [] =>
      simp only [List.nil_append, List.cons.injEq] at hs
      rcases hop with rfl | rfl
      · exact hne.2.2.1 hs.1
      · exact hne.2.2.2.1 hs.1
    | [y] =>
      simp only [List.cons_append, List.nil_append, List.cons.injEq] at hs
      have := hs.2.1
      rcases hop with rfl | rfl <;> revert this <;> decide
    | [y, z] =>
      simp only [List.cons_append, List.nil_append, List.cons.injEq] at hs
      rcases hop with rfl | rfl
      · exact hne'.2.2.1 hs.2.2.1
      · exact hne'.2.2.2.1 hs.2.2.1
    | _ :: _ :: _ :: _ => simp at hs
  | @paren s e hr =>
    cases a with
    | nil =>
      exfalso
      simp only [List.nil_append, List.cons.injEq] at hs
      have := hs.1
      rcases hop with rfl | rfl <;> revert this <;> decide
    | cons x a =>
      simp only [List.cons_append, List.cons.injEq] at hs
      obtain ⟨rfl, hs⟩ := hs
      have ho : nesting (g!"(" :: a) = 1 + nesting a := rfl
      rw [ho]
      rcases List.append_eq_append_iff.1 hs with ⟨c, rfl, hc⟩ | ⟨c, rfl, hc⟩
      · exfalso
        cases c with
        | nil =>
          simp only [List.nil_append, List.cons.injEq] at hc
          have := hc.1
          rcases hop with rfl | rfl <;> revert this <;> decide
        | cons y c => simp at hc
      · have := hr.balanced.2 a c rfl; omega

theorem ReadsT.and_or {s : List Str} {e : Expr} {lv : Level} (h : ReadsT lv s e) (hl : lv = .and) {a b : List Str}
    (hs : s = a ++ g!"OR" :: b) : 1 ≤ nesting a := by
  induction h generalizing a b with
  | word => cases hl
  | exception => cases hl
  | paren => cases hl
  | and1 h => exact h.atom_op (.inr rfl) hs
  | @and s t e f h1 h2 ih1 _ =>
    rcases List.append_eq_append_iff.1 hs with ⟨c, rfl, hc⟩ | ⟨c, rfl, hc⟩
    · cases c with
      | nil =>
        exfalso
        simp only [List.nil_append, List.cons.injEq] at hc
        have := hc.1
        revert this; decide
      | cons x c =>
        simp only [List.cons_append, List.cons.injEq] at hc
        obtain ⟨rfl, hc⟩ := hc
        have := h2.atom_op (.inr rfl) hc
        rw [nesting_append, h1.balanced.1, show nesting (g!"AND" :: c) = nesting c from by simp [nesting]]
        omega
    · cases c with
      | nil =>
        exfalso
        simp only [List.nil_append, List.cons.injEq] at hc
        have := hc.1
        revert this; decide
      | cons x c =>
        simp only [List.cons_append, List.cons.injEq] at hc
        obtain ⟨rfl, hc⟩ := hc
        exact ih1 rfl rfl
  | or1 => cases hl
  | or => cases hl

/-- Where the last operator outside parentheses is. -/
theorem op_split_unique {op : Str} {s t s' t' : List Str} (hop : nesting [op] = 0) (h : s ++ op :: t = s' ++ op :: t')
    (hs : nesting s = 0) (hs' : nesting s' = 0) (ht : ∀ a b, t = a ++ op :: b → 1 ≤ nesting a)
    (ht' : ∀ a b, t' = a ++ op :: b → 1 ≤ nesting a) : s = s' ∧ t = t' := by
  rcases List.append_eq_append_iff.1 h with ⟨c, rfl, hc⟩ | ⟨c, rfl, hc⟩
  · cases c with
    | nil => simp only [List.nil_append, List.cons.injEq] at hc; exact ⟨by simp, hc.2⟩
    | cons x c =>
      simp only [List.cons_append, List.cons.injEq] at hc
      obtain ⟨rfl, hc⟩ := hc
      have h1 := ht c t' hc
      have h2 := nesting_append [op] c
      rw [nesting_append, hs] at hs'
      simp only [List.cons_append, List.nil_append, hop] at h2
      omega
  · cases c with
    | nil => simp only [List.nil_append, List.cons.injEq] at hc; exact ⟨by simp, hc.2.symm⟩
    | cons x c =>
      simp only [List.cons_append, List.cons.injEq] at hc
      obtain ⟨rfl, hc⟩ := hc
      have h1 := ht' c t hc
      have h2 := nesting_append [op] c
      rw [nesting_append, hs'] at hs
      simp only [List.cons_append, List.nil_append, hop] at h2
      omega

theorem ReadsT.unique {lv : Level} {ts : List Str} {e : Expr} (h : ReadsT lv ts e) : ∀ {e'}, ReadsT lv ts e' → e = e' := by
  induction h with
  | @word w hw =>
    intro e' h'
    generalize hts : [w] = ts at h'
    cases h' with
    | word => injection hts with h1; rw [h1]
    | exception => simp at hts
    | paren => simp at hts
  | @exception w x hw hx =>
    intro e' h'
    generalize hts : [w, g!"WITH", x] = ts at h'
    cases h' with
    | word => simp at hts
    | exception => injection hts with h1 h2; injection h2 with _ h2; injection h2 with h2; rw [h1, h2]
    | paren =>
      injection hts with h1
      exact absurd h1 (license_ne hw).1
  | @paren s e hr ih =>
    intro e' h'
    generalize hts : g!"(" :: (s ++ [g!")"]) = ts at h'
    cases h' with
    | word hw => injection hts with h1; exact absurd h1.symm (license_ne hw).1
    | exception hw => injection hts with h1; exact absurd h1.symm (license_ne hw).1
    | @paren s' _ hr' =>
      injection hts with _ h
      have := List.append_cancel_right h
      subst this
      exact ih hr'
  | @and1 s e ha ih =>
    intro e' h'
    generalize hts : s = ts at h'
    cases h' with
    | and1 ha' => subst hts; exact ih ha'
    | and h1 h2 =>
      have := ha.atom_op (.inl rfl) hts
      rw [h1.balanced.1] at this
      omega
  | @and s t e f h1 h2 ih1 ih2 =>
    intro e' h'
    generalize hts : s ++ g!"AND" :: t = ts at h'
    cases h' with
    | and1 ha =>
      have := ha.atom_op (.inl rfl) hts.symm
      rw [h1.balanced.1] at this
      omega
    | and h1' h2' =>
      obtain ⟨rfl, rfl⟩ := op_split_unique rfl hts h1.balanced.1 h1'.balanced.1
        (fun a b e => h2.atom_op (.inl rfl) e) (fun a b e => h2'.atom_op (.inl rfl) e)
      rw [ih1 h1', ih2 h2']
  | @or1 s e ha ih =>
    intro e' h'
    generalize hts : s = ts at h'
    cases h' with
    | or1 ha' => subst hts; exact ih ha'
    | or h1 h2 =>
      have := ha.and_or rfl hts
      rw [h1.balanced.1] at this
      omega
  | @or s t e f h1 h2 ih1 ih2 =>
    intro e' h'
    generalize hts : s ++ g!"OR" :: t = ts at h'
    cases h' with
    | or1 ha =>
      have := ha.and_or rfl hts.symm
      rw [h1.balanced.1] at this
      omega
    | or h1' h2' =>
      obtain ⟨rfl, rfl⟩ := op_split_unique rfl hts h1.balanced.1 h1'.balanced.1
        (fun a b e => h2.and_or rfl e) (fun a b e => h2'.and_or rfl e)
      rw [ih1 h1', ih2 h2']

/-- An expression has at most one meaning. -/
theorem Spec.Reads.unique {lv : Level} {s : Str} {e e' : Expr} (h : Reads lv s e) (h' : Reads lv s e') : e = e' :=
  h.toT.unique h'.toT

end Verif
