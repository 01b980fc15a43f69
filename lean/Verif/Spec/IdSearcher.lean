import Verif.Model.GoStr

/-!
# License expressions and short-form identifiers
-/

namespace Verif.Spec

/-- `sep` occurs in `s` first between `a` and `b`. -/
def FirstAt (sep s a b : Str) : Prop :=
  s = a ++ sep ++ b ∧ ∀ a' b', s = a' ++ sep ++ b' → a.length ≤ a'.length

/-- Where license names in an expression end. -/
def IsBreak (c : Char) : Prop := c = ' ' ∨ c = '(' ∨ c = ')' ∨ c = '+'

/-- `w` is a longest stretch of `s` without break. -/
def Chunk (s w : Str) : Prop :=
  ∃ a b, s = a ++ w ++ b ∧ (∀ c ∈ w, ¬ IsBreak c) ∧ (a = [] ∨ ∃ x c, a = x ++ [c] ∧ IsBreak c) ∧
    (b = [] ∨ ∃ c y, b = c :: y ∧ IsBreak c)

/-- `x` is `w` without the white space around it. -/
def Stripped (w x : Str) : Prop :=
  ∃ l r, w = l ++ x ++ r ∧ (∀ c ∈ l ++ r, isSpace c = true) ∧
    (∀ c t, x = c :: t → isSpace c = false) ∧ ∀ c t, x = t ++ [c] → isSpace c = false

/-- An operator of license expressions, in any case. -/
def IsOperator (w : Str) : Prop :=
  w.map Char.toUpper = g!"AND" ∨ w.map Char.toUpper = g!"OR" ∨ w.map Char.toUpper = g!"WITH"

/-- `x` is the name of a license in the expression `s`. -/
def Names (s x : Str) : Prop := ∃ w, Chunk s w ∧ Stripped w x ∧ x ≠ [] ∧ ¬ IsOperator x

/-- The characters of identifiers: letters, digits, underscore, white space and `.-+()`. -/
def IsIdChar (c : Char) : Prop :=
  c.isAlphanum = true ∨ c ∈ ['_', '\t', '\n', '\x0c', '\r', ' ', '.', '-', '+', '(', ')']

instance (c : Char) : Decidable (IsIdChar c) := inferInstanceAs (Decidable (_ ∨ _))

/-- Only the identifier characters of a text. -/
def idChars (s : Str) : Str := s.filter fun c => decide (IsIdChar c)

/-- The line has a short-form identifier: the tag, after at most five identifier characters; the identifier
ends with the line or before `*/`; white space around it and other characters are left out. -/
def ShortForm (line id : Str) : Prop :=
  ∃ before after text, FirstAt g!"SPDX-License-Identifier:" line before after ∧ (idChars before).length ≤ 5 ∧
    ((∃ rest, FirstAt g!"*/" after text rest) ∨ (text = after ∧ ∀ a b, after ≠ a ++ g!"*/" ++ b)) ∧
    ∃ x, Stripped text x ∧ id = idChars x

/-- What a license expression means. -/
inductive Expr where
  | lic (name : Str)
  | and (a b : Expr)
  | or (a b : Expr)

inductive Level where
  | atom | and | or

/-- A license name or exception: no break between words and no operator. -/
def IsLicense (w : Str) : Prop := w ≠ [] ∧ ' ' ∉ w ∧ '(' ∉ w ∧ ')' ∉ w ∧ ¬ IsOperator w

/-- The grammar of license expressions: AND binds stronger than OR. -/
inductive Reads : Level → Str → Expr → Prop
  | word {w} : IsLicense w → Reads .atom w (.lic w)
  | exception {w x} : IsLicense w → IsLicense x → Reads .atom (w ++ g!" WITH " ++ x) (.lic (w ++ g!" WITH " ++ x))
  | paren {s e} : Reads .or s e → Reads .atom (g!"(" ++ s ++ g!")") e
  | and1 {s e} : Reads .atom s e → Reads .and s e
  | and {s t e f} : Reads .and s e → Reads .atom t f → Reads .and (s ++ g!" AND " ++ t) (.and e f)
  | or1 {s e} : Reads .and s e → Reads .or s e
  | or {s t e f} : Reads .or s e → Reads .and t f → Reads .or (s ++ g!" OR " ++ t) (.or e f)

/-- The conjunction of several expressions. -/
def conj (e : Expr) (es : List Expr) : Expr := es.foldl .and e

end Verif.Spec
