import Verif.Spec.IdSearcher
import Verif.Spec.Number

/-!
# What the operations on texts do

The words in which many of the other specifications are written: trimming, cutting, splitting, joining, comparing and
measuring texts.
-/

namespace Verif.Spec

/-- White space of Unicode: the characters with the property White_Space. -/
def whiteSpace : List Nat :=
  [0x9, 0xA, 0xB, 0xC, 0xD, 0x20, 0x85, 0xA0, 0x1680, 0x2000, 0x2001, 0x2002, 0x2003, 0x2004, 0x2005, 0x2006, 0x2007, 0x2008,
   0x2009, 0x200A, 0x2028, 0x2029, 0x202F, 0x205F, 0x3000]

/-- `x` is `s` without the characters at its ends that are in a set. -/
def WithoutEnds (set : Char → Prop) (s x : Str) : Prop :=
  ∃ l r, s = l ++ x ++ r ∧ (∀ c ∈ l ++ r, set c) ∧ (∀ c t, x = c :: t → ¬ set c) ∧ ∀ c t, x = t ++ [c] → ¬ set c

/-- `s` is the first one of the pieces, and then a separator and a piece again and again. -/
def Pieces (sep s : Str) : List Str → Prop
  | [] => False
  | p :: rest => s = p ++ (rest.map fun q => sep ++ q).flatten

/-- `a` comes before `b` in the dictionary: at the first difference `a` ends or has the smaller character. -/
def Before (a b : Str) : Prop :=
  (∃ c r, b = a ++ c :: r) ∨ ∃ p c d r r', a = p ++ c :: r ∧ b = p ++ d :: r' ∧ c.toNat < d.toNat

end Verif.Spec
