import Verif.Model.GoStr

/-!
# Texts that denote a number
-/

namespace Verif.Spec

/-- Decimal digits with their value. -/
inductive DigitsText : Str → Nat → Prop
  | one {d : Nat} (h : d < 10) : DigitsText [Nat.digitChar d] d
  | more {s : Str} {n d : Nat} (h : DigitsText s n) (h' : d < 10) : DigitsText (s ++ [Nat.digitChar d]) (10 * n + d)

/-- Decimal digits, with a sign or without, of a number that has 64 bits. -/
def NumberText (s : Str) (k : Int) : Prop :=
  -(2 ^ 63) ≤ k ∧ k < 2 ^ 63 ∧ ∃ ds n, DigitsText ds n ∧ (((s = ds ∨ s = '+' :: ds) ∧ k = n) ∨ (s = '-' :: ds ∧ k = -n))

end Verif.Spec
