import Verif.Model.GoStr

/-!
# How a text may be written as a JSON string
-/

namespace Verif.Spec

/-- A hexadecimal digit, of either case, with its value. -/
def HexDigit (c : Char) (n : Nat) : Prop :=
  (g!"0123456789abcdef")[n]? = some c ∨ (g!"0123456789ABCDEF")[n]? = some c

/-- Four hexadecimal digits and their value. -/
inductive Hex4 : Str → Nat → Prop
  | mk {a b c d : Char} {k l m n : Nat} : HexDigit a k → HexDigit b l → HexDigit c m → HexDigit d n →
      Hex4 [a, b, c, d] (4096 * k + 256 * l + 16 * m + n)

/-- How one character may be written between the quotes. -/
inductive CharSpelled : Char → Str → Prop
  | plain {c} : c ≠ '\\' → c ≠ '"' → CharSpelled c [c]
  | quote : CharSpelled '"' ['\\', '"']
  | backslash : CharSpelled '\\' ['\\', '\\']
  | slash : CharSpelled '/' ['\\', '/']
  | backspace : CharSpelled (Char.ofNat 8) ['\\', 'b']
  | formFeed : CharSpelled (Char.ofNat 12) ['\\', 'f']
  | newline : CharSpelled (Char.ofNat 10) ['\\', 'n']
  | carriageReturn : CharSpelled (Char.ofNat 13) ['\\', 'r']
  | tab : CharSpelled (Char.ofNat 9) ['\\', 't']
  | code {c t} : Hex4 t c.toNat → CharSpelled c (['\\', 'u'] ++ t)
  /-- The two surrogates by which UTF-16 represents a character above 0xFFFF: they hold the upper and the lower ten
  bits of its code less 0x10000. -/
  | surrogates {c t u} : 0x10000 ≤ c.toNat → Hex4 t (0xD800 + (c.toNat - 0x10000) / 1024) →
      Hex4 u (0xDC00 + (c.toNat - 0x10000) % 1024) → CharSpelled c (['\\', 'u'] ++ t ++ ['\\', 'u'] ++ u)

/-- How a text may be written between the quotes. -/
inductive Spelled : Str → Str → Prop
  | nil : Spelled [] []
  | cons {c s t r} : CharSpelled c t → Spelled s r → Spelled (c :: s) (t ++ r)

end Verif.Spec
