import Verif.Model.Json

/-!
# JSON values that say the same

The same value except that the entries of objects may come in another order, and, if `html` is set, `<`,
`>` and `&` in strings are written with escapes.
-/

namespace Verif.Spec

/-- The text of a string, `<`, `>` and `&` escaped if `html` is set. -/
def htmlText (html : Bool) (raw : Str) : Str := if html then raw.flatMap escapeHtmlChar else raw

mutual
/-- The same value. -/
inductive Like (html : Bool) : Json → Json → Prop
  | null : Like html .null .null
  | bool (b) : Like html (.bool b) (.bool b)
  | num (l) : Like html (.num l) (.num l)
  | str (raw) : Like html (.str raw) (.str (htmlText html raw))
  | arr {l m} : LikeList html l m → Like html (.arr l) (.arr m)
  | obj {l m n} : LikeFields html l m → m.Perm n → Like html (.obj l) (.obj n)
/-- The same values in the same order. -/
inductive LikeList (html : Bool) : List Json → List Json → Prop
  | nil : LikeList html [] []
  | cons {j k l m} : Like html j k → LikeList html l m → LikeList html (j :: l) (k :: m)
/-- The same entries in the same order. -/
inductive LikeFields (html : Bool) : List (Str × Json) → List (Str × Json) → Prop
  | nil : LikeFields html [] []
  | cons {key j k l m} : Like html j k → LikeFields html l m → LikeFields html ((key, j) :: l) ((key, k) :: m)
end

end Verif.Spec
