import Verif.Model.Json

/-!
# Specification: the grammar of JSON text

After RFC 8259.
-/

namespace Verif.Spec

/-- White space (RFC 8259, section 2). -/
def Blank (s : Str) : Prop := ∀ c ∈ s, c = ' ' ∨ c = '\t' ∨ c = '\n' ∨ c = '\r'

/-- Decimal digits. -/
def Digits (s : Str) : Prop := s ≠ [] ∧ ∀ c ∈ s, c ∈ g!"0123456789"

/-- Four hexadecimal digits. -/
def FourHex (s : Str) : Prop := s.length = 4 ∧ ∀ c ∈ s, c ∈ g!"0123456789abcdefABCDEF"

/-- What may stand between the quotes of a string (section 7): characters other than control characters, quote and
backslash, and escapes. -/
inductive StringText : Str → Prop
  | nil : StringText []
  | char {c : Char} {t : Str} (h1 : 0x20 ≤ c.toNat) (h2 : c ≠ '"') (h3 : c ≠ '\\') (h : StringText t) : StringText (c :: t)
  | short {e : Char} {t : Str} (h1 : e ∈ g!"\"\\/bfnrt") (h : StringText t) : StringText ('\\' :: e :: t)
  | code {x t : Str} (h1 : FourHex x) (h : StringText t) : StringText (g!"\\u" ++ x ++ t)

/-- A number (section 6). -/
def NumberSpelt (l : Str) : Prop := ∃ sign int frac exp, l = sign ++ int ++ frac ++ exp ∧
  (sign = [] ∨ sign = g!"-") ∧
  (int = g!"0" ∨ (Digits int ∧ ∀ t, int ≠ '0' :: t)) ∧
  (frac = [] ∨ ∃ ds, frac = g!"." ++ ds ∧ Digits ds) ∧
  (exp = [] ∨ ∃ e s ds, exp = e ++ s ++ ds ∧ (e = g!"e" ∨ e = g!"E") ∧ (s = [] ∨ s = g!"+" ∨ s = g!"-") ∧ Digits ds)

/-- An element of an array with the blanks around it. -/
structure ElementText where
  before : Str
  text : Str
  after : Str
  value : Json

/-- A member of an object with the blanks around its key and value. -/
structure MemberText where
  beforeKey : Str
  raw : Str
  afterKey : Str
  key : Str
  part : ElementText

/-- An element as text. -/
def ElementText.all (p : ElementText) : Str := p.before ++ p.text ++ p.after

/-- A member as text. -/
def MemberText.all (m : MemberText) : Str := m.beforeKey ++ g!"\"" ++ m.raw ++ g!"\"" ++ m.afterKey ++ g!":" ++ m.part.all

/-- The blanks of an element are blanks. -/
def ElementText.Ok (p : ElementText) : Prop := Blank p.before ∧ Blank p.after

/-- The blanks of a member are blanks and its key is a string that stands for the key. -/
def MemberText.Ok (m : MemberText) : Prop :=
  Blank m.beforeKey ∧ Blank m.afterKey ∧ StringText m.raw ∧ unescape m.raw = some m.key ∧ m.part.Ok

/-- A text spells a value (sections 3 to 7). -/
inductive Spelt : Str → Json → Prop
  | null : Spelt g!"null" .null
  | true : Spelt g!"true" (.bool true)
  | false : Spelt g!"false" (.bool false)
  | num {l : Str} (h : NumberSpelt l) : Spelt l (.num l)
  | str {raw : Str} (h : StringText raw) : Spelt (g!"\"" ++ raw ++ g!"\"") (.str raw)
  | noElements {b : Str} (h : Blank b) : Spelt (g!"[" ++ b ++ g!"]") (.arr [])
  | arr {ps : List ElementText} (hne : ps ≠ []) (ho : ∀ p ∈ ps, p.Ok) (h : ∀ p ∈ ps, Spelt p.text p.value) :
    Spelt (g!"[" ++ join g!"," (ps.map (·.all)) ++ g!"]") (.arr (ps.map (·.value)))
  | noMembers {b : Str} (h : Blank b) : Spelt (g!"{" ++ b ++ g!"}") (.obj [])
  | obj {ms : List MemberText} (hne : ms ≠ []) (ho : ∀ m ∈ ms, m.Ok) (h : ∀ m ∈ ms, Spelt m.part.text m.part.value) :
    Spelt (g!"{" ++ join g!"," (ms.map (·.all)) ++ g!"}") (.obj (ms.map fun m => (m.key, m.part.value)))

mutual
/-- How many arrays and objects are within each other. -/
def depth : Json → Nat
  | .arr l => depthList l + 1
  | .obj l => depthFields l + 1
  | _ => 0
/-- The deepest of a list. -/
def depthList : List Json → Nat
  | [] => 0
  | j :: l => max (depth j) (depthList l)
/-- The deepest of the entries of an object. -/
def depthFields : List (Str × Json) → Nat
  | [] => 0
  | (_, j) :: l => max (depth j) (depthFields l)
end

/-- A text is JSON for a value: blanks around it, and at most 10000 arrays and objects within each other. -/
def JsonTextOf (s : Str) (j : Json) : Prop :=
  ∃ a t b, s = a ++ t ++ b ∧ Blank a ∧ Blank b ∧ Spelt t j ∧ depth j ≤ 10000

end Verif.Spec
