import Verif.Model.GoStr

/-!
# Specification: plain JSON strings
-/

namespace Verif.Spec

/-- A character that stands for itself inside a JSON string: not a quote, not a backslash, not a
control character (and not U+2028/2029, which Go escapes although JSON does not require it). -/
def plainChar (c : Char) : Bool :=
  c ≠ '"' && c ≠ '\\' && 0x20 ≤ c.toNat && c.toNat ≠ 0x2028 && c.toNat ≠ 0x2029

/-- A text that stands for itself between JSON quotes. -/
def Plain (s : Str) : Prop := ∀ c ∈ s, plainChar c = true

instance (s : Str) : Decidable (Plain s) := by unfold Plain; infer_instance

/-- A plain text as JSON: the text between quotes. -/
def quoted (s : Str) : Str := g!"\"" ++ s ++ g!"\""

/-- Nothing in the text is escaped for HTML, if that is asked for. -/
def HtmlSafe (html : Bool) (s : Str) : Prop := html = true → ∀ c ∈ s, c ≠ '<' ∧ c ≠ '>' ∧ c ≠ '&'

end Verif.Spec
