import Verif.Model.GoStr
import Verif.Spec.LicenseDiff

/-!
# What a printed license report looks like
-/

namespace Verif.Spec

/-- The numbers of a report on some files: `lines` are the concluded licenses with the number of their files. -/
structure ReportOf (files : List FileV) (found notFound : Nat) (lines : List (Str × Nat)) : Prop where
  some_license : found = (files.filter fun f => decide (Found f)).length
  total : found + notFound = files.length
  once : (lines.map (·.1)).Nodup
  counts : ∀ lic n, (lic, n) ∈ lines ↔ (∃ f ∈ files, Found f ∧ f.licenseConcluded = lic) ∧
    n = (files.filter fun f => f.licenseConcluded = lic).length
  sum : (lines.map (·.2)).sum = found
  sorted : lines.Pairwise (fun a b => a.2 ≥ b.2)

/-- A row: the number, aligned to the right in a column of the width `w`, and the label. -/
def row (w n : Nat) (label : Str) : Str :=
  List.replicate (w - (natDigits n).length) ' ' ++ natDigits n ++ g!"  " ++ label ++ g!"\n"

/-- The width of the column of some numbers: two more than the longest number. -/
def ColumnWidth (ns : List Nat) (w : Nat) : Prop :=
  (∀ n ∈ ns, (natDigits n).length + 2 ≤ w) ∧ ∃ n ∈ ns, (natDigits n).length + 2 = w

/-- The text has no character that ends a cell or a line: tab, vertical tab, line feed, form feed. -/
def OneCell (s : Str) : Prop := ∀ c ∈ s, c ≠ '\t' ∧ c ≠ '\x0b' ∧ c ≠ '\n' ∧ c ≠ '\x0c'

instance (s : Str) : Decidable (OneCell s) := inferInstanceAs (Decidable (∀ c ∈ s, _))

/-- The text without spaces and without the characters that end a cell or a line. -/
def inked (s : Str) : Str := s.filter fun c => !(c = ' ' ∨ c = '\t' ∨ c = '\x0b' ∨ c = '\n' ∨ c = '\x0c')

end Verif.Spec
