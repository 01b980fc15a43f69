import Verif.Spec.IdSearcher
import Verif.Spec.Utils
import Verif.Model.Builder
import Verif.Spec.SameDoc

/-!
# Specification: a document built from short-form identifiers
-/

namespace Verif.Spec

/-- The short-form identifier `x` stands on some line of the text (before the first line too long to be
scanned). -/
def InText (text x : Str) : Prop :=
  ∃ l ∈ (rawLines text).takeWhile (fun l => byteLen l < 65536), ShortForm (dropCR l) x

/-- The file called `name` is searched, can be opened, and has the short-form identifier `x`. -/
def Tagged (d : Disk) (patterns : List Str) (name x : Str) : Prop :=
  (¬ ∃ q ∈ patterns, Ignores q name) ∧ ∃ text, d.text name = some text ∧ InText text x

/-- The file called `name` has a short-form identifier that mentions the license `n`. -/
def Mentions (d : Disk) (patterns : List Str) (name n : Str) : Prop := ∃ x, Tagged d patterns name x ∧ Names x n

/-- An identifier that is an AND or OR expression in parentheses. -/
def Grouped (x y : Str) : Prop :=
  (((∃ a b, x = a ++ g!" AND " ++ b) ∨ ∃ a b, x = a ++ g!" OR " ++ b) ∧ y = g!"(" ++ x ++ g!")") ∨
  ((¬ ((∃ a b, x = a ++ g!" AND " ++ b) ∨ ∃ a b, x = a ++ g!" OR " ++ b)) ∧ y = x)

/-- The list is sorted, without repetition, and has exactly the members of `S`. -/
def Lists (l : List Str) (S : Str → Prop) : Prop :=
  l.Pairwise (fun a b => strLt a b = true) ∧ ∀ x, x ∈ l ↔ S x

/-- What the concluded license says if `ids` are the identifiers of the file: the only one as it stands, or
all of them, grouped, with AND in between. -/
def ConcludesAll (ids : List Str) (concluded : Str) : Prop :=
  ids = [concluded] ∨ (ids.length ≠ 1 ∧ ∃ gs, Pointwise Grouped ids gs ∧ concluded = join g!" AND " gs)

/-- What the search makes of a file: nothing but the two license fields changes. -/
structure FileSearched (d : Disk) (patterns : List Str) (f g : FileV) : Prop where
  rest : g = { f with licenseInfoInFiles := g.licenseInfoInFiles, licenseConcluded := g.licenseConcluded }
  nothing : (¬ ∃ n, Mentions d patterns f.name n) →
    g.licenseInfoInFiles = [g!"NOASSERTION"] ∧ g.licenseConcluded = g!"NOASSERTION"
  something : (∃ n, Mentions d patterns f.name n) →
    Lists g.licenseInfoInFiles (Mentions d patterns f.name) ∧
    ∃ ids, Lists ids (Tagged d patterns f.name) ∧ ConcludesAll ids g.licenseConcluded

/-- What the search makes of the package: nothing but the licenses of its files and the list of licenses
changes. -/
structure PackageSearched (d : Disk) (patterns : List Str) (p q : PackageV) : Prop where
  rest : q = { p with files := q.files, licenseInfoFromFiles := q.licenseInfoFromFiles }
  files : Pointwise (FileSearched d patterns) p.files q.files
  nothing : (¬ ∃ f ∈ p.files, ∃ n, Mentions d patterns f.name n) → q.licenseInfoFromFiles = [g!"NOASSERTION"]
  something : (∃ f ∈ p.files, ∃ n, Mentions d patterns f.name n) →
    Lists q.licenseInfoFromFiles fun n => ∃ f ∈ p.files, Mentions d patterns f.name n

end Verif.Spec
