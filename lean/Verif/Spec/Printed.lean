import Verif.Model.TVWrite
import Verif.Spec.Representable

/-!
# Specification: what was printed

The fields behind the lines a writer prints, and which printed values are safe.
-/

namespace Verif
open Spec

/-- The field an item prints: a tag and a value (heading and empty lines print none). -/
def Item.pairs : Item → List TVPair
  | .field t v => [⟨t, v⟩]
  | .text t v => [⟨t, v⟩]
  | .line _ => []

/-- The fields printed, in order. -/
def pairsOf (is : List Item) : List TVPair := is.flatMap Item.pairs

/-- An item whose value is safe: a plain value fits on one line, a free text is good (see `GoodValue`), a
heading is one line. -/
def CleanItem : Item → Prop
  | .field _ v => OneLine v
  | .text _ v => GoodValue v
  | .line s => '\n' ∉ s

end Verif
