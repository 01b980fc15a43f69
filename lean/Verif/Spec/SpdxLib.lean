import Verif.Model.Types

/-!
# What validation and the queries of spdxlib mean
-/

namespace Verif.Spec

/-- The document itself, as the end of a relationship. -/
def thisDocument : DocElementID := { documentRefID := [], elementRefID := g!"DOCUMENT", specialID := [] }

/-- The element identifier names something in the document. -/
def Known (packages : List PackageV) (files : List FileV) (id : Str) : Prop :=
  id = g!"DOCUMENT" ∨ (∃ p ∈ packages, p.spdxId = id) ∨ ∃ f ∈ files, f.spdxId = id

/-- The relationship says that the document describes the element. -/
def Says (r : Relationship) (id : Str) : Prop :=
  (r.relationship = g!"DESCRIBES" ∧ r.refA = thisDocument ∧ r.refB.elementRefID = id) ∨
  (r.relationship = g!"DESCRIBED_BY" ∧ r.refB = thisDocument ∧ r.refA.elementRefID = id)

/-- The calls of a closure with a state, once for each element and in order: from state `s` the outputs
`out` and the state `t`. -/
inductive Calls {σ α β : Type} (f : σ → α → Res (β × σ)) : σ → List α → List β → σ → Prop
  | nil (s) : Calls f s [] [] s
  | cons {s a b s' l out t} : f s a = .ok (b, s') → Calls f s' l out t → Calls f s (a :: l) (b :: out) t

end Verif.Spec
