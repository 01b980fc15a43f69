import Verif.Spec.RdfTerms
import Verif.Lemmas.Sort

/-!
# C54: the words of an RDF graph

`Spec/RdfTerms` has the URIs of properties and classes.
-/

namespace Verif
open Spec Spec.Rdf

/-- C54: a property is the one whose URI the text is, and none of them if it is no such URI. -/
theorem C54_properties (s : Str) (p : Pred) : Pred.ofStr s = p ↔ propertyUri p = some s ∨ (p = .other ∧ ∀ q, propertyUri q ≠ some s) := by
  have hn : (predTable.map (·.1)).Nodup := by decide +kernel
  have h1 : ∀ e ∈ predTable, propertyUri e.2 = some e.1 := by decide +kernel
  have h2 : ∀ q x, propertyUri q = some x → (x, q) ∈ predTable := by
    intro q x h
    cases q <;> first | (injection h with h; rw [← h]; decide +kernel) | cases h
  have h3 : ∀ q, mapGet s predTable = some q ↔ propertyUri q = some s := fun q =>
    ⟨fun h => h1 _ ((mapGet_eq_some_iff hn).1 h), fun h => (mapGet_eq_some_iff hn).2 (h2 q s h)⟩
  unfold Pred.ofStr
  cases e : mapGet s predTable with
  | some q =>
    have hq := (h3 q).1 e
    constructor
    · rintro rfl; exact .inl hq
    · rintro (h | ⟨_, h⟩)
      · have := (h3 p).2 h
        rw [e] at this; injection this
      · exact absurd hq (h q)
  | none =>
    have hq : ∀ q, propertyUri q ≠ some s := fun q h => by rw [(h3 q).2 h] at e; cases e
    constructor
    · rintro rfl; exact .inr ⟨rfl, hq⟩
    · rintro (h | ⟨rfl, _⟩)
      · exact absurd h (hq p)
      · rfl

/-- C54: so is a class. -/
theorem C54_classes (s : Str) (c : Cls) : Cls.ofStr s = c ↔ classUri c = some s ∨ (c = .other ∧ ∀ q, classUri q ≠ some s) := by
  have hn : (clsTable.map (·.1)).Nodup := by decide +kernel
  have h1 : ∀ e ∈ clsTable, classUri e.2 = some e.1 := by decide +kernel
  have h2 : ∀ q x, classUri q = some x → (x, q) ∈ clsTable := by
    intro q x h
    cases q <;> first | (injection h with h; rw [← h]; decide +kernel) | cases h
  have h3 : ∀ q, mapGet s clsTable = some q ↔ classUri q = some s := fun q =>
    ⟨fun h => h1 _ ((mapGet_eq_some_iff hn).1 h), fun h => (mapGet_eq_some_iff hn).2 (h2 q s h)⟩
  unfold Cls.ofStr
  cases e : mapGet s clsTable with
  | some q =>
    have hq := (h3 q).1 e
    constructor
    · rintro rfl; exact .inl hq
    · rintro (h | ⟨_, h⟩)
      · have := (h3 c).2 h
        rw [e] at this; injection this
      · exact absurd hq (h q)
  | none =>
    have hq : ∀ q, classUri q ≠ some s := fun q h => by rw [(h3 q).2 h] at e; cases e
    constructor
    · rintro rfl; exact .inr ⟨rfl, hq⟩
    · rintro (h | ⟨rfl, _⟩)
      · exact absurd h (hq c)
      · rfl

/-- C54: the types of relationships that are read. -/
theorem C54_relationships (x : Str) : x ∈ allRelationshipTypes ↔ x ∈ relationshipNames :=
  ⟨(by decide +kernel : ∀ y ∈ allRelationshipTypes, y ∈ relationshipNames) x,
   (by decide +kernel : ∀ y ∈ relationshipNames, y ∈ allRelationshipTypes) x⟩

/-- Comments are comments of RDF Schema; the property of that name of the SPDX terms is not known. -/
theorem C54_terms_sample : Pred.ofStr g!"http://www.w3.org/2000/01/rdf-schema#comment" = .comment ∧
    Pred.ofStr g!"http://spdx.org/rdf/terms#comment" = .other := by
  refine ⟨(C54_properties _ _).2 (.inl rfl), (C54_properties _ _).2 (.inr ⟨rfl, ?_⟩)⟩
  intro q h
  cases q <;> exact absurd h (by decide +kernel)

end Verif
