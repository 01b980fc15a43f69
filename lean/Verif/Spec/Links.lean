import Verif.Model.JsonDoc
import Verif.Spec.SameDoc

/-!
# Specification: relationships expressed by a document, and the content of JSON objects
-/

namespace Verif.Spec

/-- The text of the ends of a relationship and its type, read in its normal direction: being described or
contained by something is the same as the other describing or containing it. -/
def link (r : Relationship) : Str × Str × Str :=
  if r.relationship = g!"CONTAINED_BY" then (renderDocElementID r.refB, g!"CONTAINS", renderDocElementID r.refA)
  else if r.relationship = g!"DESCRIBED_BY" then (renderDocElementID r.refB, g!"DESCRIBES", renderDocElementID r.refA)
  else (renderDocElementID r.refA, r.relationship, renderDocElementID r.refB)

/-- The element `a` of the document describes or contains `b`. -/
def ofElement (a : Str) (type : Str) (b : DocElementID) : Relationship :=
  { refA := { elementRefID := a }, refB := b, relationship := type }

/-- Relationship types have no hyphen and the ends no `>`. -/
def Readable (r : Relationship) : Prop :=
  '-' ∉ r.relationship ∧ '>' ∉ renderDocElementID r.refA ∧ '>' ∉ renderDocElementID r.refB

/-- Characters that differ in case only; there are two beyond ASCII, the long s and the sign for Kelvin. -/
def letterCases : List Str :=
  [g!"aA", g!"bB", g!"cC", g!"dD", g!"eE", g!"fF", g!"gG", g!"hH", g!"iI", g!"jJ", ['k', 'K', Char.ofNat 0x212A], g!"lL", g!"mM",
   g!"nN", g!"oO", g!"pP", g!"qQ", g!"rR", ['s', 'S', Char.ofNat 0x17F], g!"tT", g!"uU", g!"vV", g!"wW", g!"xX", g!"yY", g!"zZ"]

/-- The same character, up to case. -/
def SameLetter (a b : Char) : Prop := a = b ∨ ∃ l ∈ letterCases, a ∈ l ∧ b ∈ l

/-- The entries under a key, upper or lower case (`C57_keys` says when two keys count as the same). -/
def entries (key : Str) (es : List (Str × Json)) : List Json := (es.filter fun e => sameKey key e.1).map (·.2)

/-- `x` is what an object holds under a key, as read by `c`; `zero` if there is no such key. -/
def Holds {β : Type} (es : List (Str × Json)) (key : Str) (c : Codec β) (zero x : β) : Prop :=
  (entries key es = [] ∧ x = zero) ∨ ∃ j, entries key es = [j] ∧ c.dec j zero = .ok x

/-- No key occurs twice. -/
def OneEach (es : List (Str × Json)) : Prop := (es.map (·.1)).Pairwise fun a b => sameKey a b = false

/-- `rels` are the document's own relationships followed by what the entries `wanted` express and the own ones
do not, without repetition. -/
structure Completed (own wanted rels : List Relationship) : Prop where
  /-- the own relationships come first, the others are wanted -/
  extends_ : ∃ added, rels = own ++ added ∧ added.Sublist wanted ∧
    (added.map link).Nodup ∧ ∀ r ∈ added, ∀ o ∈ own, link r ≠ link o
  /-- everything wanted is expressed -/
  complete : (∀ r ∈ own ++ wanted, Readable r) → ∀ r ∈ wanted, ∃ s ∈ rels, link s = link r

end Verif.Spec
