import Verif.Model.Rdf

/-!
# Small graphs for examples
-/

namespace Verif

/-- A term of the SPDX vocabulary. -/
def spdxTerm (x : Str) : Str := g!"http://spdx.org/rdf/terms#" ++ x
def rdfType : Str := g!"http://www.w3.org/1999/02/22-rdf-syntax-ns#type"
def iriNode (x : Str) : RNode := ⟨.iri, x⟩
def litNode (x : Str) : RNode := ⟨.literal, x⟩
/-- A name in an example document. -/
def exId (x : Str) : Str := g!"http://ex.org/d#SPDXRef-" ++ x
/-- `s` has a property with a node as value. -/
def linkTo (s p o : Str) : Triple := ⟨iriNode s, iriNode p, iriNode o⟩
/-- `s` has a property with a text as value. -/
def valueTo (s p o : Str) : Triple := ⟨iriNode s, iriNode p, litNode o⟩
/-- `s` has a class. -/
def classTo (s c : Str) : Triple := linkTo s rdfType (spdxTerm c)
def exampleGraph (ts : List Triple) (roots : List Str) : Graph := ⟨ts, roots.map iriNode, fun _ => true⟩
/-- The map is iterated in the order of its entries. -/
def MapOrder.same : MapOrder := ⟨id, fun _ => .refl _⟩

end Verif
