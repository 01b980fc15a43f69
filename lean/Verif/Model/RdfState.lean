import Verif.Model.RdfTerms
import Verif.Model.TVParse

/-!
# RDF graphs and the state of the RDF reader

`spdx/v2/v2_3/rdf/reader/{types,utils}.go`, with `v2_2` as a version of the same text.  Line numbers cite v2_3.

The model starts at the triples that the gordf parser returns (not part of `/repo`).
-/

namespace Verif

/-- The kinds of nodes of gordf (`gordfParser.Node.NodeType`); only `iri` is tested (parse_file.go:167). -/
inductive NodeKind where
  | iri | literal | blank | nodeIdLiteral | resourceLiteral
  deriving DecidableEq, Repr

/-- `gordfParser.Node`. -/
structure RNode where
  kind : NodeKind
  id : Str
  deriving DecidableEq, Repr

/-- `gordfParser.Triple`. -/
structure Triple where
  subject : RNode
  predicate : RNode
  object : RNode
  deriving DecidableEq, Repr

/-- The property of a triple, for the `switch` statements on `Predicate.ID`. -/
def Triple.pred (t : Triple) : Pred := Pred.ofStr t.predicate.id

/-- What the reader gets from gordf: the triples, the root nodes (`rdfwriter.GetRootNodes`) and the check of URI
references (`uri.NewURIRef`).  The last two are gordf's and left open. -/
structure Graph where
  triples : List Triple
  roots : List RNode
  uriValid : Str → Bool

namespace Graph

/-- `nodeToTriples` (utils.go:46-51): the triples whose subject is the node, kind included (the key of gordf's map
is the printed node), in order. -/
def of (g : Graph) (n : RNode) : List Triple := g.triples.filter fun t => t.subject = n

/-- `rdfwriter.FilterTriples(triples, &id, nil, nil)`. -/
def about (g : Graph) (id : Str) : List Triple := g.triples.filter fun t => t.subject.id = id

end Graph

/-- `rdfwriter.FilterTriples(triples, &id, &RDF_TYPE, nil)`. -/
def typeTriples (ts : List Triple) (id : Str) : List Triple :=
  ts.filter fun t => t.subject.id = id && t.pred = .type_

/-- What a call of the reader ends in: a value, an error, a run-time panic, or (only in the model) a recursion that
was cut because it got too deep. -/
inductive ROut (α : Type) where
  | ok (a : α)
  | err
  | panic
  | cut
  deriving DecidableEq, Repr

namespace ROut

def bind {α β : Type} : ROut α → (α → ROut β) → ROut β
  | ok a, f => f a
  | err, _ => err
  | panic, _ => panic
  | cut, _ => cut

instance : Monad ROut where
  pure := ok
  bind := bind

@[simp] theorem bind_ok {α β : Type} (a : α) (f : α → ROut β) : (ROut.ok a >>= f) = f a := rfl
@[simp] theorem bind_err {α β : Type} (f : α → ROut β) : ((ROut.err : ROut α) >>= f) = .err := rfl
@[simp] theorem bind_panic {α β : Type} (f : α → ROut β) : ((ROut.panic : ROut α) >>= f) = .panic := rfl
@[simp] theorem bind_cut {α β : Type} (f : α → ROut β) : ((ROut.cut : ROut α) >>= f) = .cut := rfl
@[simp] theorem pure_eq {α : Type} (a : α) : (pure a : ROut α) = .ok a := rfl

end ROut

/-- `nodeState.object` (types.go:36-41): nil for licenses, else a pointer or a copy of a relationship. -/
inductive CObj where
  | nil | pkg (i : Nat) | file (i : Nat) | rel
  deriving DecidableEq, Repr

/-- `nodeState` (types.go:36-41); the colours white and black are never told apart (types.go:28-34). -/
structure NodeState where
  object : CObj
  grey : Bool
  deriving DecidableEq, Repr

/-- `rdfParser2_3` (types.go:11-26) together with the heaps its pointers point into.  The document starts with empty
creation information (parser.go:20-29).  `assoc` lists the keys of `assocWithPackage`, whose values are all true. -/
structure RState where
  doc : HDoc := { creationInfo := some {} }
  files : List (Str × Nat) := []
  assoc : List Str := []
  cache : List (Str × NodeState) := []
  pkgHeap : List (Package Nat) := []
  fileHeap : List FileV := []
  deriving DecidableEq, Repr

/-- A method of the reader.  An error or panic is passed on by every caller, so the state after it does not
matter. -/
def RdfM (α : Type) : Type := RState → ROut (α × RState)

namespace RdfM

def bind {α β : Type} (m : RdfM α) (f : α → RdfM β) : RdfM β := fun s =>
  match m s with
  | .ok (a, s') => f a s'
  | .err => .err
  | .panic => .panic
  | .cut => .cut

instance : Monad RdfM where
  pure a := fun s => .ok (a, s)
  bind := bind

/-- `return err`. -/
def err {α : Type} : RdfM α := fun _ => .err
/-- A run-time panic. -/
def panic {α : Type} : RdfM α := fun _ => .panic
/-- The recursion is cut. -/
def cut {α : Type} : RdfM α := fun _ => .cut
/-- A change of the state. -/
def modify (f : RState → RState) : RdfM Unit := fun s => .ok ((), f s)
/-- A look at the state. -/
def get : RdfM RState := fun s => .ok (s, s)

/-- A function that does not touch the state. -/
def lift {α : Type} : Res α → RdfM α
  | .ok a => pure a
  | .err => err
  | .panic => panic

/-- A loop over triples. -/
def each (body : Triple → RdfM Unit) : List Triple → RdfM Unit
  | [] => pure ()
  | t :: ts => do
    body t
    each body ts

/-- A loop over triples with a local variable. -/
def fold {α : Type} (body : α → Triple → RdfM α) : α → List Triple → RdfM α
  | a, [] => pure a
  | a, t :: ts => do
    let a' ← body a t
    fold body a' ts

end RdfM

open RdfM

/-- An assignment through a package pointer. -/
def modPackage (i : Nat) (f : Package Nat → Package Nat) : RdfM Unit :=
  modify fun s => { s with pkgHeap := s.pkgHeap.modify i f }

/-- An assignment through a file pointer. -/
def modFileAt (i : Nat) (f : FileV → FileV) : RdfM Unit :=
  modify fun s => { s with fileHeap := s.fileHeap.modify i f }

/-- An assignment through `parser.doc`. -/
def modDocument (f : HDoc → HDoc) : RdfM Unit := modify fun s => { s with doc := f s.doc }

/-- `&spdx.Package{}`. -/
def allocPackage : RdfM Nat := fun s => .ok (s.pkgHeap.length, { s with pkgHeap := s.pkgHeap ++ [{}] })

/-- `&spdx.File{}`. -/
def allocFile : RdfM Nat := fun s => .ok (s.fileHeap.length, { s with fileHeap := s.fileHeap ++ [{}] })

/-- The beginning of every method with a cache (parse_package.go:17-32, parse_file.go:18-31, parse_license.go:22-38,
parse_relationship.go:27-42): if the node is grey its cached object is returned; otherwise it becomes grey, with the
given object if it is new. -/
def enter (id : Str) (obj : CObj) : RdfM (Option CObj) := fun s =>
  match mapGet id s.cache with
  | none => .ok (none, { s with cache := mapInsert id ⟨obj, true⟩ s.cache })
  | some e =>
    if e.grey then .ok (some e.object, s)
    else .ok (none, { s with cache := mapInsert id { e with grey := true } s.cache })

/-- The deferred end (parse_package.go:35, parse_file.go:35, parse_license.go:41, parse_relationship.go:45): the node
becomes black. -/
def leave (id : Str) : RdfM Unit := modify fun s =>
  match mapGet id s.cache with
  | none => s
  | some e => { s with cache := mapInsert id { e with grey := false } s.cache }

/-- `unicode.ToLower`, as far as it matters: ASCII letters, and the two other characters whose lower case is an ASCII
letter. -/
def lowerChar (c : Char) : Char :=
  if c.toNat = 0x130 then 'i' else if c.toNat = 0x212A then 'k' else c.toLower

/-- `unicode.ToUpper`, as far as it matters: ASCII letters, and the two other characters whose upper case is an ASCII
letter. -/
def upperChar (c : Char) : Char :=
  if c.toNat = 0x131 then 'I' else if c.toNat = 0x17F then 'S' else c.toUpper

/-- `strings.ToLower`. -/
def toLower (s : Str) : Str := s.map lowerChar
/-- `strings.ToUpper`. -/
def toUpper (s : Str) : Str := s.map upperChar

/-- `getLastPartOfURI` (utils.go:17-24). -/
def lastPart (uri : Str) : Str :=
  if contains g!"#" uri then (splitChar '#' uri).getLastD []
  else (splitChar '/' uri).getLastD []

/-- `boolFromString` (utils.go:55-64). -/
def boolOf (s : Str) : Res Bool :=
  if toLower s = g!"true" then .ok true
  else if toLower s = g!"false" then .ok false
  else .err

/-- `getNodeTypeFromTriples` (utils.go:31-44), on triples. -/
def nodeType (ts : List Triple) (node : RNode) : Res Str :=
  match typeTriples ts node.id with
  | [t] => .ok t.object.id
  | _ => .err

end Verif
