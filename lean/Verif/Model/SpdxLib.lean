import Verif.Model.Types

/-!
# spdxlib: validation, described packages, relationship filtering

The slices hold pointers; a nil pointer is `none`, and using it panics.  The element identifier
`DOCUMENT` is the result of `MakeDocElementID("", "DOCUMENT")` (spdx/v2/common/identifier.go:164-169).
-/

namespace Verif

/-- Dereferences a pointer: nil panics. -/
def deref {α : Type} : Option α → Res α
  | some a => .ok a
  | none => .panic

/-- `common.MakeDocElementID("", "DOCUMENT")` (spdx/v2/common/identifier.go:164-169). -/
def refDocument : DocElementID := { elementRefID := g!"DOCUMENT" }

/-- The identifiers of a slice of pointers (the loops of spdxlib/documents.go:17-23). -/
def elementIds {α : Type} (id : α → Str) : List (Option α) → Res (List Str)
  | [] => .ok []
  | p :: ps => do
    let a ← deref p
    let r ← elementIds id ps
    return id a :: r

/-- The loop over the relationships (spdxlib/documents.go:28-36); the map of valid identifiers is the
list of its keys. -/
def checkRelationships (valid : List Str) : List (Option Relationship) → Res Unit
  | [] => .ok ()
  | r :: rs => do
    let r ← deref r
    if !valid.contains r.refA.elementRefID then .err
    else if !valid.contains r.refB.elementRefID then .err
    else checkRelationships valid rs

/-- `ValidateDocument` (spdxlib/documents.go:14-39), on the three fields it reads. -/
def validateDocument (packages : List (Option PackageV)) (files : List (Option FileV))
    (relationships : List (Option Relationship)) : Res Unit := do
  let ps ← elementIds (·.spdxId) packages
  let fs ← elementIds (·.spdxId) files
  checkRelationships (refDocument.elementRefID :: (fs ++ ps)) relationships

/-- `FilterRelationships` (spdxlib/relationships.go:12-22).  The closure may have side effects: it takes and
returns a state; it may panic. -/
def filterRelationships {σ : Type} (filter : σ → Option Relationship → Res (Option Str × σ)) :
    σ → List (Option Relationship) → Res (List Str × σ)
  | s, [] => .ok ([], s)
  | s, r :: rs => do
    let (id, s) ← filter s r
    let (ids, s) ← filterRelationships filter s rs
    match id with
    | some id => return (id :: ids, s)
    | none => return (ids, s)

/-- The closure of `GetDescribedPackageIDs` (spdxlib/described_elements.go:40-50). -/
def describedBy (_ : Unit) (r : Option Relationship) : Res (Option Str × Unit) := do
  let r ← deref r
  if r.relationship = g!"DESCRIBES" ∧ r.refA = refDocument then return (some r.refB.elementRefID, ())
  else if r.relationship = g!"DESCRIBED_BY" ∧ r.refB = refDocument then return (some r.refA.elementRefID, ())
  else return (none, ())

/-- `SortElementIDs` (spdxlib/element_ids.go:12-18).  It also reorders its argument, which is not
modelled. -/
def sortElementIDs (so : Sorter) (ids : List Str) : List Str := so.run id ids

/-- `GetDescribedPackageIDs` (spdxlib/described_elements.go:18-62).  A nil slice is the empty list: both
give an error. -/
def getDescribedPackageIDs (so : Sorter) (packages : List (Option PackageV))
    (relationships : List (Option Relationship)) : Res (List Str) :=
  match packages with
  | [] => .err
  | [p] => do
    let p ← deref p
    return [p.spdxId]
  | _ :: _ :: _ =>
    if relationships = [] then .err
    else do
      let (ids, _) ← filterRelationships describedBy () relationships
      if ids = [] then .err else return sortElementIDs so ids

end Verif
