import Verif.Model.Identifier

/-!
# People, organizations and tools in JSON

`spdx/v2/common/package.go`, `creation_info.go`, `annotation.go`: the JSON form of suppliers,
originators, creators and annotators.  A decoder updates its receiver, given as first argument.
-/

namespace Verif

/-- `strings.SplitN(s, ":", 2)` when it has two parts. -/
def splitColon (s : Str) : Option (Str × Str) := cut g!":" s

/-- `Supplier.UnmarshalJSON` (spdx/v2/common/package.go:21-41). -/
def supplierOfJson (s0 : Supplier) (data : Str) : Res Supplier :=
  let str := trimQuotes data
  if str = g!"NOASSERTION" then .ok { s0 with supplier := str }
  else match splitColon str with
    | none => .err
    | some (a, b) => .ok { supplierType := trimSpace a, supplier := trimSpace b }

/-- `Supplier.MarshalJSON` (spdx/v2/common/package.go:45-53). -/
def supplierToJson (s : Supplier) : Res Str :=
  if s.supplier = g!"NOASSERTION" then .ok (jsonQuote s.supplier)
  else if s.supplierType ≠ [] ∧ s.supplier ≠ [] then
    .ok (jsonQuote (s.supplierType ++ g!": " ++ s.supplier))
  else .err

/-- The characters of the cutset `" \t"`. -/
def isBlankOrTab (c : Char) : Bool := c = ' ' || c = '\t'

/-- `Originator.UnmarshalJSON` (spdx/v2/common/package.go:64-82). -/
def originatorOfJson (s0 : Originator) (data : Str) : Res Originator :=
  let str := trimQuotes data
  if str = g!"NOASSERTION" then .ok { s0 with originator := str }
  else match splitColon str with
    | none => .err
    | some (a, b) => .ok { originatorType := a, originator := trimLeft isBlankOrTab b }

/-- `Originator.MarshalJSON` (spdx/v2/common/package.go:86-94). -/
def originatorToJson (s : Originator) : Res Str :=
  if s.originator = g!"NOASSERTION" then .ok (jsonQuote s.originator)
  else if s.originatorType ≠ [] ∧ s.originator ≠ [] then
    .ok (jsonQuote (s.originatorType ++ g!": " ++ s.originator))
  else .err

/-- `Creator.UnmarshalJSON` (spdx/v2/common/creation_info.go:22-35). -/
def creatorOfJson (data : Str) : Res Creator :=
  match splitColon (trimQuotes data) with
  | none => .err
  | some (a, b) => .ok { creatorType := trimSpace a, creator := trimSpace b }

/-- `Creator.MarshalJSON` (spdx/v2/common/creation_info.go:39-45).  Without a name the result is
empty, which is no JSON value; the caller (`encoding/json`) then fails. -/
def creatorToJson (c : Creator) : Str :=
  if c.creator ≠ [] then jsonQuote (c.creatorType ++ g!": " ++ c.creator) else []

/-- `Annotator.UnmarshalJSON` (spdx/v2/common/annotation.go:20-35). -/
def annotatorOfJson (data : Str) : Res Annotator :=
  match splitColon (trimQuotes data) with
  | none => .err
  | some (a, b) => .ok { annotatorType := trimSpace a, annotator := trimSpace b }

/-- `Annotator.MarshalJSON` (spdx/v2/common/annotation.go:39-45). -/
def annotatorToJson (a : Annotator) : Str :=
  if a.annotator ≠ [] then jsonQuote (a.annotatorType ++ g!": " ++ a.annotator) else []

end Verif
