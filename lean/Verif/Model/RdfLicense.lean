import Verif.Model.RdfState

/-!
# Licenses in RDF

`spdx/v2/v2_3/rdf/reader/{parse_license,license_utils,parse_other_license_info}.go`.
-/

namespace Verif
open RdfM

/-- `SimpleLicensingInfo` (types.go:49-56). -/
structure SimpleLic where
  comment : Str := []
  licenseID : Str := []
  name : Str := []
  seeAlso : List Str := []
  example_ : Str := []
  deriving DecidableEq, Repr

/-- `AnyLicenseInfo` and its implementations (types.go:43-118).  Fields of a license or an exception other than those
of `SimpleLicensingInfo` are checked but not kept: nothing reads them. -/
inductive License where
  | simple (l : SimpleLic)
  | extracted (l : SimpleLic) (text : Str)
  | license (l : SimpleLic)
  | orLater (l : SimpleLic)
  | withException (l : SimpleLic) (exceptionId : Str)
  | special (value : Str)
  | conjunctive (members : List License)
  | disjunctive (members : List License)

mutual
/-- `ToLicenseString` (license_utils.go:83-119). -/
def License.text : License → Str
  | .simple l => l.licenseID
  | .extracted l _ => l.licenseID
  | .license l => l.licenseID
  | .orLater l => l.licenseID
  | .withException l _ => l.licenseID
  | .special v => v
  | .conjunctive ms => join g!" AND " (License.texts ms)
  | .disjunctive ms => join g!" OR " (License.texts ms)
/-- `mapLicensesToStrings` (license_utils.go:72-78). -/
def License.texts : List License → List Str
  | [] => []
  | m :: ms => m.text :: License.texts ms
end

/-- `getLicenseStringFromURI` (license_utils.go:18-25). -/
def licenseOfURI (uri : Str) : Str :=
  let e := trimSpace (lastPart uri)
  if toLower e = g!"none" ∨ toLower e = g!"noassertion" then toUpper e else e

/-- One triple of `getSimpleLicensingInfoFromTriples` (parse_license.go:230-248). -/
def simpleStep (uriValid : Str → Bool) (l : SimpleLic) (t : Triple) : Res SimpleLic :=
  match t.pred with
  | .comment => .ok { l with comment := t.object.id }
  | .licenseId => .ok { l with licenseID := t.object.id }
  | .name => .ok { l with name := t.object.id }
  | .seeAlso => if uriValid t.object.id then .ok { l with seeAlso := l.seeAlso ++ [t.object.id] } else .err
  | .example_ => .ok { l with example_ := t.object.id }
  | .type_ => .ok l
  | _ => .err

/-- A loop over triples without state. -/
def foldTriples {α : Type} (step : α → Triple → Res α) : α → List Triple → Res α
  | a, [] => .ok a
  | a, t :: ts => do
    let a' ← step a t
    foldTriples step a' ts

/-- `getSimpleLicensingInfoFromTriples` (parse_license.go:228-251). -/
def simpleOf (uriValid : Str → Bool) (ts : List Triple) : Res SimpleLic := foldTriples (simpleStep uriValid) {} ts

/-- `getSimpleLicensingInfoFromNode` (parse_license.go:102-105). -/
def simpleAt (g : Graph) (node : RNode) : Res SimpleLic := simpleOf g.uriValid (g.about node.id)

/-- The triples `getLicenseFromNode` does not treat itself (parse_license.go:256-285); an error if one it treats has
no boolean value. -/
def licenseRest : List Triple → Res (List Triple)
  | [] => .ok []
  | t :: ts =>
    match t.pred with
    | .isOsiApproved | .isDeprecatedLicenseId | .isFsfLibre => do
      let _ ← boolOf t.object.id
      licenseRest ts
    | .licenseText | .standardLicenseHeader | .standardLicenseTemplate | .standardLicenseHeaderTemplate => licenseRest ts
    | _ => do
      let rest ← licenseRest ts
      .ok (t :: rest)

/-- `getLicenseFromNode` (parse_license.go:253-291).  Simplification: Go stops at the first bad value, the model may
find another one first; both return an error. -/
def licenseAt (g : Graph) (node : RNode) : Res SimpleLic := do
  let rest ← licenseRest (g.about node.id)
  simpleOf g.uriValid rest

/-- `getExtractedLicensingInfoFromNode` (parse_other_license_info.go:13-29): the text is that of the last such triple. -/
def extractedAt (g : Graph) (node : RNode) : Res (SimpleLic × Str) := do
  let ts := g.about node.id
  let l ← simpleOf g.uriValid (ts.filter fun t => t.pred ≠ .extractedText)
  .ok (l, ((ts.filter fun t => t.pred = .extractedText).map (·.object.id)).getLastD [])

/-- One triple of `getLicenseExceptionFromNode` (parse_license.go:75-98), keeping the identifier. -/
def exceptionStep (uriValid : Str → Bool) (id : Str) (t : Triple) : Res Str :=
  match t.pred with
  | .licenseExceptionId => .ok t.object.id
  | .seeAlso => if uriValid t.object.id then .ok id else .err
  | .type_ | .licenseExceptionText | .name | .example_ | .comment => .ok id
  | _ => .err

/-- `getLicenseExceptionFromNode` (parse_license.go:73-100). -/
def exceptionAt (g : Graph) (node : RNode) : Res Str := foldTriples (exceptionStep g.uriValid) [] (g.about node.id)

/-- One triple of `getWithExceptionOperatorFromNode` (parse_license.go:110-133); the local variables are whether a
member was found, the member and the exception. -/
def withStep (g : Graph) (a : Bool × SimpleLic × Str) (t : Triple) : Res (Bool × SimpleLic × Str) :=
  match t.pred with
  | .type_ => .ok a
  | .member =>
    if a.1 then .err
    else do
      let l ← simpleAt g t.object
      .ok (true, l, a.2.2)
  | .licenseException => do
    let e ← exceptionAt g t.object
    .ok (a.1, a.2.1, e)
  | _ => .err

/-- `getWithExceptionOperatorFromNode` (parse_license.go:107-135). -/
def withExceptionAt (g : Graph) (node : RNode) : Res License := do
  let a ← foldTriples (withStep g) (false, {}, []) (g.about node.id)
  .ok (.withException a.2.1 a.2.2)

/-- One triple of `getOrLaterOperatorFromNode` (parse_license.go:143-155). -/
def orLaterStep (g : Graph) (l : SimpleLic) (t : Triple) : Res SimpleLic :=
  match t.pred with
  | .type_ => .ok l
  | .member => simpleAt g t.object
  | _ => .err

/-- `getOrLaterOperatorFromNode` (parse_license.go:137-157). -/
def orLaterAt (g : Graph) (node : RNode) : Res License :=
  if (g.about node.id).length ≠ 2 then .err
  else do
    let l ← foldTriples (orLaterStep g) {} (g.about node.id)
    .ok (.orLater l)

/-- `getSpecialLicenseFromNode` (parse_license.go:162-186). -/
def specialOf (id : Str) : Res License :=
  let uri := trimSpace id
  if uri = spdxNoneCaps ∨ uri = spdxNoneSmall then .ok (.special g!"NONE")
  else if uri = spdxNoassertionSmall ∨ uri = spdxNoassertionCaps then .ok (.special g!"NOASSERTION")
  else if allStandardLicenseIDs.contains (lastPart uri) then .ok (.special (lastPart uri))
  else .err

/-- One triple of `getDisjunctiveLicenseSetFromNode` (parse_license.go:192-203) or, if `strict`, of
`getConjunctiveLicenseSetFromNode` (parse_license.go:211-224), which rejects unknown properties. -/
def memberStep (rec : RNode → RdfM License) (strict : Bool) (ms : List License) (t : Triple) : RdfM (List License) :=
  match t.pred with
  | .type_ => pure ms
  | .member => do
    let m ← rec t.object
    pure (ms ++ [m])
  | _ => if strict then err else pure ms

/-- `getAnyLicenseFromNode` after the cache was looked up (parse_license.go:43-70). -/
def licenseBody (g : Graph) (rec : RNode → RdfM License) (node : RNode) : RdfM License :=
  if g.about node.id = [] then lift (specialOf node.id)
  else do
    let ty ← lift (nodeType (g.about node.id) node)
    match Cls.ofStr ty with
    | .disjunctiveLicenseSet => do
      let ms ← fold (memberStep rec false) [] (g.of node)
      pure (.disjunctive ms)
    | .conjunctiveLicenseSet => do
      let ms ← fold (memberStep rec true) [] (g.of node)
      pure (.conjunctive ms)
    | .extractedLicensingInfo => do
      let e ← lift (extractedAt g node)
      pure (.extracted e.1 e.2)
    | .listedLicense | .license => do
      let l ← lift (licenseAt g node)
      pure (.license l)
    | .withExceptionOperator => lift (withExceptionAt g node)
    | .orLaterOperator => lift (orLaterAt g node)
    | .simpleLicensingInfo => do
      let l ← lift (simpleAt g node)
      pure (.simple l)
    | _ => err

/-- `getAnyLicenseFromNode` (parse_license.go:20-71), cut at a depth. -/
def getAnyLicense (g : Graph) : Nat → RNode → RdfM License
  | 0, _ => RdfM.cut
  | n + 1, node => do
    match ← enter node.id .nil with
    | some _ => err
    | none => do
      let l ← licenseBody g (getAnyLicense g n) node
      leave node.id
      pure l

/-- The depth at which the model cuts recursions: more than there are triples (C40 proves that it is never
reached). -/
def Graph.depth (g : Graph) : Nat := g.triples.length + 2

/-- A license as text: `getAnyLicenseFromNode` and `ToLicenseString`. -/
def licenseText (g : Graph) (node : RNode) : RdfM Str := do
  let l ← getAnyLicense g g.depth node
  pure l.text

/-- `getExtractedLicensingInfoFromNode` and `extractedLicenseToOtherLicense` (parse_other_license_info.go:31-38). -/
def otherLicenseAt (g : Graph) (node : RNode) : Res OtherLicense := do
  let e ← extractedAt g node
  .ok { licenseIdentifier := e.1.licenseID, extractedText := e.2, comment := e.1.comment,
        crossReferences := e.1.seeAlso, licenseName := e.1.name }

end Verif
