import Verif.Model.SpdxLib

/-!
# licensediff and reporter

Go maps are association lists; the files are pointers, nil is `none`.
-/

namespace Verif

/-- `LicensePair` (licensediff/licensediff.go:12-15). -/
structure LicensePair where
  first : Str := []
  second : Str := []
  deriving DecidableEq, Repr

/-- The first loop of `MakePairs` (licensediff/licensediff.go:23-26). -/
def addFirst : List (Str × LicensePair) → List (Option FileV) → Res (List (Str × LicensePair))
  | pairs, [] => .ok pairs
  | pairs, f :: fs => do
    let f ← deref f
    addFirst (mapInsert f.name { first := f.licenseConcluded, second := [] } pairs) fs

/-- The second loop of `MakePairs` (licensediff/licensediff.go:30-40). -/
def addSecond : List (Str × LicensePair) → List (Option FileV) → Res (List (Str × LicensePair))
  | pairs, [] => .ok pairs
  | pairs, f :: fs => do
    let f ← deref f
    let firstLic := match mapGet f.name pairs with
      | some existing => existing.first
      | none => []
    addSecond (mapInsert f.name { first := firstLic, second := f.licenseConcluded } pairs) fs

/-- `MakePairs` (licensediff/licensediff.go:19-43), on the files of the two packages. -/
def makePairs (files1 files2 : List (Option FileV)) : Res (List (Str × LicensePair)) := do
  let pairs ← addFirst [] files1
  addSecond pairs files2

/-- `LicenseDiff` (licensediff/licensediff.go:48-53). -/
structure LicenseDiff where
  inBothChanged : List (Str × LicensePair) := []
  inBothSame : List (Str × Str) := []
  inFirstOnly : List (Str × Str) := []
  inSecondOnly : List (Str × Str) := []
  deriving DecidableEq, Repr

/-- One step of the loop of `MakeResults` (licensediff/licensediff.go:67-77). -/
def addResult (d : LicenseDiff) (filename : Str) (pair : LicensePair) : LicenseDiff :=
  if pair.first = pair.second then { d with inBothSame := mapInsert filename pair.first d.inBothSame }
  else if pair.first = [] then { d with inSecondOnly := mapInsert filename pair.second d.inSecondOnly }
  else if pair.second = [] then { d with inFirstOnly := mapInsert filename pair.first d.inFirstOnly }
  else { d with inBothChanged := mapInsert filename pair d.inBothChanged }

/-- `MakeResults` (licensediff/licensediff.go:57-81).  The argument lists the entries of the map in the
order in which the loop meets them, which Go leaves open. -/
def makeResults (pairs : List (Str × LicensePair)) : LicenseDiff :=
  pairs.foldl (fun d p => addResult d p.1 p.2) {}

/-- One step of the loop of `countLicenses` (reporter/reporter.go:66-71). -/
def countLicense (c : Nat × Nat × List (Str × Nat)) (f : FileV) : Nat × Nat × List (Str × Nat) :=
  if f.licenseConcluded = [] ∨ f.licenseConcluded = g!"NOASSERTION" then (c.1, c.2.1 + 1, c.2.2)
  else (c.1 + 1, c.2.1, mapInsert f.licenseConcluded ((mapGet f.licenseConcluded c.2.2).getD 0 + 1) c.2.2)

/-- `countLicenses` (reporter/reporter.go:57-75).  A nil slice gives the same counts as an empty one.
`getD 0` in the step is the zero value that Go's map index returns for an absent key. -/
def countLicenses : Nat × Nat × List (Str × Nat) → List (Option FileV) → Res (Nat × Nat × List (Str × Nat))
  | c, [] => .ok c
  | c, f :: fs => do
    let f ← deref f
    countLicenses (countLicense c f) fs

/-- The iteration over the map and `sort.Slice` by decreasing count (reporter/reporter.go:36-46): the order of
equal counts is left open, so this is any function that returns a sorted permutation. -/
structure CountSorter where
  run : List (Str × Nat) → List (Str × Nat)
  perm : ∀ l, (run l).Perm l
  sorted : ∀ l, (run l).Pairwise fun a b => a.2 ≥ b.2

/-- A line of the report: `"%d\t  %s\n"`. -/
def countLine (n : Nat) (label : Str) : Str := natDigits n ++ g!"\t  " ++ label ++ g!"\n"

/-- `Generate` (reporter/reporter.go:19-55): the text given to the tab writer, whose alignment is in
`Model/TabWriter`.  Write errors, which the code ignores, are not modelled. -/
def generate (so : CountSorter) (filesAnalyzed : Bool) (files : List (Option FileV)) : Res Str :=
  if !filesAnalyzed then .err
  else do
    let (found, notFound, counts) ← countLicenses (0, 0, []) files
    return countLine found g!"License found" ++ countLine notFound g!"License not found" ++
      countLine (found + notFound) g!"TOTAL" ++ g!"\n" ++
      (so.run counts).flatMap (fun c => countLine c.2 c.1) ++ countLine found g!"TOTAL FOUND"

end Verif
