import Verif.Model.TabWriter

/-!
# Two example programs: license comparison and license report of the described packages

`examples/6-licensediff` and `examples/5-report`, from the point where the documents have been read.  A
document that a reader returns holds no nil pointer.  The result `err` stands for a run that prints that the
described packages cannot be determined; the text of that message is not modelled.
-/

namespace Verif

/-- The order in which the loop over a map of pairs meets its entries, which Go leaves open
(licensediff/licensediff.go:67). -/
structure PairOrder where
  order : List (Str × LicensePair) → List (Str × LicensePair)
  perm : ∀ m, (order m).Perm m

/-- The search for a package by its identifier (examples/6-licensediff/example_licensediff.go:92-98, 106-112,
144-150, 157-162). -/
def findPackage (id : Str) : List PackageV → Option PackageV
  | [] => none
  | p :: ps => if p.spdxId = id then some p else findPackage id ps

/-- One step of the first loop (examples/6-licensediff/example_licensediff.go:87-137). -/
def diffFirst (po : PairOrder) (first second : Doc) (id : Str) : Res Str :=
  match findPackage id first.packages with
  | none => .ok (g!"================================\n" ++ g!"Package " ++ id ++
      g!" has described relationship in first document but ID not found\n")
  | some p1 =>
    let head := g!"================================\n" ++ g!"Package " ++ id ++ g!" (" ++ p1.name ++ g!")\n"
    match findPackage id second.packages with
    | none => .ok (head ++ g!"  Found in first document, not found in second\n")
    | some p2 => do
      let pairs ← makePairs (p1.files.map some) (p2.files.map some)
      let r := makeResults (po.order pairs)
      return head ++ g!"  Files in first only: " ++ natDigits r.inFirstOnly.length ++ g!"\n" ++
        g!"  Files in second only: " ++ natDigits r.inSecondOnly.length ++ g!"\n" ++
        g!"  Files in both with different licenses: " ++ natDigits r.inBothChanged.length ++ g!"\n" ++
        g!"  Files in both with same licenses: " ++ natDigits r.inBothSame.length ++ g!"\n"

/-- One step of the second loop (examples/6-licensediff/example_licensediff.go:141-168). -/
def diffSecond (first second : Doc) (id : Str) : Str :=
  match findPackage id second.packages with
  | none => g!"================================\n" ++ g!"Package " ++ id ++
      g!" has described relationship in second document but ID not found\n"
  | some p2 =>
    match findPackage id first.packages with
    | some _ => []
    | none => g!"================================\n" ++ g!"Package " ++ id ++ g!" (" ++ p2.name ++ g!")\n" ++
        g!"  Found in second document, not found in first\n"

/-- The first loop (examples/6-licensediff/example_licensediff.go:87-137). -/
def diffAllFirst (po : PairOrder) (first second : Doc) : List Str → Res Str
  | [] => .ok []
  | id :: ids => do
    let a ← diffFirst po first second id
    let b ← diffAllFirst po first second ids
    return a ++ b

/-- The program that compares two documents (examples/6-licensediff/example_licensediff.go:50-169): what it
prints after the two lines that say that the documents were loaded. -/
def diffProgram (so : Sorter) (po : PairOrder) (first second : Doc) : Res Str := do
  let ids1 ← getDescribedPackageIDs so (first.packages.map some) (first.relationships.map some)
  let ids2 ← getDescribedPackageIDs so (second.packages.map some) (second.relationships.map some)
  let a ← diffAllFirst po first second ids1
  return a ++ ids2.flatMap (diffSecond first second)

/-- The loop over the packages (examples/5-report/example_report.go:62-98): a described package without
analyzed files, or without files, ends the program. -/
def reportLoop (co : CountSorter) (ids : List Str) : List PackageV → Res Str
  | [] => .ok []
  | p :: ps =>
    if !ids.contains p.spdxId then reportLoop co ids ps
    else if !p.filesAnalyzed then .ok (g!"Package " ++ p.spdxId ++ g!" (" ++ p.name ++ g!") had FilesAnalyzed: false\n")
    else if p.files.length < 1 then .ok (g!"Package " ++ p.spdxId ++ g!" (" ++ p.name ++ g!") has no Files\n")
    else do
      let r ← printReport co p.filesAnalyzed (p.files.map some)
      let rest ← reportLoop co ids ps
      return g!"============================\n" ++ g!"Package " ++ p.spdxId ++ g!" (" ++ p.name ++ g!")\n" ++ r ++ rest

/-- The program that reports the licenses of a document (examples/5-report/example_report.go:51-99): what it
prints after the line that says that the document was loaded. -/
def reportProgram (so : Sorter) (co : CountSorter) (d : Doc) : Res Str := do
  let ids ← getDescribedPackageIDs so (d.packages.map some) (d.relationships.map some)
  if ids.length = 0 then return [] else reportLoop co ids d.packages

end Verif
