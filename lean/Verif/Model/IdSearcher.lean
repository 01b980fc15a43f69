import Verif.Model.Builder

/-!
# idsearcher
-/

namespace Verif

/-- A character that the regular expression of `stripTrash` keeps (idsearcher/idsearcher.go:196): `\w`, `\s`
and `\d` are ASCII classes in Go. -/
def kept (c : Char) : Bool :=
  c.isAlphanum || c = '_' || c = '\t' || c = '\n' || c = '\x0c' || c = '\r' || c = ' ' ||
  c = '.' || c = '-' || c = '+' || c = '(' || c = ')'

/-- `stripTrash` (idsearcher/idsearcher.go:195-198). -/
def stripTrash (s : Str) : Str := s.filter kept

/-- The short-form tag (idsearcher/idsearcher.go:157). -/
def shortTag : Str := g!"SPDX-License-Identifier:"

/-- The body of the scanning loop (idsearcher/idsearcher.go:157-174): the identifier the line adds. -/
def searchLine (line : Str) : Option Str :=
  match cut shortTag line with
  | none => none
  | some (before, after) =>
    if byteLen (stripTrash before) > 5 then none
    else
      let toExtract := match cut g!"*/" after with
        | some (a, _) => a
        | none => after
      some (stripTrash (trimSpace toExtract))

/-- The lines that `bufio.Scanner` hands out before the end or the first line that is too long; the code
ignores the error (idsearcher/idsearcher.go:154-156, 177-182). -/
def scannedLines (text : Str) : List Str :=
  ((rawLines text).takeWhile fun l => byteLen l < maxScanToken).map dropCR

/-- One round of the scanning loop (idsearcher/idsearcher.go:156-175). -/
def addLine (m : List (Str × Nat)) (line : Str) : List (Str × Nat) :=
  match searchLine line with
  | some lid => mapInsert lid 1 m
  | none => m

/-- `searchFileIDs` (idsearcher/idsearcher.go:144-193); `none` is a file that cannot be opened. -/
def searchFileIDs (so : Sorter) : Option Str → Res (List Str)
  | none => .err
  | some text =>
    .ok (so.run id (((scannedLines text).foldl addLine []).map (·.1)))

/-- `makeElement` (idsearcher/idsearcher.go:200-206). -/
def makeElement (lic : Str) : Str :=
  if contains g!" AND " lic || contains g!" OR " lic then g!"(" ++ lic ++ g!")" else lic

/-- `strings.EqualFold` with an upper-case ASCII word none of whose letters has a non-ASCII case variant
(that is, without K and S). -/
def equalFold (s word : Str) : Bool := s.map Char.toUpper = word

/-- The test on one element (idsearcher/idsearcher.go:220-221). -/
def skipElement (elt : Str) : Bool :=
  elt = [] || equalFold elt g!"AND" || equalFold elt g!"OR" || equalFold elt g!"WITH"

/-- `getIndividualLicenses` (idsearcher/idsearcher.go:208-231). -/
def getIndividualLicenses (so : Sorter) (lic : Str) : List Str :=
  let lic := replaceChar '(' ' ' lic
  let lic := replaceChar ')' ' ' lic
  let lic := replaceChar '+' ' ' lic
  so.run id (((splitChar ' ' lic).map trimSpace).filter fun elt => !skipElement elt)

/-- Adds elements to a set (idsearcher/idsearcher.go:105-108). -/
def addAll (m : List (Str × Nat)) (elts : List Str) : List (Str × Nat) :=
  elts.foldl (fun m e => mapInsert e 1 m) m

/-- `ids, _ := searchFileIDs(..)`: the identifiers, none on error (idsearcher/idsearcher.go:94). -/
def idsOrNone : Res (List Str) → List Str
  | .ok ids => ids
  | _ => []

/-- The body of the loop over the files (idsearcher/idsearcher.go:83-126): the file and the licenses of the
package so far.  The code writes through the file pointer; here the file is returned. -/
def searchFile (so : Sorter) (d : Disk) (searcherPathsIgnored : List Str) (f : FileV) (licsForPackage : List (Str × Nat)) :
    FileV × List (Str × Nat) :=
  let f := { f with licenseInfoInFiles := [g!"NOASSERTION"], licenseConcluded := g!"NOASSERTION" }
  if shouldIgnore f.name searcherPathsIgnored then (f, licsForPackage)
  else
    let ids := idsOrNone (searchFileIDs so (d.text f.name))
    let elements := ids.flatMap (getIndividualLicenses so)
    let licsForFile := addAll [] elements
    let licsForPackage := addAll licsForPackage elements
    let licsParens := ids.map makeElement
    if licsForFile = [] then (f, licsForPackage)
    else
      ({ f with
          licenseInfoInFiles := so.run id (licsForFile.map (·.1))
          licenseConcluded := match ids with
            | [lid] => lid
            | _ => join g!" AND " licsParens }, licsForPackage)

/-- The loop over the files (idsearcher/idsearcher.go:82-127). -/
def searchFiles (so : Sorter) (d : Disk) (searcherPathsIgnored : List Str) :
    List FileV → List (Str × Nat) → List FileV × List (Str × Nat)
  | [], m => ([], m)
  | f :: fs, m =>
    let (f, m) := searchFile so d searcherPathsIgnored f m
    let (fs, m) := searchFiles so d searcherPathsIgnored fs m
    (f :: fs, m)

/-- `BuildIDsDocument` (idsearcher/idsearcher.go:51-141).  The tests for nil (lines 63-80) cannot succeed on
what the builder returns and are left out. -/
def buildIDsDocument (so : Sorter) (sha1 : Str → Str) (d : Disk) (now packageName namespacePrefix : Str)
    (builderPathsIgnored searcherPathsIgnored : List Str) : Res Doc := do
  let doc ← build so sha1 d now packageName
    { namespacePrefix := namespacePrefix, creatorType := g!"Tool",
      creator := g!"github.com/spdx/tools-golang/idsearcher", pathsIgnored := builderPathsIgnored }
  match doc.packages with
  | [pkg] =>
    let (files, licsForPackage) := searchFiles so d searcherPathsIgnored pkg.files []
    let infos := if licsForPackage = [] then [g!"NOASSERTION"] else so.run id (licsForPackage.map (·.1))
    return { doc with packages := [{ pkg with files := files, licenseInfoFromFiles := infos }] }
  | _ => .err

end Verif
