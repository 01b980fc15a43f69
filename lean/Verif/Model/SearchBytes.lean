import Verif.Model.Bytes
import Verif.Model.IdSearcher

/-!
# idsearcher on files of any bytes

`Model/IdSearcher` takes the files to be text.  The files of a directory can be pictures, programs or text in another
encoding; this file has the search on bytes.
-/

namespace Verif

/-- The loop of `regexp.ReplaceAllString` with the expression of `stripTrash` and nothing as replacement (trusted reading
of the Go package `regexp`, not part of `/repo`): it goes from character to character, bytes that are no character being
taken one by one for U+FFFD, and leaves out those that the expression matches. -/
def stripTrashLoop : Nat → Bytes → Bytes
  | 0, _ => []
  | n + 1, s =>
    if s = [] then []
    else
      let r := decodeRune s
      (if kept (Char.ofNat r.1) then s.take r.2 else []) ++ stripTrashLoop n (s.drop r.2)

/-- `stripTrash` (idsearcher/idsearcher.go:195-198). -/
def stripTrashB (s : Bytes) : Bytes := stripTrashLoop s.length s

/-- The body of the scanning loop (idsearcher/idsearcher.go:157-174): the identifier the line adds. -/
def searchLineB (line : Bytes) : Option Bytes :=
  match cutB (utf8 shortTag) line with
  | none => none
  | some (before, after) =>
    if (stripTrashB before).length > 5 then none
    else
      let toExtract := match cutB (utf8 g!"*/") after with
        | some (a, _) => a
        | none => after
      some (stripTrashB (trimSpaceB toExtract))

/-- The lines that `bufio.Scanner` hands out before the end or the first line that is too long; the code
ignores the error (idsearcher/idsearcher.go:154-156, 177-182). -/
def scannedLinesB (text : Bytes) : List Bytes :=
  ((rawLinesB text).takeWhile fun l => l.length < maxScanToken).map dropCRB

/-- One round of the scanning loop (idsearcher/idsearcher.go:156-175); the keys of the map. -/
def addLineB (m : List Bytes) (line : Bytes) : List Bytes :=
  match searchLineB line with
  | some lid => if lid ∈ m then m else m ++ [lid]
  | none => m

/-- `sort.Strings`. -/
structure ByteSorter where
  run : List Bytes → List Bytes
  perm : ∀ l, (run l).Perm l
  sorted : ∀ l, (run l).Pairwise fun a b => bytesLe a b = true

/-- `searchFileIDs` (idsearcher/idsearcher.go:144-193); `none` is a file that cannot be opened. -/
def searchFileIDsB (so : ByteSorter) : Option Bytes → Res (List Bytes)
  | none => .err
  | some text => .ok (so.run ((scannedLinesB text).foldl addLineB []))

/-- The text of bytes that are ASCII characters. -/
def asciiText (b : Bytes) : Str := b.map fun x => Char.ofNat x.toNat

/-- `ids, _ := searchFileIDs(..)`: the identifiers, none on error (idsearcher/idsearcher.go:94).  What is found is ASCII
(`C73_found`), so the model goes on with text. -/
def foundIdsB : Res (List Bytes) → List Str
  | .ok ids => ids.map asciiText
  | _ => []

/-- The part of the file system below the root directory; the contents of a file are looked up by its path relative to
the root, nothing if it cannot be opened and read. -/
structure ByteDisk where
  absRoot : Str
  tree : Node
  contents : Str → Option Bytes

/-- What the builder looks at: the paths and the digests (`GetHashesForFilePath`, utils/filesystem.go:69-91).  The digest
functions are a parameter: SHA1, SHA256 and MD5 in hexadecimal. -/
def ByteDisk.forBuilder (digests : Bytes → Str × Str × Str) (d : ByteDisk) : Disk where
  absRoot := d.absRoot
  tree := d.tree
  hashes p := (d.contents p).map digests
  text _ := none

/-- The body of the loop over the files (idsearcher/idsearcher.go:83-126), as `searchFile`. -/
def searchFileB (so : Sorter) (sb : ByteSorter) (d : ByteDisk) (searcherPathsIgnored : List Str) (f : FileV)
    (licsForPackage : List (Str × Nat)) : FileV × List (Str × Nat) :=
  let f := { f with licenseInfoInFiles := [g!"NOASSERTION"], licenseConcluded := g!"NOASSERTION" }
  if shouldIgnore f.name searcherPathsIgnored then (f, licsForPackage)
  else
    let ids := foundIdsB (searchFileIDsB sb (d.contents f.name))
    let elements := ids.flatMap (getIndividualLicenses so)
    let licsForFile := addAll [] elements
    let licsForPackage := addAll licsForPackage elements
    let licsParens := ids.map makeElement
    if licsForFile = [] then (f, licsForPackage)
    else
      ({ f with
          licenseInfoInFiles := so.run id (licsForFile.map (·.1))
          licenseConcluded := match ids with
            | [lid] => lid
            | _ => join g!" AND " licsParens }, licsForPackage)

/-- The loop over the files (idsearcher/idsearcher.go:82-127). -/
def searchFilesB (so : Sorter) (sb : ByteSorter) (d : ByteDisk) (searcherPathsIgnored : List Str) :
    List FileV → List (Str × Nat) → List FileV × List (Str × Nat)
  | [], m => ([], m)
  | f :: fs, m =>
    let (f, m) := searchFileB so sb d searcherPathsIgnored f m
    let (fs, m) := searchFilesB so sb d searcherPathsIgnored fs m
    (f :: fs, m)

/-- `BuildIDsDocument` (idsearcher/idsearcher.go:51-141), as `buildIDsDocument`. -/
def buildIDsDocumentB (so : Sorter) (sb : ByteSorter) (sha1 : Str → Str) (digests : Bytes → Str × Str × Str) (d : ByteDisk)
    (now packageName namespacePrefix : Str) (builderPathsIgnored searcherPathsIgnored : List Str) : Res Doc := do
  let doc ← build so sha1 (d.forBuilder digests) now packageName
    { namespacePrefix := namespacePrefix, creatorType := g!"Tool",
      creator := g!"github.com/spdx/tools-golang/idsearcher", pathsIgnored := builderPathsIgnored }
  match doc.packages with
  | [pkg] =>
    let (files, licsForPackage) := searchFilesB so sb d searcherPathsIgnored pkg.files []
    let infos := if licsForPackage = [] then [g!"NOASSERTION"] else so.run id (licsForPackage.map (·.1))
    return { doc with packages := [{ pkg with files := files, licenseInfoFromFiles := infos }] }
  | _ => .err

end Verif
