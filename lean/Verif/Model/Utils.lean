import Verif.Model.Types

/-!
# Verification codes, ignore patterns and directory listings

`utils/verification.go` and `utils/filesystem.go`.  SHA-1 is a parameter (a function from text to the
hexadecimal digest); nothing about it is assumed in the model.  A pointer that may be nil is an
`Option`.
-/

namespace Verif

/-- The SHA1 values of one file that is not excluded (utils/verification.go:26-33). -/
def sha1sOf (exclude : Str) (f : FileV) : List Str :=
  if f.name ≠ exclude then
    (f.checksums.filter fun c => c.algorithm = g!"SHA1").map (·.value)
  else []

/-- The loop over the files (utils/verification.go:22-34); the accumulator is the slice `shas`. -/
def collectSha1s (exclude : Str) : List Str → List (Option FileV) → Res (List Str)
  | shas, [] => .ok shas
  | _, none :: _ => .err
  | shas, some f :: rest => collectSha1s exclude (shas ++ sha1sOf exclude f) rest

/-- `GetVerificationCode` (utils/verification.go:19-58). -/
def getVerificationCode (so : Sorter) (sha1 : Str → Str) (files : List (Option FileV)) (exclude : Str) :
    Res VerificationCode := do
  let shas ← collectSha1s exclude [] files
  .ok { value := sha1 (join [] (so.run id shas)),
        excludedFiles := if exclude ≠ [] then [exclude] else [] }

/-- `path.Split`: everything up to and including the last slash, and the rest. -/
def pathSplit : Str → Str × Str
  | [] => ([], [])
  | c :: t =>
    let (d, f) := pathSplit t
    if d ≠ [] then (c :: d, f)
    else if c = '/' then ([c], f)
    else ([], c :: f)

/-- One iteration of the loop of `ShouldIgnore` (utils/filesystem.go:99-132): whether it returns
true. -/
def ignoredBy (fDirs fFile pattern : Str) : Bool :=
  let (dirs0, patternFile) := pathSplit pattern
  let stars := hasPrefix g!"**" dirs0
  let patternDirs := if stars then dirs0.drop 2 else dirs0
  (!stars && patternDirs = fDirs && patternFile ≠ [] && patternFile = fFile) ||
  (!stars && hasPrefix patternDirs fDirs && patternFile = []) ||
  (stars && patternDirs = g!"/" && patternFile ≠ [] && patternFile = fFile) ||
  (stars && contains patternDirs fDirs && patternFile ≠ [] && patternFile = fFile) ||
  (stars && contains patternDirs fDirs && patternFile = [])

/-- `ShouldIgnore` (utils/filesystem.go:96-136). -/
def shouldIgnore (fileName : Str) (pathsIgnored : List Str) : Bool :=
  let (fDirs, fFile) := pathSplit fileName
  pathsIgnored.any (ignoredBy fDirs fFile)

mutual
/-- A file system entry as `filepath.Walk` meets it: a regular file, a symbolic link, a directory, or an
entry whose information or listing cannot be read. -/
inductive Node where
  | file
  | link
  | bad
  | dir (es : Entries)
/-- The entries of a directory with their names, in any order. -/
inductive Entries where
  | nil
  | cons (name : Str) (n : Node) (rest : Entries)
end

/-- `filepath.Join(path, name)` for a clean path and a simple name. -/
def joinPath (path name : Str) : Str := if path = g!"/" then path ++ name else path ++ g!"/" ++ name

/-- The callback on a regular file (utils/filesystem.go:47-61): what it appends.  A nil slice of patterns
and an empty one behave alike. -/
def recordPath (pre : Str) (ignored : List Str) (path : Str) : List Str :=
  let short := trimPrefix pre path
  let short := if !hasPrefix g!"/" short then g!"/" ++ short else short
  if shouldIgnore short ignored then [] else [short]

/-- Concatenates the results of the entries; the first error ends the walk. -/
def concatRes : List (Res (List Str)) → Res (List Str)
  | [] => .ok []
  | r :: rs => do
    let a ← r
    let b ← concatRes rs
    .ok (a ++ b)

mutual
/-- `filepath.Walk` with the callback of `GetAllFilePaths` (utils/filesystem.go:34-62).  `Walk` visits the
entries of a directory in the order of their names.  The visits do not influence each other, so the
model lists each entry and then puts the lists in the order of the names. -/
def walkNode (so : Sorter) (pre : Str) (ignored : List Str) (path : Str) : Node → Res (List Str)
  | .file => .ok (recordPath pre ignored path)
  | .link => .ok []
  | .bad => .err
  | .dir es => concatRes ((so.run (·.1) (walkEntries so pre ignored path es)).map (·.2))
/-- The entries of a directory with the results of their walks. -/
def walkEntries (so : Sorter) (pre : Str) (ignored : List Str) (path : Str) : Entries → List (Str × Res (List Str))
  | .nil => []
  | .cons name n rest =>
    (name, walkNode so pre ignored (joinPath path name) n) :: walkEntries so pre ignored path rest
end

/-- `GetAllFilePaths` (utils/filesystem.go:22-65).  `absRoot` is the result of `filepath.Abs`, a clean
absolute path; the tree is what the file system holds there.  On error the caller's slice is not
modelled. -/
def getAllFilePaths (so : Sorter) (absRoot : Str) (tree : Node) (ignored : List Str) : Res (List Str) :=
  walkNode so (trimSuffix g!"/" absRoot) ignored absRoot tree

end Verif
