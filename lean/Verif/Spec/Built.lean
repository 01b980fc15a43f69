import Verif.Model.Builder
import Verif.Spec.Utils
import Verif.Spec.SameDoc

/-!
# Specification: what a built document says
-/

namespace Verif.Spec

/-- The root is a directory with a clean absolute path, and names in it are names. -/
structure IsDirectory (d : Disk) : Prop where
  dir : ∃ es, d.tree = .dir es
  clean : CleanRoot d.absRoot
  good : GoodTree d.tree

/-- There is a file at the path `p` that no pattern ignores. -/
def Chosen (d : Disk) (patterns : List Str) (p : List Str) : Prop :=
  FileAt d.tree p ∧ ¬ ∃ q ∈ patterns, Ignores q (pathText p)

/-- There is a file at the path `p` that no pattern ignores, and its digests (SHA1, SHA256, MD5) are `h`. -/
def HoldsFile (d : Disk) (patterns : List Str) (p : List Str) (h : Str × Str × Str) : Prop :=
  Chosen d patterns p ∧ d.hashes (g!"." ++ pathText p) = some h

/-- Nothing is in the way: all directories can be listed and all files that are not ignored can be read. -/
def AllReadable (d : Disk) (patterns : List Str) : Prop :=
  ¬ unreadable d.tree ∧ ∀ p, Chosen d patterns p → d.hashes (g!"." ++ pathText p) ≠ none

/-- All files that are not ignored with their digests, in the order of their paths. -/
def Inventory (d : Disk) (patterns : List Str) (found : List (List Str × Str × Str × Str)) : Prop :=
  found.Pairwise (fun a b => PathLt a.1 b.1) ∧ ∀ p h, (p, h) ∈ found ↔ HoldsFile d patterns p h

/-- The entry for a file: number, path, digests. -/
def builtEntry (n : Nat) (p : List Str) (h : Str × Str × Str) : FileV where
  name := g!"." ++ pathText p
  spdxId := g!"File" ++ natDigits n
  checksums := [⟨g!"SHA1", h.1⟩, ⟨g!"SHA256", h.2.1⟩, ⟨g!"MD5", h.2.2⟩]
  licenseConcluded := g!"NOASSERTION"
  licenseInfoInFiles := [g!"NOASSERTION"]
  copyrightText := g!"NOASSERTION"

/-- The entries for files, numbered from `n`. -/
def builtEntries (n : Nat) : List (List Str × Str × Str × Str) → List FileV
  | [] => []
  | (p, h) :: l => builtEntry n p h :: builtEntries (n + 1) l

/-- The whole document: `code` is the verification code. -/
def wholeDocument (found : List (List Str × Str × Str × Str)) (code now name : Str) (config : BuildConfig) : Doc where
  spdxVersion := g!"SPDX-2.3"
  dataLicense := g!"CC0-1.0"
  spdxId := g!"DOCUMENT"
  name := name
  namespace_ := config.namespacePrefix ++ name ++ g!"-{" ++ code ++ g!" []}"
  creationInfo := some {
    creators := [⟨g!"github.com/spdx/tools-golang/builder", g!"Tool"⟩, ⟨config.creator, config.creatorType⟩]
    created := if config.testCreated ≠ [] then config.testCreated else now }
  packages := [{
    name := name
    spdxId := g!"Package-" ++ name
    downloadLocation := g!"NOASSERTION"
    filesAnalyzed := true
    filesAnalyzedTagPresent := true
    verificationCode := some { value := code, excludedFiles := [] }
    licenseConcluded := g!"NOASSERTION"
    licenseInfoFromFiles := []
    licenseDeclared := g!"NOASSERTION"
    copyrightText := g!"NOASSERTION"
    files := builtEntries 0 found }]
  relationships := [{
    refA := { elementRefID := g!"DOCUMENT" }
    refB := { elementRefID := g!"Package-" ++ name }
    relationship := g!"DESCRIBES" }]

/-- The verification code of files: the SHA-1 of their sorted SHA-1 digests. -/
def CodeOf (sha1 : Str → Str) (found : List (List Str × Str × Str × Str)) (code : Str) : Prop :=
  ∃ sorted : List Str, SortedBy id sorted ∧ sorted.Perm (found.map (·.2.1)) ∧ code = sha1 sorted.flatten

end Verif.Spec
