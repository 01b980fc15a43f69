import Verif.Model.Utils
import Verif.Model.SpdxLib

/-!
# builder

What the file system holds is a parameter: the absolute root, the tree below it, and for each file the
three digests and the text.  Both are looked up by the path relative to the root, as in `./dir/file`:
the code joins it with the root and cleans the result (`filepath.Join`).
-/

namespace Verif

/-- The part of the file system below the root directory. -/
structure Disk where
  absRoot : Str
  tree : Node
  /-- SHA1, SHA256 and MD5 of a file in hexadecimal; nothing if the file cannot be opened or read. -/
  hashes : Str → Option (Str × Str × Str)
  /-- The text of a file; nothing if the file cannot be opened. -/
  text : Str → Option Str

/-- `BuildFileSection` (builder/build_file.go:19-56) with `GetHashesForFilePath`
(utils/filesystem.go:69-91). -/
def buildFile (d : Disk) (filePath : Str) (fileNumber : Nat) : Res FileV := do
  let (sha1, sha256, md5) ← Res.ofOption (d.hashes filePath)
  return {
    name := filePath
    spdxId := g!"File" ++ natDigits fileNumber
    checksums := [⟨g!"SHA1", sha1⟩, ⟨g!"SHA256", sha256⟩, ⟨g!"MD5", md5⟩]
    licenseConcluded := g!"NOASSERTION"
    licenseInfoInFiles := [g!"NOASSERTION"]
    copyrightText := g!"NOASSERTION" }

/-- The loop of `BuildPackageSection` (builder/build_package.go:27-39). -/
def buildFiles (d : Disk) : Nat → List Str → Res (List FileV)
  | _, [] => .ok []
  | n, p :: ps => do
    let f ← buildFile d (g!"." ++ p) n
    let fs ← buildFiles d (n + 1) ps
    return f :: fs

/-- `BuildPackageSection` (builder/build_package.go:18-63). -/
def buildPackage (so : Sorter) (sha1 : Str → Str) (d : Disk) (packageName : Str) (pathsIgnore : List Str) :
    Res PackageV := do
  let shortPaths ← getAllFilePaths so d.absRoot d.tree pathsIgnore
  let files ← buildFiles d 0 shortPaths
  let code ← getVerificationCode so sha1 (files.map some) []
  return {
    name := packageName
    spdxId := g!"Package-" ++ packageName
    downloadLocation := g!"NOASSERTION"
    filesAnalyzed := true
    filesAnalyzedTagPresent := true
    verificationCode := some code
    licenseConcluded := g!"NOASSERTION"
    licenseInfoFromFiles := []
    licenseDeclared := g!"NOASSERTION"
    copyrightText := g!"NOASSERTION"
    files := files }

/-- `BuildCreationInfoSection` (builder/build_creation_info.go:20-47).  `now` is the formatted time; the
test values are its replacement if not empty. -/
def buildCreationInfo (creatorType creator now testCreated : Str) : CreationInfo :=
  { creators := [⟨g!"github.com/spdx/tools-golang/builder", g!"Tool"⟩, ⟨creator, creatorType⟩],
    created := if testCreated ≠ [] then testCreated else now }

/-- `BuildRelationshipSection` (builder/build_relationship.go:16-24). -/
def buildRelationship (packageName : Str) : Relationship :=
  { refA := refDocument, refB := { elementRefID := g!"Package-" ++ packageName }, relationship := g!"DESCRIBES" }

/-- `Config` (builder/build.go:17-42). -/
structure BuildConfig where
  namespacePrefix : Str := []
  creatorType : Str := []
  creator : Str := []
  pathsIgnored : List Str := []
  testCreated : Str := []

/-- `fmt.Sprintf("%s", code)` on a verification code struct: `{value [excluded excluded]}`. -/
def sprintCode (c : VerificationCode) : Str := g!"{" ++ c.value ++ g!" [" ++ join g!" " c.excludedFiles ++ g!"]}"

/-- `Build` (builder/build.go:49-85). -/
def build (so : Sorter) (sha1 : Str → Str) (d : Disk) (now packageName : Str) (config : BuildConfig) : Res Doc := do
  let pkg ← buildPackage so sha1 d packageName config.pathsIgnored
  let ci := buildCreationInfo config.creatorType config.creator now config.testCreated
  let rln := buildRelationship packageName
  let code : VerificationCode := match pkg.verificationCode with
    | some c => c
    | none => {}
  return {
    spdxVersion := g!"SPDX-2.3"
    dataLicense := g!"CC0-1.0"
    spdxId := g!"DOCUMENT"
    name := packageName
    namespace_ := config.namespacePrefix ++ packageName ++ g!"-" ++ sprintCode code
    creationInfo := some ci
    packages := [pkg]
    relationships := [rln] }

end Verif
