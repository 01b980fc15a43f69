import Verif.Spec.Meaning
import Verif.Spec.Number

/-!
# Specification: what the package, file and snippet sections of a tag-value text say

Read off the pairs alone.  A section is opened by `PackageName`, `FileName` or `SnippetSPDXID` and described
by the pairs up to the next opening; `LicenseID` and `Reviewer` end the sections about elements.
-/

namespace Verif.Spec

/-! ## The sections of a text -/

/-- The pairs about elements: those before the extracted licenses and the reviews. -/
def elementPairs (tvs : List TVPair) : List TVPair :=
  tvs.takeWhile fun p => p.tag ≠ g!"LicenseID" ∧ p.tag ≠ g!"Reviewer"

/-- A snippet section: the value that opens it, and its pairs. -/
structure SnippetSec where
  id : Str
  pairs : List TVPair
  deriving DecidableEq, Repr

/-- A file section: the value that opens it, its pairs, and the snippet sections that follow it. -/
structure FileSec where
  name : Str
  pairs : List TVPair
  snippets : List SnippetSec
  deriving DecidableEq, Repr

/-- A package section: the value that opens it, its pairs, and the sections that follow it: the snippet sections
before the first file section, and the file sections. -/
structure PackageSec where
  name : Str
  pairs : List TVPair
  snippets : List SnippetSec
  files : List FileSec
  deriving DecidableEq, Repr

/-- The sections of a list of pairs: the pairs before the first opening, the snippet sections before the
first file section, the file sections before the first package section, and the package sections. -/
structure Sections where
  pairs : List TVPair := []
  snippets : List SnippetSec := []
  files : List FileSec := []
  packages : List PackageSec := []
  deriving DecidableEq, Repr

/-- Reading the pairs from the end. -/
def sectionsFrom : List TVPair → Sections
  | [] => {}
  | p :: ps =>
    let r := sectionsFrom ps
    if p.tag = g!"PackageName" then { packages := ⟨p.value, r.pairs, r.snippets, r.files⟩ :: r.packages }
    else if p.tag = g!"FileName" then { files := ⟨p.value, r.pairs, r.snippets⟩ :: r.files, packages := r.packages }
    else if p.tag = g!"SnippetSPDXID" then { r with pairs := [], snippets := ⟨p.value, r.pairs⟩ :: r.snippets }
    else { r with pairs := p :: r.pairs }

/-- The sections of a text. -/
def sectionsOf (tvs : List TVPair) : Sections := sectionsFrom (elementPairs tvs)

/-- Every section as often as it gives an identifier: each `SPDXID` in it lists its object. -/
def listed {α : Type} (pairs : α → List TVPair) (l : List α) : List α :=
  l.flatMap fun x => (values g!"SPDXID" (pairs x)).map fun _ => x

/-! ## Values -/

/-- An identifier with its prefix. -/
def IdReads (text id : Str) : Prop := IsId id ∧ text = g!"SPDXRef-" ++ id

/-- A supplier or originator: `NOASSERTION`, or a person or organization. -/
def PartyReads (value kind party : Str) : Prop :=
  (value = g!"NOASSERTION" ∧ kind = [] ∧ party = value) ∨
  (value ≠ g!"NOASSERTION" ∧ ColonPair value kind party ∧ kind ∈ partyKinds)

/-- A checksum of the version. -/
def ChecksumReads (v : Version) (value : Str) (c : Checksum) : Prop :=
  ColonPair value c.algorithm c.value ∧ c.algorithm ∈ algorithmsOf v

/-- `sep` is not part of `s`. -/
def Without (sep s : Str) : Prop := ∀ a b, s ≠ a ++ sep ++ b

/-- A verification code: `code`, or `code (excludes: file)`, up to spaces around code and file; the closing
parenthesis may be missing, and what follows it is ignored. -/
def CodeReads (value : Str) (c : VerificationCode) : Prop :=
  (Without g!"(excludes:" value ∧ c = { value := value, excludedFiles := [] }) ∨
  ∃ code rest, value = code ++ g!"(excludes:" ++ rest ∧ Without g!"(excludes:" code ∧
    c = { value := trimSpace code, excludedFiles := [trimSpace (rest.takeWhile fun x => x ≠ ')')] }

/-- An external reference with the pairs describing it. -/
def ExternalRefReads (g : Str × List TVPair) (r : PackageExternalRef) : Prop :=
  wordsOf g.1 = [r.category, r.refType, r.locator] ∧ r.comment = lastValue g!"ExternalRefComment" g.2

/-- An artifact with the pairs describing it. -/
def artifactOf (g : Str × List TVPair) : ArtifactOfProject where
  name := g.1
  homePage := lastValue g!"ArtifactOfProjectHomePage" g.2
  uri := lastValue g!"ArtifactOfProjectURI" g.2

/-- A range `start:end`, of bytes or of lines. -/
def RangeReads (p : TVPair) (r : SnippetRange) : Prop :=
  ∃ a b i j, ColonPair p.value a b ∧ NumberText a i ∧ NumberText b j ∧
    r = if p.tag = g!"SnippetByteRange"
      then { startPointer := { offset := i }, endPointer := { offset := j } }
      else { startPointer := { lineNumber := i }, endPointer := { lineNumber := j } }

/-- The tag was not given and the field is unset, or the field is read from the value given last. -/
def LastReads {α : Type} (tag : Str) (ps : List TVPair) (unset : Prop) (reads : Str → α → Prop) (field : α) : Prop :=
  if values tag ps = [] then unset else reads (lastValue tag ps) field

/-! ## The sections -/

/-- What a package section says about everything but the files. -/
structure PackageFields {φ : Type} (v : Version) (name : Str) (ps : List TVPair) (p : Package φ) : Prop where
  name : p.name = name
  id : LastReads g!"SPDXID" ps (p.spdxId = []) IdReads p.spdxId
  version : p.version = lastValue g!"PackageVersion" ps
  fileName : p.fileName = lastValue g!"PackageFileName" ps
  supplier : LastReads g!"PackageSupplier" ps (p.supplier = none)
    (fun value o => ∃ x, o = some x ∧ PartyReads value x.supplierType x.supplier) p.supplier
  originator : LastReads g!"PackageOriginator" ps (p.originator = none)
    (fun value o => ∃ x, o = some x ∧ PartyReads value x.originatorType x.originator) p.originator
  downloadLocation : p.downloadLocation = lastValue g!"PackageDownloadLocation" ps
  analyzedGiven : p.filesAnalyzedTagPresent = true ↔ values g!"FilesAnalyzed" ps ≠ []
  analyzed : p.filesAnalyzed = false ↔
    ((values g!"FilesAnalyzed" ps).filter fun x => x = g!"true" ∨ x = g!"false").getLast? = some g!"false"
  code : LastReads g!"PackageVerificationCode" ps (p.verificationCode = none)
    (fun value o => ∃ c, o = some c ∧ CodeReads value c) p.verificationCode
  checksums : Pointwise (ChecksumReads v) (values g!"PackageChecksum" ps) p.checksums
  homePage : p.homePage = lastValue g!"PackageHomePage" ps
  sourceInfo : p.sourceInfo = lastValue g!"PackageSourceInfo" ps
  licenseConcluded : p.licenseConcluded = lastValue g!"PackageLicenseConcluded" ps
  licenseInfo : p.licenseInfoFromFiles = values g!"PackageLicenseInfoFromFiles" ps
  licenseDeclared : p.licenseDeclared = lastValue g!"PackageLicenseDeclared" ps
  licenseComments : p.licenseComments = lastValue g!"PackageLicenseComments" ps
  copyright : p.copyrightText = lastValue g!"PackageCopyrightText" ps
  summary : p.summary = lastValue g!"PackageSummary" ps
  description : p.description = lastValue g!"PackageDescription" ps
  comment : p.comment = lastValue g!"PackageComment" ps
  externalRefs : Pointwise ExternalRefReads (groups g!"ExternalRef" ps) p.externalRefs
  attributions : p.attributionTexts = values g!"PackageAttributionText" ps
  purpose : p.primaryPurpose = lastValue g!"PrimaryPackagePurpose" ps
  releaseDate : p.releaseDate = lastValue g!"ReleaseDate" ps
  builtDate : p.builtDate = lastValue g!"BuiltDate" ps
  validUntil : p.validUntilDate = lastValue g!"ValidUntilDate" ps
  packaged : p.isUnpackaged = false
  annotations : p.annotations = []

/-- What a file section says about everything but the snippets. -/
structure FileFields {σ : Type} (v : Version) (name : Str) (ps : List TVPair) (f : File σ) : Prop where
  name : f.name = name
  id : LastReads g!"SPDXID" ps (f.spdxId = []) IdReads f.spdxId
  types : f.types = values g!"FileType" ps
  checksums : Pointwise (ChecksumReads v) (values g!"FileChecksum" ps) f.checksums
  licenseConcluded : f.licenseConcluded = lastValue g!"LicenseConcluded" ps
  licenseInfo : f.licenseInfoInFiles = values g!"LicenseInfoInFile" ps
  licenseComments : f.licenseComments = lastValue g!"LicenseComments" ps
  copyright : f.copyrightText = lastValue g!"FileCopyrightText" ps
  artifacts : f.artifactOfProjects = (groups g!"ArtifactOfProjectName" ps).map artifactOf
  comment : f.comment = lastValue g!"FileComment" ps
  notice : f.notice = lastValue g!"FileNotice" ps
  contributors : f.contributors = values g!"FileContributor" ps
  attributions : f.attributionTexts = values g!"FileAttributionText" ps
  dependencies : f.dependencies = values g!"FileDependency" ps
  annotations : f.annotations = []

/-- What a snippet section says. -/
structure SnippetSectionSays (s : SnippetSec) (x : Snippet) : Prop where
  id : IdReads s.id x.spdxId
  fromFile : LastReads g!"SnippetFromFileSPDXID" s.pairs (x.fromFile = [])
    (fun value e => ∃ r, RefReads value r ∧ e = r.elementRefID) x.fromFile
  ranges : Pointwise RangeReads (s.pairs.filter fun p => p.tag = g!"SnippetByteRange" ∨ p.tag = g!"SnippetLineRange")
    x.ranges
  licenseConcluded : x.licenseConcluded = lastValue g!"SnippetLicenseConcluded" s.pairs
  licenseInfo : x.licenseInfo = values g!"LicenseInfoInSnippet" s.pairs
  licenseComments : x.licenseComments = lastValue g!"SnippetLicenseComments" s.pairs
  copyright : x.copyrightText = lastValue g!"SnippetCopyrightText" s.pairs
  comment : x.comment = lastValue g!"SnippetComment" s.pairs
  name : x.name = lastValue g!"SnippetName" s.pairs
  attributions : x.attributionTexts = values g!"SnippetAttributionText" s.pairs

/-- The snippets of a file, found by their identifiers: of several with the same one, the last. -/
def SnippetsSay (ss : List SnippetSec) (m : List (Str × Snippet)) : Prop :=
  (m.map fun e => e.1).Nodup ∧
  ∃ xs, Pointwise SnippetSectionSays ss xs ∧ ∀ id, mapGet id m = xs.reverse.find? fun x => x.spdxId = id

/-- What a file section says. -/
structure FileSectionSays (v : Version) (s : FileSec) (f : FileV) : Prop where
  fields : FileFields v s.name s.pairs f
  snippets : SnippetsSay s.snippets f.snippets

/-- What a package section says. -/
structure PackageSectionSays (v : Version) (s : PackageSec) (p : PackageV) : Prop where
  fields : PackageFields v s.name s.pairs p
  files : Pointwise (FileSectionSays v) (listed FileSec.pairs s.files) p.files

/-- Every package and file section gives an identifier, and every snippet section follows a file section. -/
structure SectionsComplete (r : Sections) : Prop where
  files : ∀ f ∈ r.files, values g!"SPDXID" f.pairs ≠ []
  packages : ∀ p ∈ r.packages, values g!"SPDXID" p.pairs ≠ []
  packageFiles : ∀ p ∈ r.packages, ∀ f ∈ p.files, values g!"SPDXID" f.pairs ≠ []
  snippets : r.snippets = []
  packageSnippets : ∀ p ∈ r.packages, p.snippets = []

end Verif.Spec
