import Verif.Spec.RdfExact

/-!
# Graphs with the same statements, and documents that differ in order only
-/

namespace Verif.Spec.Rdf

/-! ## Graphs -/

/-- The graphs have the same statements and roots, in any order and any number of times. -/
structure SameStatements (g g' : Graph) : Prop where
  triples : ∀ t, t ∈ g.triples ↔ t ∈ g'.triples
  roots : ∀ r, r ∈ g.roots ↔ r ∈ g'.roots
  uris : g.uriValid = g'.uriValid

/-- The second graph has the statements of the first in another order. -/
structure Reordered (g g' : Graph) : Prop where
  triples : g.triples.Perm g'.triples
  roots : g.roots.Perm g'.roots
  uris : g.uriValid = g'.uriValid

/-- The properties that a node may have several times; `checksum` only for files and packages. -/
def repeatable : List Pred :=
  [.fileType, .checksum, .licenseInfoInFile, .artifactOf, .fileContributor, .fileDependency, .attributionText, .annotation, .relationship,
    .licenseInfoFromFiles, .externalRef, .hasFile, .member, .licenseException, .seeAlso, .example_, .creator,
    .packageVerificationCodeExcludedFile, .externalDocumentRef, .reviewed, .describesPackage, .hasExtractedLicensingInfo,
    .licenseInfoInSnippet]

/-- No node has two values for a property that should have one. -/
structure SaidOnce (g : Graph) : Prop where
  once : ∀ t ∈ g.triples, ∀ u ∈ g.triples, t.subject.id = u.subject.id → t.pred = u.pred → t.pred ∉ repeatable → t.object = u.object
  /-- An external document has one checksum. -/
  externals : ∀ e ∈ g.triples, e.pred = .externalDocumentRef → ∀ t ∈ g.of e.object, ∀ u ∈ g.of e.object, t.pred = .checksum →
    u.pred = .checksum → t.object = u.object
  /-- The end of a range is an offset or a line number. -/
  pointers : ∀ t ∈ g.triples, ∀ u ∈ g.triples, t.subject.id = u.subject.id → t.pred = .offset → u.pred ≠ .lineNumber

/-! ## Documents -/

/-- The lists have the same members, in any order and any number of times. -/
def SameMembers {α : Type} (l m : List α) : Prop := ∀ x, x ∈ l ↔ x ∈ m

/-- Every member of each list is like one of the other. -/
def Matching {α : Type} (S : α → α → Prop) (l m : List α) : Prop := (∀ x ∈ l, ∃ y ∈ m, S x y) ∧ ∀ y ∈ m, ∃ x ∈ l, S x y

mutual
/-- License trees that differ in the order and number of the members of sets only. -/
inductive SameLic : Lic → Lic → Prop
  | named {x} : SameLic (.named x) (.named x)
  | all {ms ns} : Within ms ns → Covers ms ns → SameLic (.all ms) (.all ns)
  | any {ms ns} : Within ms ns → Covers ms ns → SameLic (.any ms) (.any ns)
/-- Every one of the first is among the second. -/
inductive Within : List Lic → List Lic → Prop
  | nil {ns} : Within [] ns
  | cons {m n ms ns} : n ∈ ns → SameLic m n → Within ms ns → Within (m :: ms) ns
/-- Every one of the second is among the first. -/
inductive Covers : List Lic → List Lic → Prop
  | nil {ms} : Covers ms []
  | cons {m n ms ns} : m ∈ ms → SameLic m n → Covers ms ns → Covers ms (n :: ns)
end

/-- Texts of such license trees. -/
def SameLicense (x y : Str) : Prop := ∃ l m, SameLic l m ∧ x = l.text ∧ y = m.text

/-- Ranges with the same ends; the file that the ends are in is left out. -/
def SameRange (r s : SnippetRange) : Prop :=
  r.startPointer.offset = s.startPointer.offset ∧ r.startPointer.lineNumber = s.startPointer.lineNumber ∧
  r.endPointer.offset = s.endPointer.offset ∧ r.endPointer.lineNumber = s.endPointer.lineNumber

structure SameSnippet (x y : Snippet) : Prop where
  spdxId : x.spdxId = y.spdxId
  fromFile : x.fromFile = y.fromFile
  ranges : Matching SameRange x.ranges y.ranges
  licenseConcluded : SameLicense x.licenseConcluded y.licenseConcluded
  licenseInfo : Matching SameLicense x.licenseInfo y.licenseInfo
  licenseComments : x.licenseComments = y.licenseComments
  copyrightText : x.copyrightText = y.copyrightText
  comment : x.comment = y.comment
  name : x.name = y.name
  attributionTexts : x.attributionTexts = y.attributionTexts

structure SameFile (f k : FileV) : Prop where
  name : f.name = k.name
  spdxId : f.spdxId = k.spdxId
  types : SameMembers f.types k.types
  checksums : SameMembers f.checksums k.checksums
  licenseConcluded : SameLicense f.licenseConcluded k.licenseConcluded
  licenseInfo : Matching SameLicense f.licenseInfoInFiles k.licenseInfoInFiles
  licenseComments : f.licenseComments = k.licenseComments
  copyrightText : f.copyrightText = k.copyrightText
  artifacts : SameMembers f.artifactOfProjects k.artifactOfProjects
  comment : f.comment = k.comment
  notice : f.notice = k.notice
  contributors : SameMembers f.contributors k.contributors
  attributionTexts : SameMembers f.attributionTexts k.attributionTexts
  dependencies : SameMembers f.dependencies k.dependencies
  snippets : Matching (fun a b => a.1 = b.1 ∧ SameSnippet a.2 b.2) f.snippets k.snippets
  annotations : f.annotations = k.annotations

def SameCode : Option VerificationCode → Option VerificationCode → Prop
  | none, none => True
  | some c, some e => c.value = e.value ∧ SameMembers c.excludedFiles e.excludedFiles
  | _, _ => False

structure SamePackage (p q : PackageV) : Prop where
  isUnpackaged : p.isUnpackaged = q.isUnpackaged
  name : p.name = q.name
  spdxId : p.spdxId = q.spdxId
  version : p.version = q.version
  fileName : p.fileName = q.fileName
  supplier : p.supplier = q.supplier
  originator : p.originator = q.originator
  downloadLocation : p.downloadLocation = q.downloadLocation
  filesAnalyzed : p.filesAnalyzed = q.filesAnalyzed
  filesAnalyzedTag : p.filesAnalyzedTagPresent = q.filesAnalyzedTagPresent
  verificationCode : SameCode p.verificationCode q.verificationCode
  checksums : SameMembers p.checksums q.checksums
  homePage : p.homePage = q.homePage
  sourceInfo : p.sourceInfo = q.sourceInfo
  licenseConcluded : SameLicense p.licenseConcluded q.licenseConcluded
  licenseInfo : SameMembers p.licenseInfoFromFiles q.licenseInfoFromFiles
  licenseDeclared : SameLicense p.licenseDeclared q.licenseDeclared
  licenseComments : p.licenseComments = q.licenseComments
  copyrightText : p.copyrightText = q.copyrightText
  summary : p.summary = q.summary
  description : p.description = q.description
  comment : p.comment = q.comment
  externalRefs : SameMembers p.externalRefs q.externalRefs
  attributionTexts : SameMembers p.attributionTexts q.attributionTexts
  primaryPurpose : p.primaryPurpose = q.primaryPurpose
  releaseDate : p.releaseDate = q.releaseDate
  builtDate : p.builtDate = q.builtDate
  validUntilDate : p.validUntilDate = q.validUntilDate
  files : Matching SameFile p.files q.files
  annotations : p.annotations = q.annotations

structure SameOther (l m : OtherLicense) : Prop where
  id : l.licenseIdentifier = m.licenseIdentifier
  text : l.extractedText = m.extractedText
  name : l.licenseName = m.licenseName
  crossReferences : SameMembers l.crossReferences m.crossReferences
  comment : l.comment = m.comment

def SameCreation : Option CreationInfo → Option CreationInfo → Prop
  | none, none => True
  | some c, some e => c.licenseListVersion = e.licenseListVersion ∧ SameMembers c.creators e.creators ∧ c.created = e.created ∧
    c.creatorComment = e.creatorComment
  | _, _ => False

/-- The documents differ in the order and number of the members of lists only, and in the file that the ends of ranges are in. -/
structure SameDocument (d e : Doc) : Prop where
  spdxVersion : d.spdxVersion = e.spdxVersion
  dataLicense : SameLicense d.dataLicense e.dataLicense
  spdxId : d.spdxId = e.spdxId
  name : d.name = e.name
  namespace_ : d.namespace_ = e.namespace_
  externals : SameMembers d.externalDocumentRefs e.externalDocumentRefs
  comment : d.comment = e.comment
  creation : SameCreation d.creationInfo e.creationInfo
  packages : Matching SamePackage d.packages e.packages
  files : Matching SameFile d.files e.files
  licenses : Matching SameOther d.otherLicenses e.otherLicenses
  relationships : SameMembers d.relationships e.relationships
  annotations : SameMembers d.annotations e.annotations
  snippets : d.snippets = e.snippets
  reviews : SameMembers d.reviews e.reviews

/-- Every statement of a version gives the same one. -/
def OneVersion (g : Graph) : Prop :=
  ∀ t ∈ g.triples, ∀ u ∈ g.triples, t.pred = .specVersion → u.pred = .specVersion → t.object.id = u.object.id

end Verif.Spec.Rdf
