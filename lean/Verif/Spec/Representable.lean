import Verif.Spec.TVFormat
import Verif.Spec.Parsed

/-!
# Specification: documents the tag-value format can represent

Which documents survive being written as tag-value and read again.
-/

namespace Verif.Spec

/-- A value that fits on one line: no line break, no surrounding white space, no `<text>`. -/
def OneLine (s : Str) : Prop := '\n' ∉ s ∧ trimSpace s = s ∧ contains g!"<text>" s = false
instance (s : Str) : Decidable (OneLine s) := by unfold OneLine; infer_instance

/-- A one-line value that is not empty. -/
def Line1 (s : Str) : Prop := s ≠ [] ∧ OneLine s
instance (s : Str) : Decidable (Line1 s) := by unfold Line1; infer_instance

/-- A possibly empty piece of text without white space. -/
def Solid (s : Str) : Prop := (∀ c ∈ s, isSpace c = false) ∧ contains g!"<text>" s = false
instance (s : Str) : Decidable (Solid s) := by unfold Solid; infer_instance

/-- A word: not empty, no white space. -/
def Word (s : Str) : Prop := s ≠ [] ∧ Solid s
instance (s : Str) : Decidable (Word s) := by unfold Word; infer_instance

/-- An identifier without its prefix: not empty, no white space, no colon. -/
def Ident (s : Str) : Prop := Word s ∧ ':' ∉ s
instance (s : Str) : Decidable (Ident s) := by unfold Ident; infer_instance

/-- A reference to an element of this or another document. -/
def RepRef (r : DocElementID) : Prop :=
  Ident r.elementRefID ∧ (r.documentRefID = [] ∨ Ident r.documentRefID) ∧ r.specialID = []
instance (r : DocElementID) : Decidable (RepRef r) := by unfold RepRef; infer_instance

/-- A checksum with an algorithm of the version. -/
def RepChecksum (v : Version) (c : Checksum) : Prop := c.algorithm ∈ algorithmsOf v ∧ Line1 c.value
instance (v : Version) (c : Checksum) : Decidable (RepChecksum v c) := by unfold RepChecksum; infer_instance

/-- A person, organization or tool with a name. -/
def RepAgent (kind name : Str) : Prop := kind ∈ agentKinds ∧ Line1 name
instance (k n : Str) : Decidable (RepAgent k n) := by unfold RepAgent; infer_instance

/-- A supplier or originator: a person or organization with a name, or NOASSERTION. -/
def RepParty (kind name : Str) : Prop :=
  (kind ∈ partyKinds ∧ Line1 name) ∨ (kind = [] ∧ name = g!"NOASSERTION")
instance (k n : Str) : Decidable (RepParty k n) := by unfold RepParty; infer_instance

/-- A 64-bit integer other than zero. -/
def RepInt (n : Int) : Prop := n ≠ 0 ∧ -(2 ^ 63) ≤ n ∧ n < 2 ^ 63
instance (n : Int) : Decidable (RepInt n) := by unfold RepInt; infer_instance

/-- A range that is either a byte range or a line range (with no zero end), and nothing else. -/
def RepRange (r : SnippetRange) : Prop :=
  (RepInt r.startPointer.offset ∧ RepInt r.endPointer.offset ∧
    r = ⟨⟨r.startPointer.offset, 0, []⟩, ⟨r.endPointer.offset, 0, []⟩⟩) ∨
  (RepInt r.startPointer.lineNumber ∧ RepInt r.endPointer.lineNumber ∧
    r = ⟨⟨0, r.startPointer.lineNumber, []⟩, ⟨0, r.endPointer.lineNumber, []⟩⟩)
instance (r : SnippetRange) : Decidable (RepRange r) := by unfold RepRange; infer_instance

/-- A verification code with at most one excluded file. -/
def RepCode (c : VerificationCode) : Prop :=
  Line1 c.value ∧ contains g!"(excludes:" c.value = false ∧
  (c.excludedFiles = [] ∨ ∃ f, c.excludedFiles = [f] ∧ OneLine f ∧ ')' ∉ f)

structure RepRef3 (r : PackageExternalRef) : Prop where
  category : Word r.category
  refType : Word r.refType
  locator : Word r.locator
  comment : GoodValue r.comment

structure RepExternalDocRef (e : ExternalDocumentRef) : Prop where
  documentRefID : Word e.documentRefID
  uri : Word e.uri
  algorithm : Solid e.checksum.algorithm ∧ ':' ∉ e.checksum.algorithm
  value : Solid e.checksum.value

structure RepCreationInfo (c : CreationInfo) : Prop where
  notEmpty : c ≠ {}
  licenseListVersion : OneLine c.licenseListVersion
  creators : ∀ x ∈ c.creators, RepAgent x.creatorType x.creator
  created : OneLine c.created
  creatorComment : GoodValue c.creatorComment

structure RepSnippet (v : Version) (s : Snippet) : Prop where
  spdxId : Ident s.spdxId
  fromFile : Ident s.fromFile
  ranges : ∀ r ∈ s.ranges, RepRange r
  licenseConcluded : OneLine s.licenseConcluded
  licenseInfo : ∀ x ∈ s.licenseInfo, OneLine x
  licenseComments : GoodValue s.licenseComments
  copyrightText : GoodValue s.copyrightText
  comment : GoodValue s.comment
  name : OneLine s.name
  attributionTexts : ∀ x ∈ s.attributionTexts, GoodValue x
  noAttribution21 : v = .v21 → s.attributionTexts = []

structure RepArtifact (a : ArtifactOfProject) : Prop where
  name : OneLine a.name
  homePage : OneLine a.homePage
  uri : OneLine a.uri

structure RepFile (v : Version) (f : FileV) : Prop where
  name : Line1 f.name
  spdxId : Ident f.spdxId
  types : ∀ x ∈ f.types, OneLine x
  checksums : ∀ c ∈ f.checksums, RepChecksum v c
  licenseConcluded : OneLine f.licenseConcluded
  licenseInfoInFiles : ∀ x ∈ f.licenseInfoInFiles, OneLine x
  licenseComments : GoodValue f.licenseComments
  copyrightText : GoodValue f.copyrightText
  artifacts : ∀ a ∈ f.artifactOfProjects, RepArtifact a
  comment : GoodValue f.comment
  notice : GoodValue f.notice
  contributors : ∀ x ∈ f.contributors, OneLine x
  attributionTexts : ∀ x ∈ f.attributionTexts, GoodValue x
  noAttribution21 : v = .v21 → f.attributionTexts = []
  dependencies : ∀ x ∈ f.dependencies, OneLine x
  snippets : ∀ x ∈ f.snippets, x.1 = x.2.spdxId ∧ RepSnippet v x.2
  snippetKeys : (f.snippets.map (·.1)).Nodup
  noAnnotations : f.annotations = []

structure RepPackage (v : Version) (p : PackageV) : Prop where
  packaged : p.isUnpackaged = false
  name : Line1 p.name
  spdxId : Ident p.spdxId
  version : OneLine p.version
  fileName : OneLine p.fileName
  supplier : ∀ s ∈ p.supplier, RepParty s.supplierType s.supplier
  originator : ∀ s ∈ p.originator, RepParty s.originatorType s.originator
  downloadLocation : OneLine p.downloadLocation
  filesAnalyzed : p.filesAnalyzed = false → p.filesAnalyzedTagPresent = true
  verificationCode : ∀ c ∈ p.verificationCode, p.filesAnalyzed = true ∧ RepCode c
  checksums : ∀ c ∈ p.checksums, RepChecksum v c
  homePage : OneLine p.homePage
  sourceInfo : GoodValue p.sourceInfo
  licenseConcluded : OneLine p.licenseConcluded
  licenseInfoFromFiles : ∀ x ∈ p.licenseInfoFromFiles, OneLine x
  noLicenseInfo : p.filesAnalyzed = false → p.licenseInfoFromFiles = []
  licenseDeclared : OneLine p.licenseDeclared
  licenseComments : GoodValue p.licenseComments
  copyrightText : GoodValue p.copyrightText
  summary : GoodValue p.summary
  description : GoodValue p.description
  comment : GoodValue p.comment
  externalRefs : ∀ r ∈ p.externalRefs, RepRef3 r
  attributionTexts : ∀ x ∈ p.attributionTexts, GoodValue x
  noAttribution21 : v = .v21 → p.attributionTexts = []
  primaryPurpose : OneLine p.primaryPurpose
  releaseDate : OneLine p.releaseDate
  builtDate : OneLine p.builtDate
  validUntilDate : OneLine p.validUntilDate
  only23 : v ≠ .v23 → p.primaryPurpose = [] ∧ p.releaseDate = [] ∧ p.builtDate = [] ∧ p.validUntilDate = []
  files : ∀ f ∈ p.files, RepFile v f
  noAnnotations : p.annotations = []

structure RepOtherLicense (l : OtherLicense) : Prop where
  licenseIdentifier : Line1 l.licenseIdentifier
  extractedText : GoodValue l.extractedText
  licenseName : OneLine l.licenseName
  crossReferences : ∀ x ∈ l.crossReferences, OneLine x
  comment : GoodValue l.comment

structure RepRelationship (v : Version) (r : Relationship) : Prop where
  refA : RepRef r.refA
  refB : RepRef r.refB ∨ (v ≠ .v21 ∧ SpecialRef r.refB)
  relationship : Word r.relationship
  comment : GoodValue r.comment

structure RepAnnotation (a : Annotation) : Prop where
  annotator : RepAgent a.annotator.annotatorType a.annotator.annotator
  date : OneLine a.date
  type : OneLine a.type
  spdxId : a.spdxId = {} ∨ RepRef a.spdxId
  comment : GoodValue a.comment

structure RepReview (r : Review) : Prop where
  reviewer : RepAgent r.reviewerType r.reviewer
  date : OneLine r.date
  comment : GoodValue r.comment

/-- A document the tag-value format of the version can represent. -/
structure Representable (v : Version) (d : Doc) : Prop where
  spdxVersion : OneLine d.spdxVersion
  dataLicense : OneLine d.dataLicense
  spdxId : d.spdxId = [] ∨ Ident d.spdxId
  name : OneLine d.name
  namespace_ : OneLine d.namespace_
  externalDocumentRefs : ∀ e ∈ d.externalDocumentRefs, RepExternalDocRef e
  comment : GoodValue d.comment
  creationInfo : ∃ c, d.creationInfo = some c ∧ RepCreationInfo c
  packages : ∀ p ∈ d.packages, RepPackage v p
  files : ∀ f ∈ d.files, RepFile v f
  otherLicenses : ∀ l ∈ d.otherLicenses, RepOtherLicense l
  relationships : ∀ r ∈ d.relationships, RepRelationship v r
  annotations : ∀ a ∈ d.annotations, RepAnnotation a
  noSnippets : d.snippets = []
  reviews : ∀ r ∈ d.reviews, RepReview r

end Verif.Spec
