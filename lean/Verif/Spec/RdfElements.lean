import Verif.Spec.RdfSays

/-!
# What the statements of an RDF graph say about files, packages, relationships and the document

An element may be read several times; `ts` are then the statements of all readings, one after the other.
-/

namespace Verif.Spec.Rdf

/-- A reference by URI.  NONE and NOASSERTION are taken as names of elements. -/
def ReferenceSays (n : RNode) (r : DocElementID) : Prop :=
  ∃ x, LastPart n.id x ∧
    ((toLower (trimSpace x) ∈ [g!"noassertion", g!"none"] ∧ r = { elementRefID := toUpper x }) ∨
     (toLower (trimSpace x) ∉ [g!"noassertion", g!"none"] ∧ RefReads x r))

/-- `relationshipType_` and a name of a type. -/
def RelationshipTypeSays (n : RNode) (x : Str) : Prop :=
  x ∈ allRelationshipTypes ∧ ∃ y, LastPart (trimSpace n.id) (g!"relationshipType_" ++ y) ∧ x = trimSpace y

structure FileSays (v : Version) (g : Graph) (ts : List Triple) (f : FileV) : Prop where
  only : Only ts [.fileName, .name, .type_, .fileType, .checksum, .licenseConcluded, .licenseInfoInFile, .licenseComments,
    .copyrightText, .licenseInfoFromFiles, .artifactOf, .comment, .noticeText, .fileContributor, .fileDependency,
    .attributionText, .annotation, .relationship]
  name : LastOf Text [] (vals ts .fileName) f.name
  types : EachOf FileTypeSays (vals ts .fileType) f.types
  checksums : EachOf (ElementChecksumSays v g) (vals ts .checksum) f.checksums
  licenseConcluded : LastOf (LicenseSays g) [] (vals ts .licenseConcluded) f.licenseConcluded
  licenseInfo : EachOf (LicenseSays g) (vals ts .licenseInfoInFile) f.licenseInfoInFiles
  licenseComments : LastOf Text [] (vals ts .licenseComments) f.licenseComments
  copyrightText : LastOf Text [] (vals ts .copyrightText) f.copyrightText
  artifacts : EachOf (fun n => ArtifactSays n (g.of n)) (vals ts .artifactOf) f.artifactOfProjects
  comment : LastOf Text [] (vals ts .comment) f.comment
  notice : LastOf NoticeSays [] (vals ts .noticeText) f.notice
  contributors : EachOf Text (vals ts .fileContributor) f.contributors
  dependencies : EachOf (fun n => FileIdOf n.id) (vals ts .fileDependency) f.dependencies
  attributionTexts : EachOf Text (vals ts .attributionText) f.attributionTexts
  annotations : f.annotations = []

/-- The properties of packages; 2.2 does not know the last four. -/
def packageProps (v : Version) : List Pred :=
  [.type_, .name, .versionInfo, .packageFileName, .supplier, .originator, .downloadLocation, .filesAnalyzed,
    .packageVerificationCode, .checksum, .homepage, .sourceInfo, .licenseConcluded, .licenseInfoFromFiles, .licenseDeclared,
    .licenseComments, .copyrightText, .summary, .description, .comment, .externalRef, .hasFile, .relationship,
    .attributionText, .annotation] ++
  if v = .v23 then [.primaryPackagePurpose, .releaseDate, .builtDate, .validUntilDate] else []

/-- The verification code: all the statements about all its nodes.  In 2.2 an empty one is none. -/
def PackageCodeSays (v : Version) (g : Graph) (vs : List RNode) (c : Option VerificationCode) : Prop :=
  (vs = [] ∧ c = none) ∨
  (vs ≠ [] ∧ ∃ x, VerificationSays (vs.flatMap g.of) x ∧ c = if v ≠ .v23 ∧ x = {} then none else some x)

/-- `F` relates the node of a file to the file. -/
structure PackageSays {φ : Type} (v : Version) (g : Graph) (F : RNode → φ → Prop) (ts : List Triple) (p : Package φ) : Prop where
  only : Only ts (packageProps v)
  unpackaged : p.isUnpackaged = false
  name : LastOf Text [] (vals ts .name) p.name
  version : LastOf Text [] (vals ts .versionInfo) p.version
  fileName : LastOf Text [] (vals ts .packageFileName) p.fileName
  supplier : LastOf (fun n s => ∃ x, SupplierSays n x ∧ s = some x) none (vals ts .supplier) p.supplier
  originator : LastOf (fun n s => ∃ x, OriginatorSays n x ∧ s = some x) none (vals ts .originator) p.originator
  downloadLocation : LastOf (LocationSays g) [] (vals ts .downloadLocation) p.downloadLocation
  filesAnalyzed : LastOf BoolSays false (vals ts .filesAnalyzed) p.filesAnalyzed
  filesAnalyzedTag : LastOf (fun _ b => b = true) false (vals ts .filesAnalyzed) p.filesAnalyzedTagPresent
  verificationCode : PackageCodeSays v g (vals ts .packageVerificationCode) p.verificationCode
  checksums : EachOf (ElementChecksumSays v g) (vals ts .checksum) p.checksums
  homePage : LastOf (UriSays g) [] (vals ts .homepage) p.homePage
  sourceInfo : LastOf Text [] (vals ts .sourceInfo) p.sourceInfo
  licenseConcluded : LastOf (LicenseSays g) [] (vals ts .licenseConcluded) p.licenseConcluded
  licenseInfo : EachOf LicenseNameSays (vals ts .licenseInfoFromFiles) p.licenseInfoFromFiles
  licenseDeclared : LastOf (LicenseSays g) [] (vals ts .licenseDeclared) p.licenseDeclared
  licenseComments : LastOf Text [] (vals ts .licenseComments) p.licenseComments
  copyrightText : LastOf Text [] (vals ts .copyrightText) p.copyrightText
  summary : LastOf Text [] (vals ts .summary) p.summary
  description : LastOf Text [] (vals ts .description) p.description
  comment : LastOf Text [] (vals ts .comment) p.comment
  externalRefs : EachOf (fun n => ExternalRefSays (g.of n)) (vals ts .externalRef) p.externalRefs
  attributionTexts : EachOf Text (vals ts .attributionText) p.attributionTexts
  purpose : LastOf PurposeSays [] (vals ts .primaryPackagePurpose) p.primaryPurpose
  releaseDate : LastOf Text [] (vals ts .releaseDate) p.releaseDate
  builtDate : LastOf Text [] (vals ts .builtDate) p.builtDate
  validUntilDate : LastOf Text [] (vals ts .validUntilDate) p.validUntilDate
  files : EachOf F (vals ts .hasFile) p.files
  annotations : p.annotations = []

/-- What a relationship is to: a reference, if nothing is said about the node; else the file, package or other element
it is, by its only class. -/
def RelatedSays (g : Graph) (n : RNode) (r : DocElementID) : Prop :=
  ∃ x, ReferenceSays n x ∧
    ((g.of n = [] ∧ r = x) ∨
     ∃ t, typeTriples (g.of n) n.id = [t] ∧
      ((Cls.ofStr t.object.id = .file ∧ ∃ id, FileIdOf n.id id ∧ r = { elementRefID := id }) ∨
       (Cls.ofStr t.object.id = .package ∧ ∃ id, PackageIdOf n.id id ∧ r = { elementRefID := id }) ∨
       (Cls.ofStr t.object.id = .spdxElement ∧ ∃ y, LastPart n.id y ∧ RefReads y r)))

/-- The relationship that a statement of the element `subject` introduces, with the statements `ts` about its node. -/
structure RelationshipSays (g : Graph) (subject : RNode) (ts : List Triple) (r : Relationship) : Prop where
  only : Only ts [.relationshipType, .type_, .relatedSpdxElement, .comment]
  refA : ReferenceSays subject r.refA
  refB : LastOf (RelatedSays g) {} (vals ts .relatedSpdxElement) r.refB
  type : LastOf RelationshipTypeSays [] (vals ts .relationshipType) r.relationship
  comment : LastOf Text [] (vals ts .comment) r.comment

/-- What the statements about its node say about the document, except for packages, files, relationships and
annotations. -/
structure DocumentSays {π φ : Type} (g : Graph) (n : RNode) (ts : List Triple) (d : Document π φ) : Prop where
  only : Only ts [.type_, .specVersion, .dataLicense, .name, .externalDocumentRef, .creationInfo, .comment, .reviewed,
    .describesPackage, .hasExtractedLicensingInfo, .relationship, .annotation]
  names : ∃ a b, n.id = a ++ '#' :: b ∧ '#' ∉ a ∧ d.namespace_ = trimSpace a ∧ d.spdxId = trimSpace b
  version : LastOf Text [] (vals ts .specVersion) d.spdxVersion
  dataLicense : LastOf (LicenseSays g) [] (vals ts .dataLicense) d.dataLicense
  name : LastOf Text [] (vals ts .name) d.name
  comment : LastOf Text [] (vals ts .comment) d.comment
  externals : EachOf (fun m => ExternalDocumentSays g (g.of m)) (vals ts .externalDocumentRef) d.externalDocumentRefs
  creation : ∃ c, d.creationInfo = some c ∧ CreationSays ((vals ts .creationInfo).flatMap g.of) c
  reviews : EachOf (fun m => ReviewSays (g.of m)) (vals ts .reviewed) d.reviews
  licenses : EachOf (fun m => OtherLicenseSays g (g.about m.id)) (vals ts .hasExtractedLicensingInfo) d.otherLicenses
  snippets : d.snippets = []

end Verif.Spec.Rdf
