import Verif.Spec.Links
import Verif.Spec.Meaning
import Verif.Spec.Number

/-!
# Specification: what a JSON document says

Read off the JSON value alone, key by key.  A key that is missing, or whose value is `null`, leaves the field
unset.
-/

namespace Verif.Spec

instance (es : List (Str × Json)) : Decidable (OneEach es) := by unfold OneEach; infer_instance

mutual
/-- No object has a key twice, not even in upper and lower case, and no array has an entry `null` unless `nulls`
is set. -/
def tidy (j : Json) (nulls : Bool := false) : Bool :=
  match j with
  | .arr l => tidyList l nulls
  | .obj es => decide (OneEach es) && tidyFields es nulls
  | _ => true
/-- The same for the entries of an array. -/
def tidyList (l : List Json) (nulls : Bool := false) : Bool :=
  match l with
  | [] => true
  | .null :: l => nulls && tidyList l nulls
  | j :: l => tidy j nulls && tidyList l nulls
/-- The same for the values of an object. -/
def tidyFields (es : List (Str × Json)) (nulls : Bool := false) : Bool :=
  match es with
  | [] => true
  | (_, j) :: es => tidy j nulls && tidyFields es nulls
end

/-- `x` is what an object says under a key: what its value says, or `unset` without the key. -/
def Has {β : Type} (es : List (Str × Json)) (key : Str) (says : Json → β → Prop) (unset x : β) : Prop :=
  (entries key es = [] ∧ x = unset) ∨ ∃ j, entries key es = [j] ∧ says j x

/-! ## Kinds of values -/

/-- A string stands for a text (see `Spelled` for how a text may be written). -/
def TextIs (j : Json) (s : Str) : Prop := (∃ raw, j = .str raw ∧ unescape raw = some s) ∨ (j = .null ∧ s = [])

/-- `true` or `false`. -/
def FlagIs (j : Json) (b : Bool) : Prop := j = .bool b ∨ (j = .null ∧ b = false)

/-- A whole number of 64 bits. -/
def NumberIs (j : Json) (n : Int) : Prop := (∃ l, j = .num l ∧ NumberText l n) ∨ (j = .null ∧ n = 0)

/-- An array of values of some kind. -/
def ListIs {β : Type} (says : Json → β → Prop) (j : Json) (l : List β) : Prop :=
  (∃ js, j = .arr js ∧ Pointwise says js l) ∨ (j = .null ∧ l = [])

/-- An object of some kind. -/
def ObjectIs {β : Type} (says : List (Str × Json) → β → Prop) (unset : β) (j : Json) (x : β) : Prop :=
  (∃ es, j = .obj es ∧ says es x) ∨ (j = .null ∧ x = unset)

/-- A value of some kind that may be missing. -/
def OptionIs {β : Type} (says : Json → β → Prop) (j : Json) (o : Option β) : Prop :=
  (j = .null ∧ o = none) ∨ (j ≠ .null ∧ ∃ x, o = some x ∧ says j x)

/-- What is written, without the quotes around it and with escapes as they are. -/
def written (j : Json) : Str := trim (fun c => c = '"') j.text

/-- An identifier with its prefix. -/
def IdIs (pre : Str) (j : Json) (id : Str) : Prop := written j = pre ++ id ∧ id ≠ []

/-- A reference to an element, to an element of another document, to another document, or to nothing. -/
def RefIs (j : Json) (r : DocElementID) : Prop :=
  ((written j = g!"NONE" ∨ written j = g!"NOASSERTION") ∧ r = { specialID := written j }) ∨
  (∃ e, written j = g!"SPDXRef-" ++ e ∧ e ≠ [] ∧ r = { elementRefID := e }) ∨
  (∃ d, written j = g!"DocumentRef-" ++ d ∧ ':' ∉ d ∧ d ≠ [] ∧ r = { documentRefID := d }) ∨
  (∃ d e, written j = g!"DocumentRef-" ++ d ++ g!":SPDXRef-" ++ e ∧ ':' ∉ d ∧ d ≠ [] ∧ e ≠ [] ∧
    r = { documentRefID := d, elementRefID := e })

/-- A creator: kind and name with a colon between. -/
def CreatorIs (j : Json) (c : Creator) : Prop := ColonPair (written j) c.creatorType c.creator

/-- An annotator: kind and name with a colon between. -/
def AnnotatorIs (j : Json) (a : Annotator) : Prop := ColonPair (written j) a.annotatorType a.annotator

/-- A supplier: `NOASSERTION`, or kind and name with a colon between. -/
def SupplierIs (j : Json) (s : Supplier) : Prop :=
  (written j = g!"NOASSERTION" ∧ s = { supplier := g!"NOASSERTION" }) ∨
  ColonPair (written j) s.supplierType s.supplier

/-- An originator: `NOASSERTION`, or kind and name with a colon between.  Only blanks before the name are left out. -/
def OriginatorIs (j : Json) (o : Originator) : Prop :=
  (written j = g!"NOASSERTION" ∧ o = { originator := g!"NOASSERTION" }) ∨
  ∃ b, written j = o.originatorType ++ g!":" ++ b ∧ ':' ∉ o.originatorType ∧
    o.originator = b.dropWhile fun c => c = ' ' || c = '\t'

/-! ## Kinds of objects -/

/-- A text under a key. -/
def HasText (es : List (Str × Json)) (key : Str) (s : Str) : Prop := Has es key TextIs [] s
/-- Texts under a key. -/
def HasTexts (es : List (Str × Json)) (key : Str) (l : List Str) : Prop := Has es key (ListIs TextIs) [] l
/-- Objects under a key. -/
def HasObjects {β : Type} (es : List (Str × Json)) (key : Str) (says : List (Str × Json) → β → Prop) (unset : β) (l : List β) :
    Prop := Has es key (ListIs (ObjectIs says unset)) [] l
/-- An identifier under a key. -/
def HasId (es : List (Str × Json)) (key : Str) (id : Str) : Prop := Has es key (IdIs g!"SPDXRef-") [] id

/-- A checksum. -/
structure ChecksumIs (es : List (Str × Json)) (c : Checksum) : Prop where
  algorithm : HasText es g!"algorithm" c.algorithm
  value : HasText es g!"checksumValue" c.value

/-- A verification code. -/
structure CodeIs (es : List (Str × Json)) (c : VerificationCode) : Prop where
  value : HasText es g!"packageVerificationCodeValue" c.value
  excluded : HasTexts es g!"packageVerificationCodeExcludedFiles" c.excludedFiles

/-- An end of a range. -/
structure PointerIs (es : List (Str × Json)) (p : RangePointer) : Prop where
  offset : Has es g!"offset" NumberIs 0 p.offset
  line : Has es g!"lineNumber" NumberIs 0 p.lineNumber
  file : HasId es g!"reference" p.fileSpdxId

/-- A range. -/
structure RangeIs (es : List (Str × Json)) (r : SnippetRange) : Prop where
  start : Has es g!"startPointer" (ObjectIs PointerIs {}) {} r.startPointer
  stop : Has es g!"endPointer" (ObjectIs PointerIs {}) {} r.endPointer

/-- A reference to another document. -/
structure ExternalDocumentIs (es : List (Str × Json)) (r : ExternalDocumentRef) : Prop where
  id : Has es g!"externalDocumentId" (IdIs g!"DocumentRef-") [] r.documentRefID
  uri : HasText es g!"spdxDocument" r.uri
  checksum : Has es g!"checksum" (ObjectIs ChecksumIs {}) {} r.checksum

/-- The creation information. -/
structure CreationIs (es : List (Str × Json)) (c : CreationInfo) : Prop where
  licenseList : HasText es g!"licenseListVersion" c.licenseListVersion
  creators : Has es g!"creators" (ListIs CreatorIs) [] c.creators
  created : HasText es g!"created" c.created
  comment : HasText es g!"comment" c.creatorComment

/-- An annotation.  What it is about follows from where it stands. -/
structure AnnotationIs (es : List (Str × Json)) (a : Annotation) : Prop where
  annotator : Has es g!"annotator" AnnotatorIs {} a.annotator
  date : HasText es g!"annotationDate" a.date
  type : HasText es g!"annotationType" a.type
  comment : HasText es g!"comment" a.comment
  subject : a.spdxId = {}

/-- A relationship. -/
structure RelationshipIs (es : List (Str × Json)) (r : Relationship) : Prop where
  left : Has es g!"spdxElementId" RefIs {} r.refA
  right : Has es g!"relatedSpdxElement" RefIs {} r.refB
  type : HasText es g!"relationshipType" r.relationship
  comment : HasText es g!"comment" r.comment

/-- An extracted license. -/
structure LicenseIs (es : List (Str × Json)) (l : OtherLicense) : Prop where
  id : HasText es g!"licenseId" l.licenseIdentifier
  text : HasText es g!"extractedText" l.extractedText
  name : HasText es g!"name" l.licenseName
  references : HasTexts es g!"seeAlsos" l.crossReferences
  comment : HasText es g!"comment" l.comment

/-- A project a file comes from. -/
structure ArtifactIs (es : List (Str × Json)) (a : ArtifactOfProject) : Prop where
  name : HasText es g!"name" a.name
  homePage : HasText es g!"homePage" a.homePage
  uri : HasText es g!"URI" a.uri

/-- A snippet. -/
structure SnippetIs (es : List (Str × Json)) (s : Snippet) : Prop where
  id : HasId es g!"SPDXID" s.spdxId
  fromFile : HasId es g!"snippetFromFile" s.fromFile
  ranges : HasObjects es g!"ranges" RangeIs {} s.ranges
  licenseConcluded : HasText es g!"licenseConcluded" s.licenseConcluded
  licenseInfo : HasTexts es g!"licenseInfoInSnippets" s.licenseInfo
  licenseComments : HasText es g!"licenseComments" s.licenseComments
  copyright : HasText es g!"copyrightText" s.copyrightText
  comment : HasText es g!"comment" s.comment
  name : HasText es g!"name" s.name
  attributions : s.attributionTexts = []

/-- A file.  Its snippets are listed in the document, not in the file. -/
structure FileIs (v : Version) (es : List (Str × Json)) (f : FileV) : Prop where
  name : HasText es g!"fileName" f.name
  id : HasId es g!"SPDXID" f.spdxId
  types : HasTexts es g!"fileTypes" f.types
  checksums : HasObjects es g!"checksums" ChecksumIs {} f.checksums
  licenseConcluded : HasText es g!"licenseConcluded" f.licenseConcluded
  licenseInfo : HasTexts es g!"licenseInfoInFiles" f.licenseInfoInFiles
  licenseComments : HasText es g!"licenseComments" f.licenseComments
  copyright : HasText es g!"copyrightText" f.copyrightText
  artifacts : if v = .v23 then HasObjects es g!"artifactOfs" ArtifactIs {} f.artifactOfProjects else f.artifactOfProjects = []
  comment : HasText es g!"comment" f.comment
  notice : HasText es g!"noticeText" f.notice
  contributors : HasTexts es g!"fileContributors" f.contributors
  attributions : if v = .v21 then f.attributionTexts = [] else HasTexts es g!"attributionTexts" f.attributionTexts
  dependencies : if v = .v23 then HasTexts es g!"fileDependencies" f.dependencies else f.dependencies = []
  snippets : f.snippets = []
  annotations : HasObjects es g!"annotations" AnnotationIs {} f.annotations

/-- A reference to the package from outside.  From version 2.2 on its category may be written with underscores
or hyphens. -/
structure ExternalRefIs (v : Version) (es : List (Str × Json)) (r : PackageExternalRef) : Prop where
  category : ∃ c, HasText es g!"referenceCategory" c ∧
    r.category = if v = .v21 then c else c.map fun x => if x = '_' then '-' else x
  type : HasText es g!"referenceType" r.refType
  locator : HasText es g!"referenceLocator" r.locator
  comment : HasText es g!"comment" r.comment

/-- A package. -/
structure PackageIs (v : Version) (es : List (Str × Json)) (p : PackageV) : Prop where
  unpackaged : p.isUnpackaged = false
  name : HasText es g!"name" p.name
  id : HasId es g!"SPDXID" p.spdxId
  version : HasText es g!"versionInfo" p.version
  fileName : HasText es g!"packageFileName" p.fileName
  supplier : Has es g!"supplier" (OptionIs SupplierIs) none p.supplier
  originator : Has es g!"originator" (OptionIs OriginatorIs) none p.originator
  downloadLocation : HasText es g!"downloadLocation" p.downloadLocation
  /-- Files count as analyzed unless the package says otherwise; in version 2.1 only if it says so. -/
  analyzed : ∃ o, Has es g!"filesAnalyzed" (OptionIs FlagIs) none o ∧ p.filesAnalyzed = o.getD (v ≠ .v21) ∧
    p.filesAnalyzedTagPresent = (decide (v ≠ .v21) && o.isSome)
  /-- Before version 2.3 an empty code is none. -/
  code : ∃ o, Has es g!"packageVerificationCode" (OptionIs (ObjectIs CodeIs {})) none o ∧
    p.verificationCode = if v ≠ .v23 ∧ o = some {} then none else o
  checksums : HasObjects es g!"checksums" ChecksumIs {} p.checksums
  homePage : HasText es g!"homepage" p.homePage
  sourceInfo : HasText es g!"sourceInfo" p.sourceInfo
  licenseConcluded : HasText es g!"licenseConcluded" p.licenseConcluded
  licenseInfo : HasTexts es g!"licenseInfoFromFiles" p.licenseInfoFromFiles
  licenseDeclared : HasText es g!"licenseDeclared" p.licenseDeclared
  licenseComments : HasText es g!"licenseComments" p.licenseComments
  copyright : HasText es g!"copyrightText" p.copyrightText
  summary : HasText es g!"summary" p.summary
  description : HasText es g!"description" p.description
  comment : HasText es g!"comment" p.comment
  externalRefs : HasObjects es g!"externalRefs" (ExternalRefIs v) {} p.externalRefs
  attributions : if v = .v21 then p.attributionTexts = [] else HasTexts es g!"attributionTexts" p.attributionTexts
  purpose : if v = .v23 then HasText es g!"primaryPackagePurpose" p.primaryPurpose else p.primaryPurpose = []
  released : if v = .v23 then HasText es g!"releaseDate" p.releaseDate else p.releaseDate = []
  built : if v = .v23 then HasText es g!"builtDate" p.builtDate else p.builtDate = []
  validUntil : if v = .v23 then HasText es g!"validUntilDate" p.validUntilDate else p.validUntilDate = []
  files : HasObjects es g!"files" (FileIs v) {} p.files
  annotations : HasObjects es g!"annotations" AnnotationIs {} p.annotations

/-- The files a package says it has: its identifier and the references. -/
def HasFilesIs (es : List (Str × Json)) (x : Str × List DocElementID) : Prop :=
  HasId es g!"SPDXID" x.1 ∧ Has es g!"hasFiles" (ListIs RefIs) [] x.2

/-- A relationship as text, in its normal direction. -/
def linkText (r : Relationship) : Str := (link r).1 ++ g!"-" ++ (link r).2.1 ++ g!"->" ++ (link r).2.2

/-- Relationships are added one by one to those there are, unless one with the same text is among them. -/
def completed (own wanted : List Relationship) : List Relationship :=
  wanted.foldl (fun rels r => if rels.any fun s => linkText s = linkText r then rels else rels ++ [r]) own

/-- The relationships of a document with the identifier `id`.  From version 2.2 on they are completed by the elements
the document says it describes and the files the packages say they have. -/
def RelationshipsAre (v : Version) (es : List (Str × Json)) (id : Str) (rels : List Relationship) : Prop :=
  ∃ own, HasObjects es g!"relationships" RelationshipIs {} own ∧
    if v = .v21 then rels = own
    else ∃ describes owners, Has es g!"documentDescribes" (ListIs RefIs) [] describes ∧
      HasObjects es g!"packages" HasFilesIs ([], []) owners ∧
      rels = completed own (describes.map (ofElement id g!"DESCRIBES") ++
        owners.flatMap fun o => o.2.map (ofElement o.1 g!"CONTAINS"))

/-- A document. -/
structure DocumentIs (v : Version) (es : List (Str × Json)) (d : Doc) : Prop where
  version : HasText es g!"spdxVersion" d.spdxVersion
  license : HasText es g!"dataLicense" d.dataLicense
  id : HasId es g!"SPDXID" d.spdxId
  name : HasText es g!"name" d.name
  namespace_ : HasText es g!"documentNamespace" d.namespace_
  externalDocuments : HasObjects es g!"externalDocumentRefs" ExternalDocumentIs {} d.externalDocumentRefs
  comment : HasText es g!"comment" d.comment
  creation : Has es g!"creationInfo" (OptionIs (ObjectIs CreationIs {})) none d.creationInfo
  packages : HasObjects es g!"packages" (PackageIs v) {} d.packages
  files : HasObjects es g!"files" (FileIs v) {} d.files
  licenses : HasObjects es g!"hasExtractedLicensingInfos" LicenseIs {} d.otherLicenses
  relationships : RelationshipsAre v es d.spdxId d.relationships
  annotations : HasObjects es g!"annotations" AnnotationIs {} d.annotations
  snippets : HasObjects es g!"snippets" SnippetIs {} d.snippets
  reviews : d.reviews = []

end Verif.Spec
