import Verif.Spec.Meaning
import Verif.Spec.RdfLicense
import Verif.Spec.RdfRoles

/-!
# What the statements of an RDF graph say about an element

Read off the statements about a node alone.  A single-valued field has the value of the last statement with its
property, a list the values of all of them, in order.  Every statement must have a property that belongs to the
element, and a value that can be read.
-/

namespace Verif.Spec.Rdf

/-- The values that statements give to a property, in order. -/
def vals (ts : List Triple) (p : Pred) : List RNode := (ts.filter fun t => t.pred = p).map (·.object)

/-- Every value is read, in order. -/
def EachOf {α : Type} (R : RNode → α → Prop) (vs : List RNode) (xs : List α) : Prop := Pointwise R vs xs

/-- Every value can be read, and the last one is read as `x`; without a value, `x` is `z`. -/
def LastOf {α : Type} (R : RNode → α → Prop) (z : α) (vs : List RNode) (x : α) : Prop :=
  ∃ xs, Pointwise R vs xs ∧ x = xs.getLastD z

/-- The statements have only these properties. -/
def Only (ts : List Triple) (ps : List Pred) : Prop := ∀ t ∈ ts, t.pred ∈ ps

/-- A value that is taken as it is. -/
def Text (n : RNode) (x : Str) : Prop := x = n.id

/-- The part of a URI after its last #; without #, after its last /; without both, the whole. -/
def LastPart (uri part : Str) : Prop :=
  ('#' ∉ part ∧ ∃ p, uri = p ++ '#' :: part) ∨
  ('#' ∉ uri ∧ (('/' ∉ part ∧ ∃ p, uri = p ++ '/' :: part) ∨ ('/' ∉ uri ∧ part = uri)))

/-! ## Values -/

/-- The names of the algorithms that have a URI. -/
def algorithmNames : List Str := [g!"MD2", g!"MD4", g!"MD5", g!"MD6", g!"SHA1", g!"SHA224", g!"SHA256", g!"SHA384", g!"SHA512"]

/-- `checksumAlgorithm_` and a name of an algorithm, in any case. -/
def AlgorithmSays (n : RNode) (a : Str) : Prop :=
  a ∈ algorithmNames ∧ ∃ x, LastPart n.id (g!"checksumAlgorithm_" ++ x) ∧ toLower (trimSpace x) = toLower a

def AnnotatorSays (n : RNode) (a : Annotator) : Prop := AgentText n.id a.annotatorType a.annotator

def CreatorSays (n : RNode) (c : Creator) : Prop := AgentText n.id c.creatorType c.creator

def ReviewerSays (n : RNode) (r : Str × Str) : Prop := ColonPair n.id r.1 r.2

def AnnotationTypeSays (n : RNode) (x : Str) : Prop :=
  (n.id, x) ∈ [(g!"http://spdx.org/rdf/terms#annotationType_other", g!"OTHER"),
    (g!"http://spdx.org/rdf/terms#annotationType_review", g!"REVIEW")]

def CategorySays (n : RNode) (x : Str) : Prop :=
  (n.id, x) ∈ [(g!"http://spdx.org/rdf/terms#referenceCategory_security", g!"SECURITY"),
    (g!"http://spdx.org/rdf/terms#referenceCategory_packageManager", g!"PACKAGE-MANAGER"),
    (g!"http://spdx.org/rdf/terms#referenceCategory_other", g!"OTHER")]

/-- NOASSERTION in any case, or `Person: x` or `Organization: x`. -/
def SupplierSays (n : RNode) (s : Supplier) : Prop :=
  (toUpper (trimSpace n.id) = g!"NOASSERTION" ∧ s.supplierType = [] ∧ s.supplier = g!"NOASSERTION") ∨
  (toUpper (trimSpace n.id) ≠ g!"NOASSERTION" ∧ ColonPair (trimSpace n.id) s.supplierType s.supplier ∧
    s.supplierType ∈ [g!"Person", g!"Organization"])

def OriginatorSays (n : RNode) (s : Originator) : Prop :=
  (toUpper (trimSpace n.id) = g!"NOASSERTION" ∧ s.originatorType = [] ∧ s.originator = g!"NOASSERTION") ∨
  (toUpper (trimSpace n.id) ≠ g!"NOASSERTION" ∧ ColonPair (trimSpace n.id) s.originatorType s.originator ∧
    s.originatorType ∈ [g!"Person", g!"Organization"])

/-- The names of no value and of no statement. -/
def noneNames : List Str := [g!"http://spdx.org/rdf/terms#NONE", g!"http://spdx.org/rdf/terms#none"]
def noassertionNames : List Str := [g!"http://spdx.org/rdf/terms#NOASSERTION", g!"http://spdx.org/rdf/terms#noassertion"]

def LocationSays (g : Graph) (n : RNode) (x : Str) : Prop :=
  (n.id ∈ noassertionNames ∧ x = g!"NOASSERTION") ∨ (n.id ∈ noneNames ∧ x = g!"NONE") ∨
  (n.id ∉ noassertionNames ∧ n.id ∉ noneNames ∧ g.uriValid n.id = true ∧ x = n.id)

def BoolSays (n : RNode) (b : Bool) : Prop := toLower n.id = if b then g!"true" else g!"false"

def UriSays (g : Graph) (n : RNode) (x : Str) : Prop := g.uriValid n.id = true ∧ x = n.id

def FileTypeSays (n : RNode) (x : Str) : Prop := LastPart n.id (g!"fileType_" ++ x)

def NoticeSays (n : RNode) (x : Str) : Prop := x = if n.id ∈ noassertionNames then g!"NOASSERTION" else n.id

/-- The last part of a URI; NONE and NOASSERTION in any case. -/
def LicenseNameSays (n : RNode) (x : Str) : Prop :=
  ∃ e, LastPart n.id e ∧
    ((toLower (trimSpace e) ∈ [g!"none", g!"noassertion"] ∧ x = toUpper (trimSpace e)) ∨
     (toLower (trimSpace e) ∉ [g!"none", g!"noassertion"] ∧ x = trimSpace e))

/-- `r` is `s` with all occurrences of a word left out: `s` is made of pieces that the word does not occur in, with the word
between them. -/
def LeavesOut (word s r : Str) : Prop :=
  ∃ first rest, s = first ++ (rest.map fun p => word ++ p).flatten ∧ (∀ p ∈ first :: rest, ∀ a b, p ≠ a ++ word ++ b) ∧
    r = first ++ rest.flatten

/-- The purposes of packages. -/
def purposeNames : List Str := [g!"APPLICATION", g!"ARCHIVE", g!"CONTAINER", g!"DEVICE", g!"FILE", g!"FIRMWARE", g!"FRAMEWORK",
  g!"INSTALL", g!"LIBRARY", g!"OPERATING-SYSTEM", g!"OTHER", g!"SOURCE"]

/-- A purpose in any case, with _ for -, and with `packagePurpose_` left out; any other value is read as none. -/
def PurposeSays (n : RNode) (x : Str) : Prop :=
  ∃ r, LeavesOut g!"packagePurpose_" n.id r ∧
    ((toUpper (r.map fun c => if c = '_' then '-' else c) ∈ purposeNames ∧ x = toUpper (r.map fun c => if c = '_' then '-' else c)) ∨
     (toUpper (r.map fun c => if c = '_' then '-' else c) ∉ purposeNames ∧ x = []))

/-- A license: the text of the license tree that the node describes. -/
def LicenseSays (g : Graph) (n : RNode) (x : Str) : Prop := ∃ l, Describes g (fun _ => false) n l ∧ x = l.text

/-! ## Small elements

Each is described by the statements `ts` about its node. -/

structure ChecksumSays (ts : List Triple) (c : Checksum) : Prop where
  only : Only ts [.type_, .checksumValue, .algorithm]
  value : LastOf (fun m x => x = trimSpace m.id) [] (vals ts .checksumValue) c.value
  algorithm : LastOf AlgorithmSays [] (vals ts .algorithm) c.algorithm

/-- A checksum of a package or file: the version knows the algorithm. -/
def ElementChecksumSays (v : Version) (g : Graph) (n : RNode) (c : Checksum) : Prop :=
  ChecksumSays (g.of n) c ∧ c.algorithm ∈ knownAlgorithms v

/-- An annotation; whom it is about is not recorded. -/
structure AnnotationSays (ts : List Triple) (a : Annotation) : Prop where
  only : Only ts [.type_, .annotator, .annotationDate, .comment, .annotationType]
  annotator : LastOf AnnotatorSays {} (vals ts .annotator) a.annotator
  date : LastOf Text [] (vals ts .annotationDate) a.date
  comment : LastOf Text [] (vals ts .comment) a.comment
  type : LastOf AnnotationTypeSays [] (vals ts .annotationType) a.type
  subject : a.spdxId = {}

structure ReviewSays (ts : List Triple) (r : Review) : Prop where
  only : Only ts [.type_, .comment, .reviewDate, .reviewer]
  comment : LastOf Text [] (vals ts .comment) r.comment
  date : LastOf Text [] (vals ts .reviewDate) r.date
  reviewer : LastOf ReviewerSays ([], []) (vals ts .reviewer) (r.reviewerType, r.reviewer)

structure CreationSays (ts : List Triple) (c : CreationInfo) : Prop where
  only : Only ts [.type_, .licenseListVersion, .creator, .created, .comment]
  licenseList : LastOf Text [] (vals ts .licenseListVersion) c.licenseListVersion
  creators : EachOf CreatorSays (vals ts .creator) c.creators
  created : LastOf Text [] (vals ts .created) c.created
  comment : LastOf Text [] (vals ts .comment) c.creatorComment

structure ExternalDocumentSays (g : Graph) (ts : List Triple) (r : ExternalDocumentRef) : Prop where
  only : Only ts [.type_, .externalDocumentId, .spdxDocument, .checksum]
  id : LastOf Text [] (vals ts .externalDocumentId) r.documentRefID
  uri : LastOf Text [] (vals ts .spdxDocument) r.uri
  checksum : LastOf (fun m => ChecksumSays (g.of m)) {} (vals ts .checksum) r.checksum

structure ExternalRefSays (ts : List Triple) (r : PackageExternalRef) : Prop where
  only : Only ts [.type_, .referenceCategory, .referenceType, .referenceLocator, .comment]
  category : LastOf CategorySays [] (vals ts .referenceCategory) r.category
  type : LastOf Text [] (vals ts .referenceType) r.refType
  locator : LastOf Text [] (vals ts .referenceLocator) r.locator
  comment : LastOf Text [] (vals ts .comment) r.comment

structure VerificationSays (ts : List Triple) (c : VerificationCode) : Prop where
  only : Only ts [.type_, .packageVerificationCodeValue, .packageVerificationCodeExcludedFile]
  value : LastOf Text [] (vals ts .packageVerificationCodeValue) c.value
  excluded : EachOf Text (vals ts .packageVerificationCodeExcludedFile) c.excludedFiles

structure ArtifactSays (n : RNode) (ts : List Triple) (a : ArtifactOfProject) : Prop where
  only : Only ts [.type_, .homepage, .doapName]
  homePage : LastOf Text [] (vals ts .homepage) a.homePage
  name : LastOf Text [] (vals ts .doapName) a.name
  uri : a.uri = if n.kind = .iri then n.id else []

structure OtherLicenseSays (g : Graph) (ts : List Triple) (l : OtherLicense) : Prop where
  only : Only ts [.type_, .comment, .licenseId, .name, .seeAlso, .example_, .extractedText]
  id : LastOf Text [] (vals ts .licenseId) l.licenseIdentifier
  text : LastOf Text [] (vals ts .extractedText) l.extractedText
  name : LastOf Text [] (vals ts .name) l.licenseName
  comment : LastOf Text [] (vals ts .comment) l.comment
  crossReferences : EachOf (UriSays g) (vals ts .seeAlso) l.crossReferences

end Verif.Spec.Rdf
