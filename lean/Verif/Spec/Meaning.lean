import Verif.Spec.SameDoc
import Verif.Spec.Parsed

/-!
# Specification: what the pairs of a tag-value text say about the document itself

Read off the pairs alone.  Single-valued fields have the value given last; an object that has tags of its
own (a relationship, an annotation, a review, an extracted license) is opened by one tag and described by
the pairs up to the next tag of that kind.
-/

namespace Verif.Spec

/-- The values given to a tag, in order. -/
def values (t : Str) (ps : List TVPair) : List Str := (ps.filter fun p => p.tag = t).map fun p => p.value

/-- The value given last; the empty text if there is none. -/
def lastValue (t : Str) (ps : List TVPair) : Str := (values t ps).getLast?.getD []

/-- The value of every pair with tag `t`, with the pairs that follow it up to the next such pair. -/
def groups (t : Str) : List TVPair → List (Str × List TVPair)
  | [] => []
  | p :: ps => if p.tag = t then (p.value, ps.takeWhile fun q => q.tag ≠ t) :: groups t ps else groups t ps

/-- `value` is `k: x`, up to spaces around the two parts; the parts are divided at the first colon. -/
def ColonPair (value k x : Str) : Prop :=
  ∃ a b, value = a ++ g!":" ++ b ∧ ':' ∉ a ∧ k = trimSpace a ∧ x = trimSpace b

/-- The words of a value: the non-blank parts between spaces. -/
def wordsOf (value : Str) : List Str := ((splitChar ' ' value).map trimSpace).filter fun w => w ≠ []

/-- `text` is the reference `r` to an element, possibly of another document. -/
def RefReads (text : Str) (r : DocElementID) : Prop :=
  ElementRef r ∧
  ((r.documentRefID = [] ∧ text = g!"SPDXRef-" ++ r.elementRefID) ∨
   (r.documentRefID ≠ [] ∧ text = g!"DocumentRef-" ++ r.documentRefID ++ g!":SPDXRef-" ++ r.elementRefID))

/-- An agent: `Person: x`, `Organization: x` or `Tool: x`. -/
def AgentText (value k x : Str) : Prop := ColonPair value k x ∧ k ∈ agentKinds

/-- A relationship with the pairs describing it. -/
def RelationshipSays (v : Version) (g : Str × List TVPair) (r : Relationship) : Prop :=
  (∃ a b, wordsOf g.1 = [a, r.relationship, b] ∧ RefReads a r.refA ∧
    (RefReads b r.refB ∨ (v ≠ .v21 ∧ (b = g!"NONE" ∨ b = g!"NOASSERTION") ∧ r.refB = { specialID := b }))) ∧
  r.comment = lastValue g!"RelationshipComment" g.2

/-- An annotation with the pairs describing it. -/
def AnnotationSays (g : Str × List TVPair) (a : Annotation) : Prop :=
  AgentText g.1 a.annotator.annotatorType a.annotator.annotator ∧
  a.date = lastValue g!"AnnotationDate" g.2 ∧ a.type = lastValue g!"AnnotationType" g.2 ∧
  a.comment = lastValue g!"AnnotationComment" g.2 ∧
  (if values g!"SPDXREF" g.2 = [] then a.spdxId = {} else RefReads (lastValue g!"SPDXREF" g.2) a.spdxId)

/-- A review with the pairs describing it. -/
def ReviewSays (g : Str × List TVPair) (r : Review) : Prop :=
  AgentText g.1 r.reviewerType r.reviewer ∧
  r.date = lastValue g!"ReviewDate" g.2 ∧ r.comment = lastValue g!"ReviewComment" g.2

/-- An extracted license with the pairs describing it. -/
def LicenseSays (g : Str × List TVPair) (l : OtherLicense) : Prop :=
  l.licenseIdentifier = g.1 ∧ l.extractedText = lastValue g!"ExtractedText" g.2 ∧
  l.licenseName = lastValue g!"LicenseName" g.2 ∧ l.comment = lastValue g!"LicenseComment" g.2 ∧
  l.crossReferences = values g!"LicenseCrossReference" g.2

/-- An external document reference: identifier, location, algorithm, digest. -/
def ExternalDocumentSays (value : Str) (e : ExternalDocumentRef) : Prop :=
  e.documentRefID ≠ [] ∧
  (wordsOf value = [g!"DocumentRef-" ++ e.documentRefID, e.uri, e.checksum.algorithm ++ g!":", e.checksum.value] ∨
   (':' ∉ e.checksum.algorithm ∧
    wordsOf value = [g!"DocumentRef-" ++ e.documentRefID, e.uri, e.checksum.algorithm ++ g!":" ++ e.checksum.value]))

/-- The tags that only describe the document itself; any other tag comes with creation information. -/
def headTags : List Str := [g!"SPDXVersion", g!"DataLicense", g!"SPDXID", g!"DocumentName", g!"DocumentNamespace",
  g!"ExternalDocumentRef", g!"DocumentComment"]

/-- The pairs before the first package or file section. -/
def beforeSections (ps : List TVPair) : List TVPair :=
  ps.takeWhile fun p => p.tag ≠ g!"PackageName" ∧ p.tag ≠ g!"FileName"

/-- The creation information. -/
structure CreationSays (tvs : List TVPair) (c : CreationInfo) : Prop where
  created : c.created = lastValue g!"Created" tvs
  comment : c.creatorComment = lastValue g!"CreatorComment" tvs
  licenseList : c.licenseListVersion = lastValue g!"LicenseListVersion" tvs
  creators : Pointwise (fun value (x : Creator) => AgentText value x.creatorType x.creator) (values g!"Creator" tvs) c.creators

/-- What the pairs `tvs` say about the document itself. -/
structure DocumentSays (v : Version) (tvs : List TVPair) (d : Doc) : Prop where
  version : d.spdxVersion = lastValue g!"SPDXVersion" tvs
  license : d.dataLicense = lastValue g!"DataLicense" tvs
  id : if values g!"SPDXID" (beforeSections tvs) = [] then d.spdxId = []
    else IsId d.spdxId ∧ lastValue g!"SPDXID" (beforeSections tvs) = g!"SPDXRef-" ++ d.spdxId
  name : d.name = lastValue g!"DocumentName" tvs
  namespace_ : d.namespace_ = lastValue g!"DocumentNamespace" tvs
  comment : d.comment = lastValue g!"DocumentComment" tvs
  externals : Pointwise ExternalDocumentSays (values g!"ExternalDocumentRef" tvs) d.externalDocumentRefs
  creation : ∀ c, d.creationInfo = some c → CreationSays tvs c
  noCreation : d.creationInfo = none ↔ ∀ p ∈ tvs, p.tag ∈ headTags
  relationships : Pointwise (RelationshipSays v) (groups g!"Relationship" tvs) d.relationships
  annotations : Pointwise AnnotationSays (groups g!"Annotator" tvs) d.annotations
  reviews : Pointwise ReviewSays (groups g!"Reviewer" tvs) d.reviews
  licenses : Pointwise LicenseSays (groups g!"LicenseID" tvs) d.otherLicenses
  snippets : d.snippets = []

end Verif.Spec
