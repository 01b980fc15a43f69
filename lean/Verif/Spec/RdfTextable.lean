import Verif.Spec.RdfRead
import Verif.Spec.Representable
import Verif.Spec.RdfSavable

/-!
# Specification: RDF graphs whose documents can be saved as tag-value

Read off the statements of the graph alone: values fit on lines, names are words, and what tag-value cannot leave out is
given.
-/

namespace Verif.Spec.Rdf

/-- Properties whose values are written on one line. -/
def lineProps : List Pred := [.versionInfo, .packageFileName, .downloadLocation, .homepage, .releaseDate, .builtDate, .validUntilDate,
  .doapName, .fileContributor, .annotationDate, .reviewDate, .created, .licenseListVersion, .seeAlso]

/-- Properties whose values are written on one line and are not empty. -/
def nameProps : List Pred := [.name, .fileName, .licenseId, .packageVerificationCodeValue]

/-- Properties whose values may have several lines. -/
def textProps : List Pred := [.licenseComments, .copyrightText, .sourceInfo, .summary, .description, .comment, .noticeText,
  .attributionText, .extractedText]

/-- Properties whose values are words. -/
def wordProps : List Pred := [.externalDocumentId, .spdxDocument, .referenceType, .referenceLocator, .checksumValue]

/-- Properties whose values are names without white space. -/
def solidProps : List Pred := [.fileType, .licenseInfoFromFiles, .artifactOf, .relatedSpdxElement]

/-- Properties whose values are licenses. -/
def licenseProps : List Pred := [.licenseConcluded, .licenseInfoInFile, .licenseDeclared, .dataLicense, .licenseInfoInSnippet]

/-- What must be said about the value of a property. -/
def needed : Pred → List Pred
  | .relationship => [.relatedSpdxElement, .relationshipType]
  | .externalDocumentRef => [.externalDocumentId, .spdxDocument]
  | .checksum => [.checksumValue]
  | .externalRef => [.referenceCategory, .referenceType, .referenceLocator]
  | .reviewed => [.reviewer]
  | .annotation => [.annotator]
  | .packageVerificationCode => [.packageVerificationCodeValue]
  | .hasExtractedLicensingInfo => [.licenseId]
  | .creationInfo => [.creator]
  | _ => []

/-- An agent with a name, on one line. -/
def LineAgent (x : Str) : Prop :=
  '\n' ∉ x ∧ contains g!"<text>" x = false ∧ ∀ kind name, ColonPair x kind name → name ≠ []

/-- A graph whose document can be saved as tag-value. -/
structure TextGraph (g : Graph) : Prop where
  line : ∀ t ∈ g.triples, t.pred ∈ lineProps → OneLine t.object.id
  name : ∀ t ∈ g.triples, t.pred ∈ nameProps → Line1 t.object.id
  text : ∀ t ∈ g.triples, t.pred ∈ textProps → GoodValue t.object.id
  word : ∀ t ∈ g.triples, t.pred ∈ wordProps → Word t.object.id
  solid : ∀ t ∈ g.triples, t.pred ∈ solidProps → Solid t.object.id
  license : ∀ t ∈ g.triples, t.pred ∈ licenseProps → ∀ l, Describes g (fun _ => false) t.object l → OneLine l.text
  needs : ∀ t ∈ g.triples, ∀ p ∈ needed t.pred, Given g t.object p
  document : ∀ n, IsDocumentNode g n → Solid n.id ∧ Given g n .creationInfo ∧ ∀ a b, n.id = a ++ '#' :: b → '#' ∉ a → ':' ∉ b
  related : ∀ t ∈ g.triples, t.pred = .relationship → Solid t.subject.id
  file : ∀ n, UsedAsFile g n.id → IsReferred g n → Solid n.id ∧ Given g n .fileName
  package : ∀ n, UsedAsPackage g n.id → IsReferred g n → Solid n.id ∧ Given g n .name ∧ Given g n .filesAnalyzed
  snippet : ∀ n, IsSnippetNode g n → Solid n.id
  agent : ∀ t ∈ g.triples, t.pred ∈ [Pred.annotator, .creator, .reviewer] → LineAgent t.object.id
  reviewer : ∀ t ∈ g.triples, t.pred = .reviewer → ∀ kind name, ColonPair t.object.id kind name → kind ∈ agentKinds
  party : ∀ t ∈ g.triples, t.pred ∈ [Pred.supplier, .originator] → LineAgent (trimSpace t.object.id)
  number : ∀ t ∈ g.triples, t.pred ∈ [Pred.offset, .lineNumber] → ¬ NumberText t.object.id 0
  code : ∀ t ∈ g.triples, t.pred = .packageVerificationCodeValue → contains g!"(excludes:" t.object.id = false
  excluded : ∀ t ∈ g.triples, t.pred ≠ .packageVerificationCodeExcludedFile
  /-- a package with a verification code or with license information of its files is said to be analyzed -/
  analyzed : ∀ t ∈ g.triples, t.pred ∈ [Pred.packageVerificationCode, .licenseInfoFromFiles] →
    ∀ u ∈ g.triples, u.pred = .filesAnalyzed → u.subject.id = t.subject.id → toLower u.object.id = g!"true"

/-! What comes back. -/

/-- A range without the file it is in. -/
def unplaced (r : SnippetRange) : SnippetRange :=
  { startPointer := { r.startPointer with fileSpdxId := [] }, endPointer := { r.endPointer with fileSpdxId := [] } }

/-- A file whose snippets have ranges without the file they are in. -/
def leftFileText (f : FileV) : FileV :=
  { f with snippets := f.snippets.map fun e => (e.1, { e.2 with ranges := e.2.ranges.map unplaced }) }

/-- The document after it was saved as tag-value: all of it, but for the name of the file in each end of a range of a
snippet. -/
def leftInText (d : Doc) : Doc :=
  { d with
    packages := d.packages.map fun p => { p with files := p.files.map leftFileText }
    files := d.files.map leftFileText }

end Verif.Spec.Rdf
