import Verif.Props.C15_C18_Identifier
import Verif.Props.C19_C20_Agents

/-!
# Specification: documents that JSON can carry

Identifiers, references, creators, annotators, suppliers and originators are written and read as single
strings whose escapes are not undone, so they must be plain; `html` says whether the writer escapes `<`, `>`
and `&`.  All other texts are arbitrary.
-/

namespace Verif.Spec

/-- An identifier. -/
structure JsonId (html : Bool) (pre id : Str) : Prop where
  plain : Plain id
  safe : HtmlSafe html id
  nonempty : id ≠ []
  bare : hasPrefix pre id = false

/-- A reference to an element. -/
structure JsonRefIn (html : Bool) (r : DocElementID) : Prop where
  ref : JsonRef r
  safeDocument : HtmlSafe html r.documentRefID
  safeElement : HtmlSafe html r.elementRefID

/-- An annotation: its annotator has a name. -/
structure JsonAnnotation (html : Bool) (a : Annotation) : Prop where
  named : a.annotator.annotator ≠ []
  agent : JsonAgent a.annotator.annotatorType a.annotator.annotator
  safeKind : HtmlSafe html a.annotator.annotatorType
  safeName : HtmlSafe html a.annotator.annotator

/-- A 64-bit integer. -/
def IsInt64 (n : Int) : Prop := -2 ^ 63 ≤ n ∧ n < 2 ^ 63

/-- The end of a snippet range. -/
structure JsonPointer (html : Bool) (p : RangePointer) : Prop where
  file : JsonId html g!"SPDXRef-" p.fileSpdxId
  offset : IsInt64 p.offset
  line : IsInt64 p.lineNumber

/-- A snippet. -/
structure JsonSnippet (html : Bool) (s : Snippet) : Prop where
  id : JsonId html g!"SPDXRef-" s.spdxId
  fromFile : JsonId html g!"SPDXRef-" s.fromFile
  ranges : ∀ r ∈ s.ranges, JsonPointer html r.startPointer ∧ JsonPointer html r.endPointer

/-- A file. -/
structure JsonFile (html : Bool) (f : FileV) : Prop where
  id : JsonId html g!"SPDXRef-" f.spdxId
  annotations : ∀ a ∈ f.annotations, JsonAnnotation html a

/-- A supplier or originator. -/
structure JsonPartyIn (html : Bool) (kind name : Str) : Prop where
  party : JsonParty kind name
  safeKind : HtmlSafe html kind
  safeName : HtmlSafe html name

/-- A package. -/
structure JsonPackage (html : Bool) (p : PackageV) : Prop where
  id : JsonId html g!"SPDXRef-" p.spdxId
  supplier : ∀ s, p.supplier = some s → JsonPartyIn html s.supplierType s.supplier
  originator : ∀ s, p.originator = some s → JsonPartyIn html s.originatorType s.originator
  files : ∀ f ∈ p.files, JsonFile html f
  annotations : ∀ a ∈ p.annotations, JsonAnnotation html a

/-- A creator. -/
structure JsonCreator (html : Bool) (c : Creator) : Prop where
  named : c.creator ≠ []
  agent : JsonAgent c.creatorType c.creator
  safeKind : HtmlSafe html c.creatorType
  safeName : HtmlSafe html c.creator

/-- A document. -/
structure JsonDocument (html : Bool) (d : Doc) : Prop where
  id : JsonId html g!"SPDXRef-" d.spdxId
  refs : ∀ r ∈ d.externalDocumentRefs, JsonId html g!"DocumentRef-" r.documentRefID
  creators : ∀ i, d.creationInfo = some i → ∀ c ∈ i.creators, JsonCreator html c
  packages : ∀ p ∈ d.packages, JsonPackage html p
  files : ∀ f ∈ d.files, JsonFile html f
  relationships : ∀ r ∈ d.relationships, JsonRefIn html r.refA ∧ JsonRefIn html r.refB
  annotations : ∀ a ∈ d.annotations, JsonAnnotation html a
  snippets : ∀ s ∈ d.snippets, JsonSnippet html s

/-! What JSON keeps of a document. -/

/-- The subject of an annotation is not written. -/
def keptAnnotation (a : Annotation) : Annotation := { a with spdxId := {} }

/-- The attribution texts of a snippet are not written. -/
def keptSnippet (s : Snippet) : Snippet := { s with attributionTexts := [] }

/-- The snippets of a file are not written; nor are artifacts and dependencies before version 2.3. -/
def keptFile (v : Version) (f : FileV) : FileV :=
  { f with
    artifactOfProjects := if v = .v23 then f.artifactOfProjects else []
    attributionTexts := if v = .v21 then [] else f.attributionTexts
    dependencies := if v = .v23 then f.dependencies else []
    snippets := []
    annotations := f.annotations.map keptAnnotation }

/-- Categories are spelled with hyphens in versions 2.2 and 2.3. -/
def keptRef (v : Version) (r : PackageExternalRef) : PackageExternalRef :=
  { r with category := if v = .v21 then r.category else replaceChar '_' '-' r.category }

/-- Whether files-analyzed was present is not kept: versions 2.2 and 2.3 always write it.  Before version
2.3 there is no difference between an empty verification code and none. -/
def keptPackage (v : Version) (p : PackageV) : PackageV :=
  { p with
    isUnpackaged := false
    filesAnalyzedTagPresent := decide (v ≠ .v21)
    verificationCode := if v ≠ .v23 ∧ p.verificationCode = some {} then none else p.verificationCode
    externalRefs := p.externalRefs.map (keptRef v)
    attributionTexts := if v = .v21 then [] else p.attributionTexts
    primaryPurpose := if v = .v23 then p.primaryPurpose else []
    releaseDate := if v = .v23 then p.releaseDate else []
    builtDate := if v = .v23 then p.builtDate else []
    validUntilDate := if v = .v23 then p.validUntilDate else []
    files := p.files.map (keptFile v)
    annotations := p.annotations.map keptAnnotation }

/-- Reviews are not written. -/
def keptDoc (v : Version) (d : Doc) : Doc :=
  { d with
    packages := d.packages.map (keptPackage v)
    files := d.files.map (keptFile v)
    annotations := d.annotations.map keptAnnotation
    snippets := d.snippets.map keptSnippet
    reviews := [] }

/-! Documents of which JSON keeps everything. -/

/-- A file of version `v` without snippets of its own. -/
structure WholeFile (v : Version) (f : FileV) : Prop where
  snippets : f.snippets = []
  annotations : ∀ a ∈ f.annotations, a.spdxId = {}
  texts : v = .v21 → f.attributionTexts = []
  old : v ≠ .v23 → f.artifactOfProjects = [] ∧ f.dependencies = []

/-- A package of version `v` with a non-empty verification code or none. -/
structure WholePackage (v : Version) (p : PackageV) : Prop where
  unpackaged : p.isUnpackaged = false
  tag : p.filesAnalyzedTagPresent = decide (v ≠ .v21)
  code : v ≠ .v23 → p.verificationCode ≠ some {}
  refs : v ≠ .v21 → ∀ r ∈ p.externalRefs, '_' ∉ r.category
  files : ∀ f ∈ p.files, WholeFile v f
  annotations : ∀ a ∈ p.annotations, a.spdxId = {}
  texts : v = .v21 → p.attributionTexts = []
  old : v ≠ .v23 → p.primaryPurpose = [] ∧ p.releaseDate = [] ∧ p.builtDate = [] ∧ p.validUntilDate = []

/-- A document of version `v` without reviews, subjects of annotations and attribution texts of snippets. -/
structure WholeDoc (v : Version) (d : Doc) : Prop where
  reviews : d.reviews = []
  packages : ∀ p ∈ d.packages, WholePackage v p
  files : ∀ f ∈ d.files, WholeFile v f
  annotations : ∀ a ∈ d.annotations, a.spdxId = {}
  snippets : ∀ s ∈ d.snippets, s.attributionTexts = []

end Verif.Spec
