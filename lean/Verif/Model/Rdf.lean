import Verif.Model.RdfLicense

/-!
# Reading a document from RDF triples

`spdx/v2/v2_3/rdf/reader/*.go` and `rdf/reader.go`.  Line numbers cite v2_3; `v2_2` has the same text up to the
differences noted.  2.1 has no RDF reader: of the versions only `v22` and `v23` are meant.
-/

namespace Verif
open RdfM

/-! ## Values that do not need the state -/

/-- `getAlgorithmFromURI` (license_utils.go:53-69). -/
def algorithmOf (uri : Str) : Res Str :=
  let fragment := lastPart uri
  if !hasPrefix g!"checksumAlgorithm_" fragment then .err
  else
    let a := toLower (trimSpace (trimPrefix g!"checksumAlgorithm_" fragment))
    if [g!"md2", g!"md4", g!"md5", g!"md6", g!"sha1", g!"sha224", g!"sha256", g!"sha384", g!"sha512"].contains a
    then .ok (toUpper a) else .err

/-- One triple of `getChecksumFromNode` (license_utils.go:32-49). -/
def checksumStep (c : Checksum) (t : Triple) : Res Checksum :=
  match t.pred with
  | .type_ => .ok c
  | .checksumValue => .ok { c with value := trimSpace t.object.id }
  | .algorithm => do
    let a ← algorithmOf t.object.id
    .ok { c with algorithm := a }
  | _ => .err

/-- `getChecksumFromNode` (license_utils.go:30-51). -/
def checksumAt (g : Graph) (node : RNode) : Res Checksum := foldTriples checksumStep {} (g.of node)

/-- `setPackageChecksum` (parse_package.go:349-380) and `setFileChecksumFromNode` (parse_file.go:129-162): the
checksum to be appended. -/
def elementChecksumAt (v : Version) (g : Graph) (node : RNode) : Res Checksum := do
  let c ← checksumAt g node
  if (knownAlgorithms v).contains c.algorithm then .ok c else .err

/-- `setAnnotatorFromString` (parse_annotation.go:57-68). -/
def annotatorOf (value : Str) : Res Annotator := do
  let (k, a) ← extractSubs g!":" value
  if k = g!"Person" ∨ k = g!"Organization" ∨ k = g!"Tool" then .ok { annotatorType := k, annotator := a } else .err

/-- `setAnnotationType` (parse_annotation.go:71-81). -/
def annotationTypeOf (value : Str) : Res Str :=
  if value = annotationTypeOther then .ok g!"OTHER"
  else if value = annotationTypeReview then .ok g!"REVIEW"
  else .err

/-- One triple of `parseAnnotationFromNode` (parse_annotation.go:19-40). -/
def annotationStep (a : Annotation) (t : Triple) : Res Annotation :=
  match t.pred with
  | .annotator => do
    let x ← annotatorOf t.object.id
    .ok { a with annotator := x }
  | .annotationDate => .ok { a with date := t.object.id }
  | .comment => .ok { a with comment := t.object.id }
  | .annotationType => do
    let x ← annotationTypeOf t.object.id
    .ok { a with type := x }
  | .type_ => .ok a
  | _ => .err

/-- `parseAnnotationFromNode` (parse_annotation.go:16-43), before the annotation is appended.  The identifier of the
annotated element is never set. -/
def annotationAt (g : Graph) (node : RNode) : Res Annotation := foldTriples annotationStep {} (g.of node)

/-- `setCreator` (parse_creation_info.go:40-58): the creator to be appended. -/
def creatorOf (value : Str) : Res Creator := do
  let (k, a) ← extractSubs g!":" value
  if k = g!"Person" ∨ k = g!"Organization" ∨ k = g!"Tool" then .ok { creatorType := k, creator := a } else .err

/-- One triple of `parseCreationInfoFromNode` (parse_creation_info.go:15-36). -/
def creationStep (ci : CreationInfo) (t : Triple) : Res CreationInfo :=
  match t.pred with
  | .licenseListVersion => .ok { ci with licenseListVersion := t.object.id }
  | .creator => do
    let c ← creatorOf t.object.id
    .ok { ci with creators := ci.creators ++ [c] }
  | .created => .ok { ci with created := t.object.id }
  | .comment => .ok { ci with creatorComment := t.object.id }
  | .type_ => .ok ci
  | _ => .err

/-- One triple of `setReviewFromNode` (parse_review.go:14-34). -/
def reviewStep (r : Review) (t : Triple) : Res Review :=
  match t.pred with
  | .type_ => .ok r
  | .comment => .ok { r with comment := t.object.id }
  | .reviewDate => .ok { r with date := t.object.id }
  | .reviewer => do
    let (k, a) ← extractSubs g!":" t.object.id
    .ok { r with reviewerType := k, reviewer := a }
  | _ => .err

/-- `setReviewFromNode` (parse_review.go:12-38), before the review is appended. -/
def reviewAt (g : Graph) (node : RNode) : Res Review := foldTriples reviewStep {} (g.of node)

/-- One triple of `getExternalDocumentRefFromNode` (parse_spdx_document.go:95-118). -/
def externalDocumentRefStep (g : Graph) (r : ExternalDocumentRef) (t : Triple) : Res ExternalDocumentRef :=
  match t.pred with
  | .externalDocumentId => .ok { r with documentRefID := t.object.id }
  | .spdxDocument => .ok { r with uri := t.object.id }
  | .checksum => do
    let c ← checksumAt g t.object
    .ok { r with checksum := c }
  | .type_ => .ok r
  | _ => .err

/-- `getExternalDocumentRefFromNode` (parse_spdx_document.go:94-120). -/
def externalDocumentRefAt (g : Graph) (node : RNode) : Res ExternalDocumentRef :=
  foldTriples (externalDocumentRefStep g) {} (g.of node)

/-- The categories of `getPackageExternalRef` (parse_package.go:188-197). -/
def referenceCategoryOf (value : Str) : Res Str :=
  if value = referenceCategorySecurity then .ok g!"SECURITY"
  else if value = referenceCategoryPackageManager then .ok g!"PACKAGE-MANAGER"
  else if value = referenceCategoryOther then .ok g!"OTHER"
  else .err

/-- One triple of `getPackageExternalRef` (parse_package.go:184-217). -/
def externalRefStep (r : PackageExternalRef) (t : Triple) : Res PackageExternalRef :=
  match t.pred with
  | .referenceCategory => do
    let c ← referenceCategoryOf t.object.id
    .ok { r with category := c }
  | .type_ => .ok r
  | .referenceType => .ok { r with refType := t.object.id }
  | .referenceLocator => .ok { r with locator := t.object.id }
  | .comment => .ok { r with comment := t.object.id }
  | _ => .err

/-- `getPackageExternalRef` (parse_package.go:182-219). -/
def externalRefAt (g : Graph) (node : RNode) : Res PackageExternalRef := foldTriples externalRefStep {} (g.of node)

/-- `strings.ReplaceAll(s, sub, "")` for a non-empty `sub`; `skip` characters are part of an occurrence. -/
def removeAll (sub : Str) : Nat → Str → Str
  | _, [] => []
  | n + 1, _ :: cs => removeAll sub n cs
  | 0, c :: cs => if hasPrefix sub (c :: cs) then removeAll sub (sub.length - 1) cs else c :: removeAll sub 0 cs

/-- The purposes of `getPrimaryPackagePurpose` (parse_package.go:226). -/
def packagePurposes : List Str := [g!"APPLICATION", g!"FRAMEWORK", g!"LIBRARY", g!"CONTAINER", g!"OPERATING-SYSTEM",
  g!"DEVICE", g!"FIRMWARE", g!"SOURCE", g!"ARCHIVE", g!"FILE", g!"INSTALL", g!"OTHER"]

/-- `getPrimaryPackagePurpose` (parse_package.go:221-231). -/
def purposeOf (value : Str) : Str :=
  let x := toUpper (replaceChar '_' '-' (removeAll g!"packagePurpose_" 0 value))
  if packagePurposes.contains x then x else []

/-- One triple of `setPackageVerificationCode` (parse_package.go:237-251). -/
def verificationStep (c : VerificationCode) (t : Triple) : Res VerificationCode :=
  match t.pred with
  | .packageVerificationCodeValue => .ok { c with value := t.object.id }
  | .packageVerificationCodeExcludedFile => .ok { c with excludedFiles := c.excludedFiles ++ [t.object.id] }
  | .type_ => .ok c
  | _ => .err

/-- `setPackageVerificationCode` (parse_package.go:233-253): the new verification code.  In 2.2 it is not a pointer
and `none` is its zero value. -/
def verificationAt (v : Version) (g : Graph) (old : Option VerificationCode) (node : RNode) :
    Res (Option VerificationCode) := do
  let c ← foldTriples verificationStep (old.getD {}) (g.of node)
  if v ≠ .v23 ∧ c = {} then .ok none else .ok (some c)

/-- `setPackageSupplier` (parse_package.go:269-293): the supplier to be set. -/
def supplierOf (value : Str) : Res Supplier :=
  let x := trimSpace value
  if toUpper x = g!"NOASSERTION" then .ok { supplier := g!"NOASSERTION" }
  else do
    let (k, a) ← extractSubs g!":" x
    if k = g!"Person" ∨ k = g!"Organization" then .ok { supplier := a, supplierType := k } else .err

/-- `setPackageOriginator` (parse_package.go:299-323): the originator to be set. -/
def originatorOf (value : Str) : Res Originator :=
  let x := trimSpace value
  if toUpper x = g!"NOASSERTION" then .ok { originator := g!"NOASSERTION" }
  else do
    let (k, a) ← extractSubs g!":" x
    if k = g!"Person" ∨ k = g!"Organization" then .ok { originator := a, originatorType := k } else .err

/-- `setDocumentLocationFromURI` (parse_package.go:326-339): the location to be set. -/
def locationOf (g : Graph) (uri : Str) : Res Str :=
  if uri = spdxNoassertionCaps ∨ uri = spdxNoassertionSmall then .ok g!"NOASSERTION"
  else if uri = spdxNoneCaps ∨ uri = spdxNoneSmall then .ok g!"NONE"
  else if g.uriValid uri then .ok uri else .err

/-- `getFileTypeFromUri` (parse_file.go:186-193). -/
def fileTypeOf (uri : Str) : Res Str :=
  if !hasPrefix g!"fileType_" (lastPart uri) then .err else .ok (trimPrefix g!"fileType_" (lastPart uri))

/-- `getNoticeTextFromNode` (parse_file.go:216-223). -/
def noticeOf (value : Str) : Str :=
  if value = spdxNoassertionCaps ∨ value = spdxNoassertionSmall then g!"NOASSERTION" else value

/-- One triple of `getArtifactFromNode` (parse_file.go:171-181). -/
def artifactStep (a : ArtifactOfProject) (t : Triple) : Res ArtifactOfProject :=
  match t.pred with
  | .type_ => .ok a
  | .homepage => .ok { a with homePage := t.object.id }
  | .doapName => .ok { a with name := t.object.id }
  | _ => .err

/-- `getArtifactFromNode` (parse_file.go:164-183). -/
def artifactAt (g : Graph) (node : RNode) : Res ArtifactOfProject :=
  foldTriples artifactStep { uri := if node.kind = .iri then node.id else [] } (g.of node)

/-- `getReferenceFromURI` (parse_relationship.go:128-138). -/
def referenceOf (uri : Str) : Res DocElementID :=
  let fragment := lastPart uri
  let low := toLower (trimSpace fragment)
  if low = g!"noassertion" ∨ low = g!"none" then .ok { elementRefID := toUpper fragment }
  else extractDocElementID fragment

/-- `getRelationshipTypeFromURI` (parse_relationship.go:141-156). -/
def relationshipTypeOf (uri : Str) : Res Str :=
  let last := lastPart (trimSpace uri)
  if !hasPrefix g!"relationshipType_" last then .err
  else
    let x := trimSpace (trimPrefix g!"relationshipType_" last)
    if allRelationshipTypes.contains x then .ok x else .err

/-! ## Files, packages and relationships -/

/-- The file a pointer points to; a pointer outside the heap does not occur (C42). -/
def fileAt (i : Nat) : RdfM FileV := fun s =>
  match s.fileHeap[i]? with
  | some f => .ok (f, s)
  | none => .panic

/-- The package a pointer points to; a pointer outside the heap does not occur (C42). -/
def packageAt (i : Nat) : RdfM (Package Nat) := fun s =>
  match s.pkgHeap[i]? with
  | some p => .ok (p, s)
  | none => .panic

/-- The methods that call each other. -/
structure RCalls where
  file : RNode → RdfM Nat
  package : RNode → RdfM Nat
  relationship : Triple → RdfM Unit

/-- `doc.Annotations = append(doc.Annotations, …)` (parse_annotation.go:45-54). -/
def addAnnotation (g : Graph) (node : RNode) : RdfM Unit := do
  let a ← lift (annotationAt g node)
  modDocument fun d => { d with annotations := d.annotations ++ [a] }

/-- One triple of `getFileFromNode` (parse_file.go:46-124), for the file `i`. -/
def fileStep (v : Version) (g : Graph) (c : RCalls) (i : Nat) (t : Triple) : RdfM Unit :=
  match t.pred with
  | .fileName => modFileAt i fun f => { f with name := t.object.id }
  | .name => pure ()
  | .type_ => pure ()
  | .fileType => do
    let x ← lift (fileTypeOf t.object.id)
    modFileAt i fun f => { f with types := f.types ++ [x] }
  | .checksum => do
    let x ← lift (elementChecksumAt v g t.object)
    modFileAt i fun f => { f with checksums := f.checksums ++ [x] }
  | .licenseConcluded => do
    let x ← licenseText g t.object
    modFileAt i fun f => { f with licenseConcluded := x }
  | .licenseInfoInFile => do
    let x ← licenseText g t.object
    modFileAt i fun f => { f with licenseInfoInFiles := f.licenseInfoInFiles ++ [x] }
  | .licenseComments => modFileAt i fun f => { f with licenseComments := t.object.id }
  | .copyrightText => modFileAt i fun f => { f with copyrightText := t.object.id }
  | .licenseInfoFromFiles => pure ()
  | .artifactOf => do
    let x ← lift (artifactAt g t.object)
    modFileAt i fun f => { f with artifactOfProjects := f.artifactOfProjects ++ [x] }
  | .comment => modFileAt i fun f => { f with comment := t.object.id }
  | .noticeText => modFileAt i fun f => { f with notice := noticeOf t.object.id }
  | .fileContributor => modFileAt i fun f => { f with contributors := f.contributors ++ [t.object.id] }
  | .fileDependency => do
    let j ← c.file t.object
    let d ← fileAt j
    modFileAt i fun f => { f with dependencies := f.dependencies ++ [d.spdxId] }
  | .attributionText => modFileAt i fun f => { f with attributionTexts := f.attributionTexts ++ [t.object.id] }
  | .annotation => addAnnotation g t.object
  | .relationship => c.relationship t
  | _ => err

/-- `getFileFromNode` after the cache was looked up (parse_file.go:37-126), for a new file `i`. -/
def fileNew (v : Version) (g : Graph) (c : RCalls) (node : RNode) (i : Nat) : RdfM Nat := do
  let id ← lift (extractElementID (lastPart (trimSpace node.id)))
  modFileAt i fun f => { f with spdxId := id }
  let s ← RdfM.get
  let k := (mapGet id s.files).getD i
  each (fileStep v g c k) (g.of node)
  let f ← fileAt k
  modify fun s => { s with files := mapInsert f.spdxId k s.files }
  pure k

/-- `getFileFromNode` (parse_file.go:15-127). -/
def fileBody (v : Version) (g : Graph) (c : RCalls) (node : RNode) : RdfM Nat := do
  let i ← allocFile
  match ← enter node.id (.file i) with
  | some (.file j) => pure j
  | some _ => panic                    -- the type assertion of line 27
  | none => do
    let k ← fileNew v g c node i
    leave node.id
    pure k

/-- One triple of `getPackageFromNode` (parse_package.go:55-170), for the package `i`.  The four properties at the
end are unknown in 2.2. -/
def packageStep (v : Version) (g : Graph) (c : RCalls) (i : Nat) (t : Triple) : RdfM Unit :=
  match t.pred with
  | .type_ => pure ()
  | .name => modPackage i fun p => { p with name := t.object.id }
  | .versionInfo => modPackage i fun p => { p with version := t.object.id }
  | .packageFileName => modPackage i fun p => { p with fileName := t.object.id }
  | .supplier => do
    let x ← lift (supplierOf t.object.id)
    modPackage i fun p => { p with supplier := some x }
  | .originator => do
    let x ← lift (originatorOf t.object.id)
    modPackage i fun p => { p with originator := some x }
  | .downloadLocation => do
    let x ← lift (locationOf g t.object.id)
    modPackage i fun p => { p with downloadLocation := x }
  | .filesAnalyzed => do
    let b ← lift (boolOf t.object.id)
    modPackage i fun p => { p with filesAnalyzedTagPresent := true, filesAnalyzed := b }
  | .packageVerificationCode => do
    let p ← packageAt i
    let x ← lift (verificationAt v g p.verificationCode t.object)
    modPackage i fun p => { p with verificationCode := x }
  | .checksum => do
    let x ← lift (elementChecksumAt v g t.object)
    modPackage i fun p => { p with checksums := p.checksums ++ [x] }
  | .homepage => if g.uriValid t.object.id then modPackage i fun p => { p with homePage := t.object.id } else err
  | .sourceInfo => modPackage i fun p => { p with sourceInfo := t.object.id }
  | .licenseConcluded => do
    let x ← licenseText g t.object
    modPackage i fun p => { p with licenseConcluded := x }
  | .licenseInfoFromFiles =>
    modPackage i fun p => { p with licenseInfoFromFiles := p.licenseInfoFromFiles ++ [licenseOfURI t.object.id] }
  | .licenseDeclared => do
    let x ← licenseText g t.object
    modPackage i fun p => { p with licenseDeclared := x }
  | .licenseComments => modPackage i fun p => { p with licenseComments := t.object.id }
  | .copyrightText => modPackage i fun p => { p with copyrightText := t.object.id }
  | .summary => modPackage i fun p => { p with summary := t.object.id }
  | .description => modPackage i fun p => { p with description := t.object.id }
  | .comment => modPackage i fun p => { p with comment := t.object.id }
  | .externalRef => do
    let x ← lift (externalRefAt g t.object)
    modPackage i fun p => { p with externalRefs := p.externalRefs ++ [x] }
  | .hasFile => do
    let j ← c.file t.object
    let f ← fileAt j
    modPackage i fun p => { p with files := p.files ++ [j] }
    modify fun s => { s with assoc := f.spdxId :: s.assoc }
  | .relationship => c.relationship t
  | .attributionText => modPackage i fun p => { p with attributionTexts := p.attributionTexts ++ [t.object.id] }
  | .annotation => addAnnotation g t.object
  | .primaryPackagePurpose =>
    if v = .v23 then modPackage i fun p => { p with primaryPurpose := purposeOf t.object.id } else err
  | .releaseDate => if v = .v23 then modPackage i fun p => { p with releaseDate := t.object.id } else err
  | .builtDate => if v = .v23 then modPackage i fun p => { p with builtDate := t.object.id } else err
  | .validUntilDate => if v = .v23 then modPackage i fun p => { p with validUntilDate := t.object.id } else err
  | _ => err

/-- The first package of the document with an identifier (parse_package.go:45-52). -/
def RState.findPackage (s : RState) (id : Str) : Option Nat :=
  s.doc.packages.find? fun i => match s.pkgHeap[i]? with
    | some p => p.spdxId = id
    | none => false

/-- `getPackageFromNode` after the cache was looked up (parse_package.go:37-178), for a new package `i`.  If a package
with the identifier was there, lines 172-173 store the pointer that is already there. -/
def packageNew (v : Version) (g : Graph) (c : RCalls) (node : RNode) (i : Nat) : RdfM Nat := do
  let id ← lift (extractElementID (lastPart node.id))
  modPackage i fun p => { p with spdxId := id }
  let s ← RdfM.get
  match s.findPackage id with
  | some k => do
    each (packageStep v g c k) (g.of node)
    pure k
  | none => do
    each (packageStep v g c i) (g.of node)
    modDocument fun d => { d with packages := d.packages ++ [i] }
    pure i

/-- `getPackageFromNode` (parse_package.go:14-179). -/
def packageBody (v : Version) (g : Graph) (c : RCalls) (node : RNode) : RdfM Nat := do
  let i ← allocPackage
  match ← enter node.id (.pkg i) with
  | some (.pkg j) => pure j
  | some _ => panic                    -- the type assertion of line 27
  | none => do
    let k ← packageNew v g c node i
    leave node.id
    pure k

/-- `parseRelatedElementFromTriple` (parse_relationship.go:90-125): the new `RefB`. -/
def relatedElement (c : RCalls) (t : Triple) : RdfM DocElementID :=
  match Cls.ofStr t.object.id with
  | .file => do
    let i ← c.file t.subject
    let f ← fileAt i
    pure { elementRefID := f.spdxId }
  | .package => do
    let i ← c.package t.subject
    let p ← packageAt i
    pure { elementRefID := p.spdxId }
  | .spdxElement => lift (extractDocElementID (lastPart t.subject.id))
  | _ => err

/-- One triple of `parseRelationship` (parse_relationship.go:47-85). -/
def relationshipStep (g : Graph) (c : RCalls) (r : Relationship) (t : Triple) : RdfM Relationship :=
  match t.pred with
  | .relationshipType => do
    let x ← lift (relationshipTypeOf t.object.id)
    pure { r with relationship := x }
  | .type_ => pure r
  | .relatedSpdxElement => do
    let b ← lift (referenceOf t.object.id)
    if g.of t.object = [] then pure { r with refB := b }
    else match typeTriples (g.of t.object) t.object.id with
      | [tt] => do
        let b' ← relatedElement c tt
        pure { r with refB := b' }
      | _ => err
  | .comment => pure { r with comment := t.object.id }
  | _ => err

/-- `parseRelationship` (parse_relationship.go:19-88). -/
def relationshipBody (g : Graph) (c : RCalls) (t : Triple) : RdfM Unit := do
  let a ← lift (referenceOf t.subject.id)
  match ← enter t.object.id .rel with
  | some _ => pure ()
  | none => do
    let r ← fold (relationshipStep g c) { refA := a } (g.of t.object)
    modDocument fun d => { d with relationships := d.relationships ++ [r] }
    leave t.object.id

/-- The three methods, cut at a depth. -/
def calls (v : Version) (g : Graph) : Nat → RCalls
  | 0 => ⟨fun _ => RdfM.cut, fun _ => RdfM.cut, fun _ => RdfM.cut⟩
  | n + 1 => ⟨fileBody v g (calls v g n), packageBody v g (calls v g n), relationshipBody g (calls v g n)⟩

/-! ## Snippets -/

/-- `getPointerFromNode` (parse_snippet_info.go:152-175): whether it is a line pointer and the number; the local
variable starts without a kind. -/
def pointerStep (g : Graph) (c : RCalls) (a : Option Bool × Int) (t : Triple) : RdfM (Option Bool × Int) :=
  match t.pred with
  | .type_ => pure a
  | .reference =>
    if g.about t.object.id = [] then pure a
    else do
      let _ ← c.file t.object
      pure a
  | .offset => match atoi t.object.id with
    | some n => pure (some false, n)
    | none => err
  | .lineNumber => match atoi t.object.id with
    | some n => pure (some true, n)
    | none => err
  | _ => err

/-- `getPointerFromNode` (parse_snippet_info.go:152-175) with `parseRangeReference` (177-190). -/
def pointerAt (g : Graph) (c : RCalls) (node : RNode) : RdfM (Bool × Int) := do
  let a ← fold (pointerStep g c) (none, 0) (g.of node)
  match a.1 with
  | some k => pure (k, a.2)
  | none => err

/-- The triples of a list with a subject and a property (`FilterTriples`). -/
def withPred (ts : List Triple) (id : Str) (p : Pred) : List Triple :=
  ts.filter fun t => t.subject.id = id && t.pred = p

/-- The range at the end of `setSnippetRangeFromNode` (parse_snippet_info.go:137-148). -/
def rangeOf (fromFile : Str) (line : Bool) (a b : Int) : SnippetRange :=
  if line then
    { startPointer := { lineNumber := a, fileSpdxId := fromFile }, endPointer := { lineNumber := b, fileSpdxId := fromFile } }
  else
    { startPointer := { offset := a, fileSpdxId := fromFile }, endPointer := { offset := b, fileSpdxId := fromFile } }

/-- `setSnippetRangeFromNode` (parse_snippet_info.go:93-150): the only range of the snippet afterwards. -/
def rangeAt (g : Graph) (c : RCalls) (fromFile : Str) (node : RNode) : RdfM SnippetRange :=
  let ts := g.of node
  if ts.length ≠ 3 then err
  else match typeTriples ts node.id, withPred ts node.id .startPointer with
    | [_], [a] => do
      let x ← pointerAt g c a.object
      match withPred ts node.id .endPointer with
      | [b] => do
        let y ← pointerAt g c b.object
        if x.1 = y.1 then pure (rangeOf fromFile x.1 x.2 y.2) else err
      | _ => err
    | _, _ => err

/-- The file of a snippet (parse_snippet_info.go:32-37).  2.3 ignores an error of `ExtractDocElementID`, whose value
is then empty; 2.2 returns it. -/
def snippetFileOf (v : Version) (id : Str) : Res Str :=
  match extractDocElementID (lastPart id) with
  | .ok d => .ok d.elementRefID
  | .err => if v = .v23 then .ok [] else .err
  | .panic => .panic

/-- One triple of `getSnippetInformationFromNode2_3` (parse_snippet_info.go:25-72). -/
def snippetStep (v : Version) (g : Graph) (c : RCalls) (x : Snippet) (t : Triple) : RdfM Snippet :=
  match t.pred with
  | .type_ => pure x
  | .snippetFromFile => do
    let _ ← c.file t.object
    let id ← lift (snippetFileOf v t.object.id)
    pure { x with fromFile := id }
  | .range => do
    let r ← rangeAt g c x.fromFile t.object
    pure { x with ranges := [r] }
  | .licenseInfoInSnippet => do
    let l ← licenseText g t.object
    pure { x with licenseInfo := x.licenseInfo ++ [l] }
  | .name => pure { x with name := t.object.id }
  | .copyrightText => pure { x with copyrightText := t.object.id }
  | .licenseComments => pure { x with licenseComments := t.object.id }
  | .comment => pure { x with comment := t.object.id }
  | .licenseConcluded => do
    let l ← licenseText g t.object
    pure { x with licenseConcluded := l }
  | _ => err

/-- `getSnippetInformationFromNode2_3` and `setSnippetToFileWithID` (parse_snippet_info.go:17-91, parser.go:65-73). -/
def addSnippet (v : Version) (g : Graph) (c : RCalls) (node : RNode) : RdfM Unit := do
  let id ← lift (extractElementID (lastPart node.id))
  let x ← fold (snippetStep v g c) { spdxId := id } (g.of node)
  let s ← RdfM.get
  match mapGet x.fromFile s.files with
  | none => err
  | some i => modFileAt i fun f => { f with snippets := mapInsert x.spdxId x f.snippets }

/-! ## The document -/

/-- One triple of `parseSpdxDocumentNode` (parse_spdx_document.go:27-90). -/
def documentStep (g : Graph) (c : RCalls) (t : Triple) : RdfM Unit :=
  match t.pred with
  | .type_ => pure ()
  | .specVersion => modDocument fun d => { d with spdxVersion := t.object.id }
  | .dataLicense => do
    let l ← licenseText g t.object
    modDocument fun d => { d with dataLicense := l }
  | .name => modDocument fun d => { d with name := t.object.id }
  | .externalDocumentRef => do
    let r ← lift (externalDocumentRefAt g t.object)
    modDocument fun d => { d with externalDocumentRefs := d.externalDocumentRefs ++ [r] }
  | .creationInfo => do
    let s ← RdfM.get
    match s.doc.creationInfo with
    | none => panic
    | some ci => do
      let ci' ← lift (foldTriples creationStep ci (g.of t.object))
      modDocument fun d => { d with creationInfo := some ci' }
  | .comment => modDocument fun d => { d with comment := t.object.id }
  | .reviewed => do
    let r ← lift (reviewAt g t.object)
    modDocument fun d => { d with reviews := d.reviews ++ [r] }
  | .describesPackage => do
    let i ← c.package t.object
    modDocument fun d => { d with packages := d.packages ++ [i] }
  | .hasExtractedLicensingInfo => do
    let l ← lift (otherLicenseAt g t.object)
    modDocument fun d => { d with otherLicenses := d.otherLicenses ++ [l] }
  | .relationship => c.relationship t
  | .annotation => addAnnotation g t.object
  | _ => err

/-- `parseSpdxDocumentNode` (parse_spdx_document.go:13-92). -/
def documentAt (g : Graph) (c : RCalls) (node : RNode) : RdfM Unit := do
  let (base, offset) ← lift (extractSubs g!"#" node.id)
  modDocument fun d => { d with namespace_ := base, spdxId := offset }
  each (documentStep g c) (g.of node)

/-- The loop of `getSpdxDocNode` (parser.go:105-128). -/
def findDocNode (g : Graph) : Option RNode → List RNode → Res (Option RNode)
  | found, [] => .ok found
  | found, r :: rs =>
    match typeTriples (g.of r) r.id with
    | [] => .panic                     -- `typeTriples[0]`, line 113
    | t :: more =>
      if Cls.ofStr t.object.id = .spdxDocument then
        if more ≠ [] then .err
        else match found with
          | some n => if n.id ≠ t.subject.id then .err else findDocNode g (some t.subject) rs
          | none => findDocNode g (some t.subject) rs
      else findDocNode g found rs

/-- `getSpdxDocNode` (parser.go:94-133). -/
def docNode (g : Graph) : Res RNode := do
  match ← findDocNode g none g.roots with
  | some n => .ok n
  | none => .err

/-- The loop over the roots in `LoadFromGoRDFParser` (parser.go:57-80). -/
def snippetRoots (v : Version) (g : Graph) (c : RCalls) : List RNode → RdfM Unit
  | [] => pure ()
  | r :: rs =>
    match typeTriples g.triples r.id with
    | [t] =>
      if Cls.ofStr t.object.id = .snippet then do
        addSnippet v g c t.subject
        snippetRoots v g c rs
      else snippetRoots v g c rs
    | _ => err

/-- An order in which Go iterates over a map. -/
structure MapOrder where
  order : List (Str × Nat) → List (Str × Nat)
  perm : ∀ m, (order m).Perm m

/-- `setUnpackagedFiles` (parse_file.go:198-204). -/
def setUnpackagedFiles (o : MapOrder) : RdfM Unit := modify fun s =>
  { s with doc := { s.doc with
      files := s.doc.files ++ ((o.order s.files).filter fun e => !s.assoc.contains e.1).map (·.2) } }

/-- `LoadFromGoRDFParser` (parser.go:39-89) up to the pointers of the document. -/
def loadState (v : Version) (g : Graph) (o : MapOrder) (depth : Nat) : RdfM Unit := do
  let n ← lift (docNode g)
  documentAt g (calls v g depth) n
  snippetRoots v g (calls v g depth) g.roots
  setUnpackagedFiles o

/-- The package a pointer denotes. -/
def RState.derefPackage (s : RState) (i : Nat) : Option PackageV := do
  let p ← s.pkgHeap[i]?
  let fs ← p.files.mapM (fun j => s.fileHeap[j]?)
  pure { p with files := fs }

/-- The document the state denotes. -/
def RState.deref (s : RState) : Option Doc := do
  let ps ← s.doc.packages.mapM s.derefPackage
  let fs ← s.doc.files.mapM (fun j => s.fileHeap[j]?)
  pure { s.doc with packages := ps, files := fs }

/-- `LoadFromGoRDFParser` (parser.go:39-89): the document as a value. -/
def loadGraph (v : Version) (o : MapOrder) (g : Graph) : ROut Doc :=
  match loadState v g o g.depth {} with
  | .ok (_, s) => match s.deref with
    | some d => .ok d
    | none => .panic                   -- a pointer outside the heap: does not occur (C42)
  | .err => .err
  | .panic => .panic
  | .cut => .cut

/-- `getSpdxVersion` (rdf/reader.go:62-74). -/
def graphVersion (g : Graph) : Option Str :=
  match g.triples.find? fun t => t.pred = .specVersion with
  | none => none
  | some t => if t.object.id = [] then none else some t.object.id

/-- `ReadInto` up to the conversion (rdf/reader.go:31-57). -/
def readGraph (o : MapOrder) (g : Graph) : ROut Doc :=
  match graphVersion g with
  | none => .err
  | some x =>
    if x = g!"SPDX-2.2" then loadGraph .v22 o g
    else if x = g!"SPDX-2.3" then loadGraph .v23 o g
    else .err

end Verif
