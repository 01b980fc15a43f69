import Verif.Model.GoStr

/-!
# Document types

The structs of `spdx/v2/v2_3/*.go` and `spdx/v2/common/*.go`.  The 2.1 and 2.2 structs have the same
fields minus some; the model uses the 2.3 record for all versions and says where a version lacks a
field.  Every field defaults to Go's zero value, so `{}` is Go's `T{}`.

Pointers to structs inside slices (`[]*Package`) are modelled by the values, or, inside the
tag-value parser, by heap references: the element types are parameters.
-/

namespace Verif

/-- `common.Checksum` (spdx/v2/common/checksum.go:31-34). -/
structure Checksum where
  algorithm : Str := []
  value : Str := []
  deriving DecidableEq, Repr

/-- `common.DocElementID` (spdx/v2/common/identifier.go:118-122). -/
structure DocElementID where
  documentRefID : Str := []
  elementRefID : Str := []
  specialID : Str := []
  deriving DecidableEq, Repr

/-- `common.Creator` (spdx/v2/common/creation_info.go:13-17). -/
structure Creator where
  creator : Str := []
  creatorType : Str := []
  deriving DecidableEq, Repr

/-- `common.Annotator` (spdx/v2/common/annotation.go:12-16). -/
structure Annotator where
  annotator : Str := []
  annotatorType : Str := []
  deriving DecidableEq, Repr

/-- `common.Supplier` (spdx/v2/common/package.go:12-17). -/
structure Supplier where
  supplier : Str := []
  supplierType : Str := []
  deriving DecidableEq, Repr

/-- `common.Originator` (spdx/v2/common/package.go:55-60). -/
structure Originator where
  originator : Str := []
  originatorType : Str := []
  deriving DecidableEq, Repr

/-- `common.PackageVerificationCode` (spdx/v2/common/package.go:96-104). -/
structure VerificationCode where
  value : Str := []
  excludedFiles : List Str := []
  deriving DecidableEq, Repr

/-- `common.SnippetRangePointer` (spdx/v2/common/snippet.go:5-15). -/
structure RangePointer where
  offset : Int := 0
  lineNumber : Int := 0
  fileSpdxId : Str := []
  deriving DecidableEq, Repr

/-- `common.SnippetRange` (spdx/v2/common/snippet.go:17-20). -/
structure SnippetRange where
  startPointer : RangePointer := {}
  endPointer : RangePointer := {}
  deriving DecidableEq, Repr

/-- `ExternalDocumentRef` (spdx/v2/v2_3/document.go:18-29). -/
structure ExternalDocumentRef where
  documentRefID : Str := []
  uri : Str := []
  checksum : Checksum := {}
  deriving DecidableEq, Repr

/-- `CreationInfo` (spdx/v2/v2_3/creation_info.go:10-27). -/
structure CreationInfo where
  licenseListVersion : Str := []
  creators : List Creator := []
  created : Str := []
  creatorComment : Str := []
  deriving DecidableEq, Repr

/-- `PackageExternalReference` (spdx/v2/v2_3/package.go:179-194). -/
structure PackageExternalRef where
  category : Str := []
  refType : Str := []
  locator : Str := []
  comment : Str := []
  deriving DecidableEq, Repr

/-- `Annotation` (spdx/v2/v2_3/annotation.go:10-31). -/
structure Annotation where
  annotator : Annotator := {}
  date : Str := []
  type : Str := []
  spdxId : DocElementID := {}
  comment : Str := []
  deriving DecidableEq, Repr

/-- `Relationship` (spdx/v2/v2_3/relationship.go:10-24). -/
structure Relationship where
  refA : DocElementID := {}
  refB : DocElementID := {}
  relationship : Str := []
  comment : Str := []
  deriving DecidableEq, Repr

/-- `Review` (spdx/v2/v2_3/review.go:7-25). -/
structure Review where
  reviewer : Str := []
  reviewerType : Str := []
  date : Str := []
  comment : Str := []
  deriving DecidableEq, Repr

/-- `OtherLicense` (spdx/v2/v2_3/other_license.go:6-30). -/
structure OtherLicense where
  licenseIdentifier : Str := []
  extractedText : Str := []
  licenseName : Str := []
  crossReferences : List Str := []
  comment : Str := []
  deriving DecidableEq, Repr

/-- `ArtifactOfProject` (spdx/v2/v2_3/file.go:82-98). -/
structure ArtifactOfProject where
  name : Str := []
  homePage : Str := []
  uri : Str := []
  deriving DecidableEq, Repr

/-- `Snippet` (spdx/v2/v2_3/snippet.go:10-50); 2.1 has no attribution texts. -/
structure Snippet where
  spdxId : Str := []
  fromFile : Str := []
  ranges : List SnippetRange := []
  licenseConcluded : Str := []
  licenseInfo : List Str := []
  licenseComments : Str := []
  copyrightText : Str := []
  comment : Str := []
  name : Str := []
  attributionTexts : List Str := []
  deriving DecidableEq, Repr

/-- `File` (spdx/v2/v2_3/file.go:10-76); 2.1 has no attribution texts.  `Snippets` is a Go map from
identifier to snippet pointer, modelled as an association list; `σ` is the snippet (reference)
type. -/
structure File (σ : Type) where
  name : Str := []
  spdxId : Str := []
  types : List Str := []
  checksums : List Checksum := []
  licenseConcluded : Str := []
  licenseInfoInFiles : List Str := []
  licenseComments : Str := []
  copyrightText : Str := []
  artifactOfProjects : List ArtifactOfProject := []
  comment : Str := []
  notice : Str := []
  contributors : List Str := []
  attributionTexts : List Str := []
  dependencies : List Str := []
  snippets : List (Str × σ) := []
  annotations : List Annotation := []
  deriving DecidableEq, Repr

/-- `Package` (spdx/v2/v2_3/package.go:14-142).  2.2 lacks the purpose and the three dates, 2.1 also
the attribution texts; in 2.1 and 2.2 the verification code is not a pointer (the zero value plays
the role of nil, here `none`).  The unexported `hasFiles` appears only in the JSON model. -/
structure Package (φ : Type) where
  isUnpackaged : Bool := false
  name : Str := []
  spdxId : Str := []
  version : Str := []
  fileName : Str := []
  supplier : Option Supplier := none
  originator : Option Originator := none
  downloadLocation : Str := []
  filesAnalyzed : Bool := false
  filesAnalyzedTagPresent : Bool := false
  verificationCode : Option VerificationCode := none
  checksums : List Checksum := []
  homePage : Str := []
  sourceInfo : Str := []
  licenseConcluded : Str := []
  licenseInfoFromFiles : List Str := []
  licenseDeclared : Str := []
  licenseComments : Str := []
  copyrightText : Str := []
  summary : Str := []
  description : Str := []
  comment : Str := []
  externalRefs : List PackageExternalRef := []
  attributionTexts : List Str := []
  primaryPurpose : Str := []
  releaseDate : Str := []
  builtDate : Str := []
  validUntilDate : Str := []
  files : List φ := []
  annotations : List Annotation := []
  deriving DecidableEq, Repr

/-- `Document` (spdx/v2/v2_3/document.go:33-73).  `π` and `φ` are the package and file (reference)
types. -/
structure Document (π φ : Type) where
  spdxVersion : Str := []
  dataLicense : Str := []
  spdxId : Str := []
  name : Str := []
  namespace_ : Str := []
  externalDocumentRefs : List ExternalDocumentRef := []
  comment : Str := []
  creationInfo : Option CreationInfo := none
  packages : List π := []
  files : List φ := []
  otherLicenses : List OtherLicense := []
  relationships : List Relationship := []
  annotations : List Annotation := []
  snippets : List Snippet := []
  reviews : List Review := []
  deriving DecidableEq, Repr

/-- A file whose snippets are values. -/
abbrev FileV := File Snippet
/-- A package whose files are values. -/
abbrev PackageV := Package FileV
/-- A document of values: what a user of the library sees. -/
abbrev Doc := Document PackageV FileV

/-- Supported tag-value versions (spdx/v2/v2_1, v2_2, v2_3). -/
inductive Version where
  | v21 | v22 | v23
  deriving DecidableEq, Repr

/-- Insertion into a Go map: replaces the value of an existing key. -/
def mapInsert {α : Type} (k : Str) (v : α) : List (Str × α) → List (Str × α)
  | [] => [(k, v)]
  | (k', v') :: m => if k' = k then (k, v) :: m else (k', v') :: mapInsert k v m

/-- Go map lookup. -/
def mapGet {α : Type} (k : Str) : List (Str × α) → Option α
  | [] => none
  | (k', v') :: m => if k' = k then some v' else mapGet k m

end Verif
