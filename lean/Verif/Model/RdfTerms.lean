import Verif.Model.Types

/-!
# The vocabulary of the RDF reader

`spdx/v2/v2_3/rdf/reader/constants.go`; `v2_2` is the same without the last four properties of 2.3 (lines 70-73).
The model looks a predicate or class string up once; `other` is any string the reader does not know.
-/

namespace Verif

/-- The properties the reader switches on (constants.go:14-140). -/
inductive Pred where
  | type_
  | specVersion
  | dataLicense
  | name
  | externalDocumentRef
  | creationInfo
  | comment
  | reviewed
  | describesPackage
  | hasExtractedLicensingInfo
  | relationship
  | annotation
  | externalDocumentId
  | spdxDocument
  | checksum
  | licenseListVersion
  | creator
  | created
  | reviewer
  | reviewDate
  | annotator
  | annotationDate
  | annotationType
  | algorithm
  | checksumValue
  | extractedText
  | licenseId
  | seeAlso
  | example_
  | member
  | licenseException
  | licenseExceptionId
  | licenseExceptionText
  | isOsiApproved
  | licenseText
  | standardLicenseHeader
  | standardLicenseTemplate
  | standardLicenseHeaderTemplate
  | isDeprecatedLicenseId
  | isFsfLibre
  | versionInfo
  | packageFileName
  | supplier
  | originator
  | downloadLocation
  | filesAnalyzed
  | packageVerificationCode
  | packageVerificationCodeValue
  | packageVerificationCodeExcludedFile
  | homepage
  | doapName
  | sourceInfo
  | licenseConcluded
  | licenseInfoFromFiles
  | licenseDeclared
  | licenseComments
  | copyrightText
  | summary
  | description
  | externalRef
  | hasFile
  | primaryPackagePurpose
  | releaseDate
  | builtDate
  | validUntilDate
  | attributionText
  | referenceCategory
  | referenceType
  | referenceLocator
  | fileName
  | fileType
  | licenseInfoInFile
  | artifactOf
  | noticeText
  | fileContributor
  | fileDependency
  | relationshipType
  | relatedSpdxElement
  | snippetFromFile
  | range
  | licenseInfoInSnippet
  | startPointer
  | endPointer
  | reference
  | offset
  | lineNumber
  | other
  deriving DecidableEq, Repr

/-- The strings of the properties, namespaces expanded (constants.go:9-140; `parser.RDFNS` is the RDF syntax
namespace). -/
def predTable : List (Str × Pred) := [
  (g!"http://www.w3.org/1999/02/22-rdf-syntax-ns#type", .type_),
  (g!"http://spdx.org/rdf/terms#specVersion", .specVersion),
  (g!"http://spdx.org/rdf/terms#dataLicense", .dataLicense),
  (g!"http://spdx.org/rdf/terms#name", .name),
  (g!"http://spdx.org/rdf/terms#externalDocumentRef", .externalDocumentRef),
  (g!"http://spdx.org/rdf/terms#creationInfo", .creationInfo),
  (g!"http://www.w3.org/2000/01/rdf-schema#comment", .comment),
  (g!"http://spdx.org/rdf/terms#reviewed", .reviewed),
  (g!"http://spdx.org/rdf/terms#describesPackage", .describesPackage),
  (g!"http://spdx.org/rdf/terms#hasExtractedLicensingInfo", .hasExtractedLicensingInfo),
  (g!"http://spdx.org/rdf/terms#relationship", .relationship),
  (g!"http://spdx.org/rdf/terms#annotation", .annotation),
  (g!"http://spdx.org/rdf/terms#externalDocumentId", .externalDocumentId),
  (g!"http://spdx.org/rdf/terms#spdxDocument", .spdxDocument),
  (g!"http://spdx.org/rdf/terms#checksum", .checksum),
  (g!"http://spdx.org/rdf/terms#licenseListVersion", .licenseListVersion),
  (g!"http://spdx.org/rdf/terms#creator", .creator),
  (g!"http://spdx.org/rdf/terms#created", .created),
  (g!"http://spdx.org/rdf/terms#reviewer", .reviewer),
  (g!"http://spdx.org/rdf/terms#reviewDate", .reviewDate),
  (g!"http://spdx.org/rdf/terms#annotator", .annotator),
  (g!"http://spdx.org/rdf/terms#annotationDate", .annotationDate),
  (g!"http://spdx.org/rdf/terms#annotationType", .annotationType),
  (g!"http://spdx.org/rdf/terms#algorithm", .algorithm),
  (g!"http://spdx.org/rdf/terms#checksumValue", .checksumValue),
  (g!"http://spdx.org/rdf/terms#extractedText", .extractedText),
  (g!"http://spdx.org/rdf/terms#licenseId", .licenseId),
  (g!"http://www.w3.org/2000/01/rdf-schema#seeAlso", .seeAlso),
  (g!"http://spdx.org/rdf/terms#example", .example_),
  (g!"http://spdx.org/rdf/terms#member", .member),
  (g!"http://spdx.org/rdf/terms#licenseException", .licenseException),
  (g!"http://spdx.org/rdf/terms#licenseExceptionId", .licenseExceptionId),
  (g!"http://spdx.org/rdf/terms#licenseExceptionText", .licenseExceptionText),
  (g!"http://spdx.org/rdf/terms#isOsiApproved", .isOsiApproved),
  (g!"http://spdx.org/rdf/terms#licenseText", .licenseText),
  (g!"http://spdx.org/rdf/terms#standardLicenseHeader", .standardLicenseHeader),
  (g!"http://spdx.org/rdf/terms#standardLicenseTemplate", .standardLicenseTemplate),
  (g!"http://spdx.org/rdf/terms#standardLicenseHeaderTemplate", .standardLicenseHeaderTemplate),
  (g!"http://spdx.org/rdf/terms#isDeprecatedLicenseId", .isDeprecatedLicenseId),
  (g!"http://spdx.org/rdf/terms#isFsfLibre", .isFsfLibre),
  (g!"http://spdx.org/rdf/terms#versionInfo", .versionInfo),
  (g!"http://spdx.org/rdf/terms#packageFileName", .packageFileName),
  (g!"http://spdx.org/rdf/terms#supplier", .supplier),
  (g!"http://spdx.org/rdf/terms#originator", .originator),
  (g!"http://spdx.org/rdf/terms#downloadLocation", .downloadLocation),
  (g!"http://spdx.org/rdf/terms#filesAnalyzed", .filesAnalyzed),
  (g!"http://spdx.org/rdf/terms#packageVerificationCode", .packageVerificationCode),
  (g!"http://spdx.org/rdf/terms#packageVerificationCodeValue", .packageVerificationCodeValue),
  (g!"http://spdx.org/rdf/terms#packageVerificationCodeExcludedFile", .packageVerificationCodeExcludedFile),
  (g!"http://usefulinc.com/ns/doap#homepage", .homepage),
  (g!"http://usefulinc.com/ns/doap#name", .doapName),
  (g!"http://spdx.org/rdf/terms#sourceInfo", .sourceInfo),
  (g!"http://spdx.org/rdf/terms#licenseConcluded", .licenseConcluded),
  (g!"http://spdx.org/rdf/terms#licenseInfoFromFiles", .licenseInfoFromFiles),
  (g!"http://spdx.org/rdf/terms#licenseDeclared", .licenseDeclared),
  (g!"http://spdx.org/rdf/terms#licenseComments", .licenseComments),
  (g!"http://spdx.org/rdf/terms#copyrightText", .copyrightText),
  (g!"http://spdx.org/rdf/terms#summary", .summary),
  (g!"http://spdx.org/rdf/terms#description", .description),
  (g!"http://spdx.org/rdf/terms#externalRef", .externalRef),
  (g!"http://spdx.org/rdf/terms#hasFile", .hasFile),
  (g!"http://spdx.org/rdf/terms#primaryPackagePurpose", .primaryPackagePurpose),
  (g!"http://spdx.org/rdf/terms#releaseDate", .releaseDate),
  (g!"http://spdx.org/rdf/terms#builtDate", .builtDate),
  (g!"http://spdx.org/rdf/terms#validUntilDate", .validUntilDate),
  (g!"http://spdx.org/rdf/terms#attributionText", .attributionText),
  (g!"http://spdx.org/rdf/terms#referenceCategory", .referenceCategory),
  (g!"http://spdx.org/rdf/terms#referenceType", .referenceType),
  (g!"http://spdx.org/rdf/terms#referenceLocator", .referenceLocator),
  (g!"http://spdx.org/rdf/terms#fileName", .fileName),
  (g!"http://spdx.org/rdf/terms#fileType", .fileType),
  (g!"http://spdx.org/rdf/terms#licenseInfoInFile", .licenseInfoInFile),
  (g!"http://spdx.org/rdf/terms#artifactOf", .artifactOf),
  (g!"http://spdx.org/rdf/terms#noticeText", .noticeText),
  (g!"http://spdx.org/rdf/terms#fileContributor", .fileContributor),
  (g!"http://spdx.org/rdf/terms#fileDependency", .fileDependency),
  (g!"http://spdx.org/rdf/terms#relationshipType", .relationshipType),
  (g!"http://spdx.org/rdf/terms#relatedSpdxElement", .relatedSpdxElement),
  (g!"http://spdx.org/rdf/terms#snippetFromFile", .snippetFromFile),
  (g!"http://spdx.org/rdf/terms#range", .range),
  (g!"http://spdx.org/rdf/terms#licenseInfoInSnippet", .licenseInfoInSnippet),
  (g!"http://www.w3.org/2009/pointers#startPointer", .startPointer),
  (g!"http://www.w3.org/2009/pointers#endPointer", .endPointer),
  (g!"http://www.w3.org/2009/pointers#reference", .reference),
  (g!"http://www.w3.org/2009/pointers#offset", .offset),
  (g!"http://www.w3.org/2009/pointers#lineNumber", .lineNumber)]

/-- The property a string names. -/
def Pred.ofStr (s : Str) : Pred :=
  match mapGet s predTable with
  | some p => p
  | none => .other

/-- The classes the reader switches on (constants.go:14-118). -/
inductive Cls where
  | spdxDocument
  | snippet
  | file
  | package
  | spdxElement
  | disjunctiveLicenseSet
  | conjunctiveLicenseSet
  | extractedLicensingInfo
  | listedLicense
  | license
  | withExceptionOperator
  | orLaterOperator
  | simpleLicensingInfo
  | other
  deriving DecidableEq, Repr

/-- The strings of the classes. -/
def clsTable : List (Str × Cls) := [
  (g!"http://spdx.org/rdf/terms#SpdxDocument", .spdxDocument),
  (g!"http://spdx.org/rdf/terms#Snippet", .snippet),
  (g!"http://spdx.org/rdf/terms#File", .file),
  (g!"http://spdx.org/rdf/terms#Package", .package),
  (g!"http://spdx.org/rdf/terms#SpdxElement", .spdxElement),
  (g!"http://spdx.org/rdf/terms#DisjunctiveLicenseSet", .disjunctiveLicenseSet),
  (g!"http://spdx.org/rdf/terms#ConjunctiveLicenseSet", .conjunctiveLicenseSet),
  (g!"http://spdx.org/rdf/terms#ExtractedLicensingInfo", .extractedLicensingInfo),
  (g!"http://spdx.org/rdf/terms#ListedLicense", .listedLicense),
  (g!"http://spdx.org/rdf/terms#License", .license),
  (g!"http://spdx.org/rdf/terms#WithExceptionOperator", .withExceptionOperator),
  (g!"http://spdx.org/rdf/terms#OrLaterOperator", .orLaterOperator),
  (g!"http://spdx.org/rdf/terms#SimpleLicensingInfo", .simpleLicensingInfo)]

/-- The class a string names. -/
def Cls.ofStr (s : Str) : Cls :=
  match mapGet s clsTable with
  | some c => c
  | none => .other

/-- `SPDX_NONE_CAPS` (constants.go:101). -/
def spdxNoneCaps : Str := g!"http://spdx.org/rdf/terms#NONE"
/-- `SPDX_NONE_SMALL` (constants.go:103). -/
def spdxNoneSmall : Str := g!"http://spdx.org/rdf/terms#none"
/-- `SPDX_NOASSERTION_CAPS` (constants.go:102). -/
def spdxNoassertionCaps : Str := g!"http://spdx.org/rdf/terms#NOASSERTION"
/-- `SPDX_NOASSERTION_SMALL` (constants.go:104). -/
def spdxNoassertionSmall : Str := g!"http://spdx.org/rdf/terms#noassertion"
/-- `SPDX_ANNOTATION_TYPE_OTHER` (constants.go:39). -/
def annotationTypeOther : Str := g!"http://spdx.org/rdf/terms#annotationType_other"
/-- `SPDX_ANNOTATION_TYPE_REVIEW` (constants.go:40). -/
def annotationTypeReview : Str := g!"http://spdx.org/rdf/terms#annotationType_review"
/-- `SPDX_REFERENCE_CATEGORY_SECURITY` (constants.go:89). -/
def referenceCategorySecurity : Str := g!"http://spdx.org/rdf/terms#referenceCategory_security"
/-- `SPDX_REFERENCE_CATEGORY_PACKAGE_MANAGER` (constants.go:88). -/
def referenceCategoryPackageManager : Str := g!"http://spdx.org/rdf/terms#referenceCategory_packageManager"
/-- `SPDX_REFERENCE_CATEGORY_OTHER` (constants.go:90). -/
def referenceCategoryOther : Str := g!"http://spdx.org/rdf/terms#referenceCategory_other"

/-- `AllRelationshipTypes` (constants.go:146-160). -/
def allRelationshipTypes : List Str := [
  g!"amendment", g!"ancestorOf", g!"buildDependencyOf", g!"buildToolOf", g!"containedBy", g!"contains",
  g!"copyOf", g!"dataFile", g!"dataFileOf", g!"dependencyManifestOf", g!"dependencyOf", g!"dependsOn",
  g!"descendantOf", g!"describedBy", g!"describes", g!"devDependencyOf", g!"devToolOf",
  g!"distributionArtifact", g!"documentation", g!"dynamicLink", g!"exampleOf", g!"expandedFromArchive",
  g!"fileAdded", g!"fileDeleted", g!"fileModified", g!"generatedFrom", g!"generates", g!"hasPrerequisite",
  g!"metafileOf", g!"optionalComponentOf", g!"optionalDependencyOf", g!"other", g!"packageOf",
  g!"patchApplied", g!"patchFor", g!"prerequisiteFor", g!"providedDependencyOf", g!"runtimeDependencyOf",
  g!"staticLink", g!"testDependencyOf", g!"testOf", g!"testToolOf", g!"testcaseOf", g!"variantOf"]

/-- `AllStandardLicenseIDS` (constants.go:162-268). -/
def allStandardLicenseIDs : List Str := [
  g!"0BSD", g!"389-exception", g!"AAL", g!"Abstyles", g!"Adobe-2006", g!"Adobe-Glyph", g!"ADSL", g!"AFL-1.1",
  g!"AFL-1.2", g!"AFL-2.0", g!"AFL-2.1", g!"AFL-3.0", g!"Afmparse", g!"AGPL-1.0-only", g!"AGPL-1.0-or-later",
  g!"AGPL-1.0", g!"AGPL-3.0-only", g!"AGPL-3.0-or-later", g!"AGPL-3.0", g!"Aladdin", g!"AMDPLPA", g!"AML",
  g!"AMPAS", g!"ANTLR-PD", g!"Apache-1.0", g!"Apache-1.1", g!"Apache-2.0", g!"APAFML", g!"APL-1.0",
  g!"APSL-1.0", g!"APSL-1.1", g!"APSL-1.2", g!"APSL-2.0", g!"Artistic-1.0-cl8", g!"Artistic-1.0-Perl",
  g!"Artistic-1.0", g!"Artistic-2.0", g!"", g!"Autoconf-exception-2.0", g!"Autoconf-exception-3.0",
  g!"Bahyph", g!"Barr", g!"Beerware", g!"Bison-exception-2.2", g!"BitTorrent-1.0", g!"BitTorrent-1.1",
  g!"blessing", g!"BlueOak-1.0.0", g!"Bootloader-exception", g!"Borceux", g!"BSD-1-Clause",
  g!"BSD-2-Clause-FreeBSD", g!"BSD-2-Clause-NetBSD", g!"BSD-2-Clause-Patent", g!"BSD-2-Clause-Views",
  g!"BSD-2-Clause", g!"BSD-3-Clause-Attribution", g!"BSD-3-Clause-Clear", g!"BSD-3-Clause-LBNL",
  g!"BSD-3-Clause-No-Nuclear-License-2014", g!"BSD-3-Clause-No-Nuclear-License",
  g!"BSD-3-Clause-No-Nuclear-Warranty", g!"BSD-3-Clause-Open-MPI", g!"BSD-3-Clause", g!"BSD-4-Clause-UC",
  g!"BSD-4-Clause", g!"BSD-Protection", g!"BSD-Source-Code", g!"BSL-1.0", g!"bzip2-1.0.5", g!"bzip2-1.0.6",
  g!"CAL-1.0-Combined-Work-Exception", g!"CAL-1.0", g!"Caldera", g!"CATOSL-1.1", g!"CC-BY-1.0", g!"CC-BY-2.0",
  g!"CC-BY-2.5", g!"CC-BY-3.0-AT", g!"CC-BY-3.0", g!"CC-BY-4.0", g!"CC-BY-NC-1.0", g!"CC-BY-NC-2.0",
  g!"CC-BY-NC-2.5", g!"CC-BY-NC-3.0", g!"CC-BY-NC-4.0", g!"CC-BY-NC-ND-1.0", g!"CC-BY-NC-ND-2.0",
  g!"CC-BY-NC-ND-2.5", g!"CC-BY-NC-ND-3.0-IGO", g!"CC-BY-NC-ND-3.0", g!"CC-BY-NC-ND-4.0", g!"CC-BY-NC-SA-1.0",
  g!"CC-BY-NC-SA-2.0", g!"CC-BY-NC-SA-2.5", g!"CC-BY-NC-SA-3.0", g!"CC-BY-NC-SA-4.0", g!"CC-BY-ND-1.0",
  g!"CC-BY-ND-2.0", g!"CC-BY-ND-2.5", g!"CC-BY-ND-3.0", g!"CC-BY-ND-4.0", g!"CC-BY-SA-1.0", g!"CC-BY-SA-2.0",
  g!"CC-BY-SA-2.5", g!"CC-BY-SA-3.0-AT", g!"CC-BY-SA-3.0", g!"CC-BY-SA-4.0", g!"CC-PDDC", g!"CC0-1.0",
  g!"CDDL-1.0", g!"CDDL-1.1", g!"CDLA-Permissive-1.0", g!"CDLA-Sharing-1.0", g!"CECILL-1.0", g!"CECILL-1.1",
  g!"CECILL-2.0", g!"CECILL-2.1", g!"CECILL-B", g!"CECILL-C", g!"CERN-OHL-1.1", g!"CERN-OHL-1.2",
  g!"CERN-OHL-P-2.0", g!"CERN-OHL-S-2.0", g!"CERN-OHL-W-2.0", g!"ClArtistic", g!"Classpath-exception-2.0",
  g!"CLISP-exception-2.0", g!"CNRI-Jython", g!"CNRI-Python-GPL-Compatible", g!"CNRI-Python", g!"Condor-1.1",
  g!"copyleft-next-0.3.0", g!"copyleft-next-0.3.1", g!"CPAL-1.0", g!"CPL-1.0", g!"CPOL-1.02", g!"Crossword",
  g!"CrystalStacker", g!"CUA-OPL-1.0", g!"Cube", g!"curl", g!"D-FSL-1.0", g!"diffmark",
  g!"DigiRule-FOSS-exception", g!"DOC", g!"Dotseqn", g!"DSDP", g!"dvipdfm", g!"ECL-1.0", g!"ECL-2.0",
  g!"eCos-2.0", g!"eCos-exception-2.0", g!"EFL-1.0", g!"EFL-2.0", g!"eGenix", g!"Entessa", g!"EPICS",
  g!"EPL-1.0", g!"EPL-2.0", g!"ErlPL-1.1", g!"etalab-2.0", g!"EUDatagrid", g!"EUPL-1.0", g!"EUPL-1.1",
  g!"EUPL-1.2", g!"Eurosym", g!"Fair", g!"Fawkes-Runtime-exception", g!"FLTK-exception",
  g!"Font-exception-2.0", g!"Frameworx-1.0", g!"FreeImage", g!"freertos-exception-2.0", g!"FSFAP", g!"FSFUL",
  g!"FSFULLR", g!"FTL", g!"GCC-exception-2.0", g!"GCC-exception-3.1", g!"GFDL-1.1-invariants-only",
  g!"GFDL-1.1-invariants-or-later", g!"GFDL-1.1-no-invariants-only", g!"GFDL-1.1-no-invariants-or-later",
  g!"GFDL-1.1-only", g!"GFDL-1.1-or-later", g!"GFDL-1.1", g!"GFDL-1.2-invariants-only",
  g!"GFDL-1.2-invariants-or-later", g!"GFDL-1.2-no-invariants-only", g!"GFDL-1.2-no-invariants-or-later",
  g!"GFDL-1.2-only", g!"GFDL-1.2-or-later", g!"GFDL-1.2", g!"GFDL-1.3-invariants-only",
  g!"GFDL-1.3-invariants-or-later", g!"GFDL-1.3-no-invariants-only", g!"GFDL-1.3-no-invariants-or-later",
  g!"GFDL-1.3-only", g!"GFDL-1.3-or-later", g!"GFDL-1.3", g!"Giftware", g!"GL2PS", g!"Glide", g!"Glulxe",
  g!"GLWTPL", g!"gnu-javamail-exception", g!"gnuplot", g!"GPL-1.0+", g!"GPL-1.0-only", g!"GPL-1.0-or-later",
  g!"GPL-1.0", g!"GPL-2.0+", g!"GPL-2.0-only", g!"GPL-2.0-or-later", g!"GPL-2.0-with-autoconf-exception",
  g!"GPL-2.0-with-bison-exception", g!"GPL-2.0-with-classpath-exception", g!"GPL-2.0-with-font-exception",
  g!"GPL-2.0-with-GCC-exception", g!"GPL-2.0", g!"GPL-3.0+", g!"GPL-3.0-linking-exception",
  g!"GPL-3.0-linking-source-exception", g!"GPL-3.0-only", g!"GPL-3.0-or-later",
  g!"GPL-3.0-with-autoconf-exception", g!"GPL-3.0-with-GCC-exception", g!"GPL-3.0", g!"GPL-CC-1.0",
  g!"gSOAP-1.3b", g!"HaskellReport", g!"Hippocratic-2.1", g!"HPND-sell-variant", g!"HPND",
  g!"i2p-gpl-java-exception", g!"IBM-pibs", g!"ICU", g!"IJG", g!"ImageMagick", g!"iMatix", g!"Imlib2",
  g!"Info-ZIP", g!"Intel-ACPI", g!"Intel", g!"Interbase-1.0", g!"IPA", g!"IPL-1.0", g!"ISC", g!"JasPer-2.0",
  g!"JPNIC", g!"JSON", g!"LAL-1.2", g!"LAL-1.3", g!"Latex2e", g!"Leptonica", g!"LGPL-2.0+", g!"LGPL-2.0-only",
  g!"LGPL-2.0-or-later", g!"LGPL-2.0", g!"LGPL-2.1+", g!"LGPL-2.1-only", g!"LGPL-2.1-or-later", g!"LGPL-2.1",
  g!"LGPL-3.0+", g!"LGPL-3.0-linking-exception", g!"LGPL-3.0-only", g!"LGPL-3.0-or-later", g!"LGPL-3.0",
  g!"LGPLLR", g!"libpng-2.0", g!"Libpng", g!"libselinux-1.0", g!"libtiff", g!"Libtool-exception",
  g!"licenses", g!"LiLiQ-P-1.1", g!"LiLiQ-R-1.1", g!"LiLiQ-Rplus-1.1", g!"Linux-OpenIB",
  g!"Linux-syscall-note", g!"LLVM-exception", g!"LPL-1.0", g!"LPL-1.02", g!"LPPL-1.0", g!"LPPL-1.1",
  g!"LPPL-1.2", g!"LPPL-1.3a", g!"LPPL-1.3c", g!"LZMA-exception", g!"MakeIndex", g!"mif-exception", g!"MirOS",
  g!"MIT-0", g!"MIT-advertising", g!"MIT-CMU", g!"MIT-enna", g!"MIT-feh", g!"MIT", g!"MITNFA", g!"Motosoto",
  g!"mpich2", g!"MPL-1.0", g!"MPL-1.1", g!"MPL-2.0-no-copyleft-exception", g!"MPL-2.0", g!"MS-PL", g!"MS-RL",
  g!"MTLL", g!"MulanPSL-1.0", g!"MulanPSL-2.0", g!"Multics", g!"Mup", g!"NASA-1.3", g!"Naumen", g!"NBPL-1.0",
  g!"NCGL-UK-2.0", g!"NCSA", g!"Net-SNMP", g!"NetCDF", g!"Newsletr", g!"NGPL", g!"NIST-PD-fallback",
  g!"NIST-PD", g!"NLOD-1.0", g!"NLPL", g!"Nokia-Qt-exception-1.1", g!"Nokia", g!"NOSL", g!"Noweb",
  g!"NPL-1.0", g!"NPL-1.1", g!"NPOSL-3.0", g!"NRL", g!"NTP-0", g!"NTP", g!"Nunit", g!"O-UDA-1.0",
  g!"OCaml-LGPL-linking-exception", g!"OCCT-exception-1.0", g!"OCCT-PL", g!"OCLC-2.0", g!"ODbL-1.0",
  g!"ODC-By-1.0", g!"OFL-1.0-no-RFN", g!"OFL-1.0-RFN", g!"OFL-1.0", g!"OFL-1.1-no-RFN", g!"OFL-1.1-RFN",
  g!"OFL-1.1", g!"OGC-1.0", g!"OGL-Canada-2.0", g!"OGL-UK-1.0", g!"OGL-UK-2.0", g!"OGL-UK-3.0", g!"OGTSL",
  g!"OLDAP-1.1", g!"OLDAP-1.2", g!"OLDAP-1.3", g!"OLDAP-1.4", g!"OLDAP-2.0.1", g!"OLDAP-2.0", g!"OLDAP-2.1",
  g!"OLDAP-2.2.1", g!"OLDAP-2.2.2", g!"OLDAP-2.2", g!"OLDAP-2.3", g!"OLDAP-2.4", g!"OLDAP-2.5", g!"OLDAP-2.6",
  g!"OLDAP-2.7", g!"OLDAP-2.8", g!"OML", g!"", g!"OpenJDK-assembly-exception-1.0", g!"OpenSSL",
  g!"openvpn-openssl-exception", g!"OPL-1.0", g!"OSET-PL-2.1", g!"OSL-1.0", g!"OSL-1.1", g!"OSL-2.0",
  g!"OSL-2.1", g!"OSL-3.0", g!"Parity-6.0.0", g!"Parity-7.0.0", g!"PDDL-1.0", g!"PHP-3.0", g!"PHP-3.01",
  g!"Plexus", g!"PolyForm-Noncommercial-1.0.0", g!"PolyForm-Small-Business-1.0.0", g!"PostgreSQL",
  g!"PS-or-PDF-font-exception-20170817", g!"PSF-2.0", g!"psfrag", g!"psutils", g!"Python-2.0", g!"Qhull",
  g!"QPL-1.0", g!"Qt-GPL-exception-1.0", g!"Qt-LGPL-exception-1.1", g!"Qwt-exception-1.0", g!"Rdisc",
  g!"RHeCos-1.1", g!"RPL-1.1", g!"RPL-1.5", g!"RPSL-1.0", g!"RSA-MD", g!"RSCPL", g!"Ruby", g!"SAX-PD",
  g!"Saxpath", g!"SCEA", g!"Sendmail-8.23", g!"Sendmail", g!"SGI-B-1.0", g!"SGI-B-1.1", g!"SGI-B-2.0",
  g!"SHL-0.5", g!"SHL-0.51", g!"SHL-2.0", g!"SHL-2.1", g!"SimPL-2.0", g!"SISSL-1.2", g!"SISSL", g!"Sleepycat",
  g!"SMLNJ", g!"SMPPL", g!"SNIA", g!"Spencer-86", g!"Spencer-94", g!"Spencer-99", g!"SPL-1.0",
  g!"SSH-OpenSSH", g!"SSH-short", g!"SSPL-1.0", g!"StandardML-NJ", g!"SugarCRM-1.1.3", g!"Swift-exception",
  g!"SWL", g!"TAPR-OHL-1.0", g!"TCL", g!"TCP-wrappers", g!"TMate", g!"TORQUE-1.1", g!"TOSL",
  g!"TU-Berlin-1.0", g!"TU-Berlin-2.0", g!"u-boot-exception-2.0", g!"UCL-1.0", g!"Unicode-DFS-2015",
  g!"Unicode-DFS-2016", g!"Unicode-TOU", g!"Universal-FOSS-exception-1.0", g!"Unlicense", g!"UPL-1.0",
  g!"Vim", g!"VOSTROM", g!"VSL-1.0", g!"W3C-19980720", g!"W3C-20150513", g!"W3C", g!"Watcom-1.0", g!"Wsuipa",
  g!"WTFPL", g!"WxWindows-exception-3.1", g!"wxWindows", g!"X11", g!"Xerox", g!"XFree86-1.1", g!"xinetd",
  g!"Xnet", g!"xpp", g!"XSkat", g!"YPL-1.0", g!"YPL-1.1", g!"Zed", g!"Zend-2.0", g!"Zimbra-1.3",
  g!"Zimbra-1.4", g!"zlib-acknowledgement", g!"Zlib", g!"ZPL-1.1", g!"ZPL-2.0", g!"ZPL-2.1"]

end Verif
