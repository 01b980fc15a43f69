import Verif.Spec.TextSays
import Verif.Spec.TVLines
import Verif.Spec.Representable

/-!
# Specification: tag-value texts that can be loaded and saved

Read off the pairs of the text alone.
-/

namespace Verif.Spec

/-- The tags with free text, which may have several lines. -/
def textTags : List Str := [g!"DocumentComment", g!"CreatorComment", g!"PackageSourceInfo", g!"PackageLicenseComments",
  g!"PackageCopyrightText", g!"PackageSummary", g!"PackageDescription", g!"PackageComment", g!"ExternalRefComment",
  g!"PackageAttributionText", g!"LicenseComments", g!"FileCopyrightText", g!"FileComment", g!"FileNotice",
  g!"FileAttributionText", g!"SnippetLicenseComments", g!"SnippetCopyrightText", g!"SnippetComment",
  g!"SnippetAttributionText", g!"ExtractedText", g!"LicenseComment", g!"RelationshipComment", g!"AnnotationComment",
  g!"ReviewComment"]

/-- A pair whose value is written again as it was read. -/
structure SavablePair (p : TVPair) : Prop where
  /-- A value of one line has no surrounding white space and no `<text>`; a value of several lines has no `</text>`
  and no carriage return before a line break (see `GoodValue`). -/
  tidy : GoodValue p.value
  /-- Only free text has several lines. -/
  oneLine : p.tag ∉ textTags → '\n' ∉ p.value
  /-- Packages, files and licenses are named. -/
  given : p.tag ∈ [g!"PackageName", g!"FileName", g!"LicenseID"] → p.value ≠ []
  /-- Identifiers have no white space. -/
  solid : p.tag ∈ [g!"SPDXID", g!"SnippetSPDXID", g!"SnippetFromFileSPDXID", g!"SPDXREF"] → ∀ c ∈ p.value, isSpace c = false
  /-- Words are divided by spaces, not by other white space. -/
  spaces : p.tag ∈ [g!"Relationship", g!"ExternalRef", g!"ExternalDocumentRef"] → ∀ c ∈ p.value, isSpace c = true → c = ' '
  /-- Agents have names and checksums have digests. -/
  named : p.tag ∈ [g!"Creator", g!"Annotator", g!"Reviewer", g!"PackageSupplier", g!"PackageOriginator", g!"PackageChecksum",
    g!"FileChecksum"] → ∀ a, p.value ≠ a ++ g!":"
  /-- A verification code is not empty. -/
  code : p.tag = g!"PackageVerificationCode" → ∀ c, CodeReads p.value c → c.value ≠ []
  /-- The algorithm of an external document has no colon. -/
  algorithm : p.tag = g!"ExternalDocumentRef" → ∀ e, ExternalDocumentSays p.value e → ':' ∉ e.checksum.algorithm
  /-- No end of a range is zero. -/
  range : p.tag = g!"SnippetByteRange" ∨ p.tag = g!"SnippetLineRange" →
    ∀ a b, ColonPair p.value a b → ¬ NumberText a 0 ∧ ¬ NumberText b 0

/-- The last that a package section says about whether its files were analyzed is that they were not. -/
def NotAnalyzed (ps : List TVPair) : Prop :=
  ((values g!"FilesAnalyzed" ps).filter fun x => x = g!"true" ∨ x = g!"false").getLast? = some g!"false"

/-- The file sections of a text, with a package or without. -/
def fileSections (r : Sections) : List FileSec := r.files ++ r.packages.flatMap fun p => p.files

/-- A text that can be loaded and saved. -/
structure SavableText (tvs : List TVPair) : Prop where
  pairs : ∀ p ∈ tvs, SavablePair p
  /-- It says something about its creation. -/
  creation : values g!"Creator" tvs ≠ [] ∨
    ∃ t ∈ [g!"LicenseListVersion", g!"Created", g!"CreatorComment"], lastValue t tvs ≠ []
  /-- A package whose files were not analyzed has no verification code and no license information from files. -/
  analyzed : ∀ s ∈ (sectionsOf tvs).packages, NotAnalyzed s.pairs →
    values g!"PackageVerificationCode" s.pairs = [] ∧ values g!"PackageLicenseInfoFromFiles" s.pairs = []
  /-- Every snippet of a file says what file it is from. -/
  snippets : ∀ f ∈ fileSections (sectionsOf tvs), ∀ s ∈ f.snippets, values g!"SnippetFromFileSPDXID" s.pairs ≠ []

end Verif.Spec
