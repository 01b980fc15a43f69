import Verif.Lemmas.Composite
import Verif.Lemmas.SimDoc

/-!
# C44: composite one-line values are read back as written
-/

namespace Verif
open Spec

/-- **C44.** The checksum line printed for a checksum is read as that checksum. -/
theorem C44_checksum (v : Version) (tag : Str) (c : Checksum) (h : RepChecksum v c) :
    ∃ s, eachChecksum tag [c] = [.field tag s] ∧ parseChecksum v s = .ok c :=
  ⟨_, rfl, parseChecksum_text h⟩

/-- **C44.** The range line printed for a range is read as the same two numbers. -/
theorem C44_byte_range (r : SnippetRange) (h1 : RepInt r.startPointer.offset) (h2 : RepInt r.endPointer.offset)
    (h3 : r.startPointer.lineNumber = 0) :
    ∃ s, renderRange r = [.field g!"SnippetByteRange" s] ∧
      parseRange s = .ok (r.startPointer.offset, r.endPointer.offset) := by
  refine ⟨_, ?_, parseRange_itoa h1 h2⟩
  simp [renderRange, h1.1, h2.1, h3]

/-- **C44.** The same for line ranges. -/
theorem C44_line_range (r : SnippetRange) (h1 : RepInt r.startPointer.lineNumber)
    (h2 : RepInt r.endPointer.lineNumber) (h3 : r.startPointer.offset = 0) :
    ∃ s, renderRange r = [.field g!"SnippetLineRange" s] ∧
      parseRange s = .ok (r.startPointer.lineNumber, r.endPointer.lineNumber) := by
  refine ⟨_, ?_, parseRange_itoa h1 h2⟩
  simp [renderRange, h1.1, h2.1, h3]

/-- **C44.** The external document reference line is read as the same reference. -/
theorem C44_external_document_ref (e : ExternalDocumentRef) (h : RepExternalDocRef e) :
    ∃ s, renderExternalDocRef e = [.field g!"ExternalDocumentRef" s] ∧
      extractExternalDocumentReference s = .ok e :=
  ⟨_, rfl, extractEDR_text h⟩

/-- **C44.** The verification code line is read as the same code and exclusion. -/
theorem C44_verification_code (c : VerificationCode) (h : RepCode c) :
    ∃ s, renderVerificationCode true (some c) = [.field g!"PackageVerificationCode" s] ∧
      extractCodeAndExcludes s = c := by
  refine ⟨_, ?_, extractCode_text h⟩
  simp [renderVerificationCode, h.1.1]

/-- **C44.** The external reference line is read as the same category, type and locator. -/
theorem C44_external_ref (r : PackageExternalRef) (h : RepRef3 r) :
    ∃ s rest, renderExternalRef r = .field g!"ExternalRef" s :: rest ∧
      extractPackageExternalReference s = .ok { r with comment := [] } :=
  ⟨_, _, rfl, extractRef3_text h⟩

/-- **C44.** The supplier line is read as the same supplier. -/
theorem C44_supplier (s : Supplier) (h : RepParty s.supplierType s.supplier) :
    ∃ x, renderSupplier (some s) = [.field g!"PackageSupplier" x] ∧ parseSupplier x = .ok s := by
  refine ⟨_, ?_, parseSupplier_text h⟩
  have : s.supplier ≠ [] := by
    rcases h with h | h
    · exact h.2.1
    · rw [h.2]; decide
  simp only [renderSupplier, this, if_false]
  split <;> rfl

/-- **C44.** The originator line is read as the same originator. -/
theorem C44_originator (s : Originator) (h : RepParty s.originatorType s.originator) :
    ∃ x, renderOriginator (some s) = [.field g!"PackageOriginator" x] ∧ parseOriginator x = .ok s := by
  refine ⟨_, ?_, parseOriginator_text h⟩
  have : s.originator ≠ [] := by
    rcases h with h | h
    · exact h.2.1
    · rw [h.2]; decide
  simp only [renderOriginator, this, if_false]
  split <;> rfl

/-- **C44.** The relationship line is read as the same relationship. -/
theorem C44_relationship (v : Version) (r : Relationship) (h : RepRelationship v r) :
    ∃ s rest, renderRelationship r = .field g!"Relationship" s :: rest ∧
      parseRelationshipValue v s = .ok { r with comment := [] } := by
  refine ⟨_, optText g!"RelationshipComment" r.comment, ?_, parseRelationship_text h⟩
  have ha := rendered_ne h
  simp only [renderRelationship, if_pos (show _ ∧ _ ∧ _ from ⟨ha.1, ha.2, h.relationship.1⟩)]
  rfl

/-- **C44.** Every 64-bit number printed in decimal is read back. -/
theorem C44_number (n : Int) (h1 : -(2 ^ 63) ≤ n) (h2 : n < 2 ^ 63) : atoi (itoa n) = some n :=
  atoi_itoa h1 h2

/-! ## Cases that meet the hypotheses -/

example : RepChecksum .v21 ⟨g!"MD5", g!"ab: cd"⟩ := by decide
example : RepInt (-9223372036854775808) ∧ RepInt 17 ∧ ¬ RepInt 9223372036854775808 := by decide
example : RepExternalDocRef ⟨g!"x:y", g!"http://a/b", ⟨g!"SHA1", g!"00:ff"⟩⟩ :=
  ⟨by decide, by decide, by decide, by decide⟩
example : RepCode ⟨g!"abc def", [g!"./a (b, c"]⟩ := ⟨by decide, by decide, .inr ⟨_, rfl, by decide, by decide⟩⟩
example : RepRef3 ⟨g!"SECURITY", g!"cpe23Type", g!"cpe:2.3:a:b", g!""⟩ := ⟨by decide, by decide, by decide, by decide⟩
example : RepParty g!"Organization" g!"A: B (x@y)" := by decide
example : RepRelationship .v22 { refA := ⟨g!"d", g!"x", []⟩, refB := { specialID := g!"NONE" }, relationship := g!"DESCRIBES" } :=
  ⟨by decide, .inr ⟨by decide, .inl rfl⟩, by decide, by decide⟩

/-! ## The conditions are needed -/

/-- Two excluded files are read as one. -/
theorem C44_two_exclusions_false :
    extractCodeAndExcludes (verificationValue ⟨g!"abc", [g!"./a", g!"./b"]⟩) = ⟨g!"abc", [g!"./a, ./b"]⟩ := by
  decide +kernel

/-- An excluded file with a closing bracket in its name is cut short. -/
theorem C44_bracket_exclusion_false :
    extractCodeAndExcludes (verificationValue ⟨g!"abc", [g!"./a(1).c"]⟩) ≠ ⟨g!"abc", [g!"./a(1).c"]⟩ := by
  decide +kernel

/-- A locator with a space cannot be read. -/
theorem C44_locator_space_false :
    ∃ s, renderExternalRef ⟨g!"OTHER", g!"t", g!"a b", []⟩ = [.field g!"ExternalRef" s] ∧
      extractPackageExternalReference s = .err :=
  ⟨_, rfl, by decide +kernel⟩

end Verif
