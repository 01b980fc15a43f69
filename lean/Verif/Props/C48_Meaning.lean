import Verif.Lemmas.MeaningInv
import Verif.Props.C05_C10_Parser

/-!
# C48: the document itself is what the pairs say
-/

namespace Verif
open Spec

/-- **C48.** The document-level content of a parsed document is what its pairs say: the header fields, the
creation information, the external document references, and the relationships, annotations, reviews and
extracted licenses, each described by the pairs that follow it (see `DocumentSays`). -/
theorem C48_document (v : Version) (tvs : List TVPair) (d : Doc) (h : parseTagValues v tvs = .ok (some d)) :
    DocumentSays v tvs d := documentSays h

/-- A document with every kind of document-level object, some in the midst of package and file sections. -/
def meaningSample : List TVPair := [
  ⟨g!"SPDXVersion", g!"SPDX-2.3"⟩, ⟨g!"DataLicense", g!"CC0-1.0"⟩, ⟨g!"SPDXID", g!"SPDXRef-DOCUMENT"⟩,
  ⟨g!"DocumentName", g!"first"⟩, ⟨g!"DocumentName", g!"second"⟩, ⟨g!"DocumentNamespace", g!"http://x"⟩,
  ⟨g!"ExternalDocumentRef", g!"DocumentRef-a http://a SHA1:00"⟩,
  ⟨g!"ExternalDocumentRef", g!"DocumentRef-b http://b SHA1: 11"⟩,
  ⟨g!"Creator", g!"Person: p"⟩, ⟨g!"Creator", g!"Tool:t"⟩, ⟨g!"Created", g!"now"⟩, ⟨g!"DocumentComment", g!"c"⟩,
  ⟨g!"PackageName", g!"p"⟩, ⟨g!"SPDXID", g!"SPDXRef-p"⟩,
  ⟨g!"Relationship", g!"SPDXRef-DOCUMENT  DESCRIBES SPDXRef-p"⟩, ⟨g!"PackageComment", g!"x"⟩,
  ⟨g!"FileName", g!"f"⟩, ⟨g!"RelationshipComment", g!"late"⟩, ⟨g!"SPDXID", g!"SPDXRef-f"⟩,
  ⟨g!"Relationship", g!"SPDXRef-f OTHER NONE"⟩,
  ⟨g!"Annotator", g!"Person: a"⟩, ⟨g!"AnnotationDate", g!"d"⟩, ⟨g!"SPDXREF", g!"DocumentRef-a:SPDXRef-y"⟩,
  ⟨g!"LicenseID", g!"LicenseRef-1"⟩, ⟨g!"LicenseCrossReference", g!"u"⟩, ⟨g!"LicenseCrossReference", g!"v"⟩,
  ⟨g!"Reviewer", g!"Person: r"⟩, ⟨g!"AnnotationComment", g!"text"⟩, ⟨g!"ReviewDate", g!"e"⟩ ]

/-- It parses, and the document is the one a reader expects. -/
theorem C48_sample : ∃ d, parseTagValues .v23 meaningSample = .ok (some d) ∧
    d.name = g!"second" ∧ d.spdxId = g!"DOCUMENT" ∧ d.comment = g!"c" ∧
    d.externalDocumentRefs = [⟨g!"a", g!"http://a", ⟨g!"SHA1", g!"00"⟩⟩, ⟨g!"b", g!"http://b", ⟨g!"SHA1", g!"11"⟩⟩] ∧
    d.relationships.map (fun r => (r.relationship, r.comment)) = [(g!"DESCRIBES", g!"late"), (g!"OTHER", [])] ∧
    d.annotations.map (fun a => (a.date, a.comment)) = [(g!"d", g!"text")] ∧
    d.otherLicenses.map (fun l => l.crossReferences) = [[g!"u", g!"v"]] ∧
    d.reviews.map (fun r => (r.reviewer, r.date)) = [(g!"r", g!"e")] := by
  have h : (match parseTagValues .v23 meaningSample with
    | .ok (some d) => decide (d.name = g!"second" ∧ d.spdxId = g!"DOCUMENT" ∧ d.comment = g!"c" ∧
      d.externalDocumentRefs = [⟨g!"a", g!"http://a", ⟨g!"SHA1", g!"00"⟩⟩, ⟨g!"b", g!"http://b", ⟨g!"SHA1", g!"11"⟩⟩] ∧
      d.relationships.map (fun r => (r.relationship, r.comment)) = [(g!"DESCRIBES", g!"late"), (g!"OTHER", [])] ∧
      d.annotations.map (fun a => (a.date, a.comment)) = [(g!"d", g!"text")] ∧
      d.otherLicenses.map (fun l => l.crossReferences) = [[g!"u", g!"v"]] ∧
      d.reviews.map (fun r => (r.reviewer, r.date)) = [(g!"r", g!"e")])
    | _ => false) = true := by decide +kernel
  split at h
  · rename_i d hd; exact ⟨d, hd, of_decide_eq_true h⟩
  · simp at h

end Verif
