import Verif.Lemmas.Meaning

set_option linter.unusedSimpArgs false

/-!
# The document-level fields of a parsed document: the invariant
-/

namespace Verif
open Spec

/-! ## One component at a time -/

section Components
variable {v : Version} {b : Bool} {tag : Tag} {value : Str} {h h' : Head}

local macro "component" H:ident : tactic => `(tactic| (
  unfold HeadStep at $H:ident
  split at $H:ident
  all_goals first
    | (subst $H:ident; simp_all [Head.modCI]; done)
    | (obtain ⟨x, h1, h3⟩ := $H:ident; subst h3; simp_all; done)
    | (obtain ⟨x, y, h1, h2, h3⟩ := $H:ident; subst h3; simp_all [Head.modCI]; done)
    | (obtain ⟨x, y, h1, h2, h3⟩ := $H:ident; subst h3; exact Or.inl ⟨rfl, x, y, h1, h2, rfl, rfl⟩)
    | (split at $H:ident
       · obtain ⟨x, h1, h3⟩ := $H:ident; subst h3; simp_all; done
       · subst $H:ident; simp_all)))

theorem step_comment (H : HeadStep v b tag value h h') :
    h'.doc.comment = if tag = .documentComment then value else h.doc.comment := by component H
theorem step_version (H : HeadStep v b tag value h h') :
    h'.doc.spdxVersion = if tag = .spdxVersion then value else h.doc.spdxVersion := by component H
theorem step_dataLicense (H : HeadStep v b tag value h h') :
    h'.doc.dataLicense = if tag = .dataLicense then value else h.doc.dataLicense := by component H
theorem step_docName (H : HeadStep v b tag value h h') :
    h'.doc.name = if tag = .documentName then value else h.doc.name := by component H
theorem step_namespace (H : HeadStep v b tag value h h') :
    h'.doc.namespace_ = if tag = .documentNamespace then value else h.doc.namespace_ := by component H

theorem step_snippets (H : HeadStep v b tag value h h') : h'.doc.snippets = h.doc.snippets := by component H

theorem step_docId (H : HeadStep v b tag value h h') :
    (tag = .spdxID ∧ b = true ∧ ∃ e, extractElementID value = .ok e ∧ h'.doc.spdxId = e) ∨
    ((tag ≠ .spdxID ∨ b = false) ∧ h'.doc.spdxId = h.doc.spdxId) := by component H

theorem step_externals (H : HeadStep v b tag value h h') :
    (tag = .externalDocumentRef ∧ ∃ e, extractExternalDocumentReference value = .ok e ∧
      h'.doc.externalDocumentRefs = h.doc.externalDocumentRefs ++ [e]) ∨
    (tag ≠ .externalDocumentRef ∧ h'.doc.externalDocumentRefs = h.doc.externalDocumentRefs) := by component H

theorem step_creation (H : HeadStep v b tag value h h') {c : CreationInfo} (hc : h.doc.creationInfo = some c) :
    ∃ c', h'.doc.creationInfo = some c' ∧ c'.created = (if tag = .created then value else c.created) ∧
      c'.creatorComment = (if tag = .creatorComment then value else c.creatorComment) ∧
      c'.licenseListVersion = (if tag = .licenseListVersion then value else c.licenseListVersion) ∧
      ((tag = .creator ∧ ∃ k x, extractSubs g!":" value = .ok (k, x) ∧ isAgentKind k = true ∧
        c'.creators = c.creators ++ [{ creator := x, creatorType := k }]) ∨ (tag ≠ .creator ∧ c'.creators = c.creators)) := by
  by_cases ht : tag = .creator
  · subst ht
    obtain ⟨k, x, h1, h2, h3⟩ := H
    subst h3
    refine ⟨{ c with creators := c.creators ++ [{ creator := x, creatorType := k }] }, ?_, rfl, rfl, rfl, Or.inl ⟨rfl, k, x, h1, h2, rfl⟩⟩
    simp [Head.modCI, hc]
  · component H

theorem step_relationships (H : HeadStep v b tag value h h') :
    (tag = .relationship ∧ ∃ r, parseRelationshipValue v value = .ok r ∧
      h'.rln = some h.doc.relationships.length ∧ h'.doc.relationships = h.doc.relationships ++ [r]) ∨
    (tag = .relationshipComment ∧ ∃ i, h.rln = some i ∧ h'.rln = some i ∧
      h'.doc.relationships = h.doc.relationships.modify i fun r => { r with comment := value }) ∨
    (tag ≠ .relationship ∧ tag ≠ .relationshipComment ∧ h'.rln = h.rln ∧ h'.doc.relationships = h.doc.relationships) := by
  component H

theorem step_annotations (H : HeadStep v b tag value h h') :
    (tag = .annotator ∧ ∃ a, parseAnnotatorValue value = .ok a ∧
      h'.ann = some h.doc.annotations.length ∧ h'.doc.annotations = h.doc.annotations ++ [{ annotator := a }]) ∨
    (tag = .annotationDate ∧ ∃ i, h.ann = some i ∧ h'.ann = some i ∧
      h'.doc.annotations = h.doc.annotations.modify i fun a => { a with date := value }) ∨
    (tag = .annotationType ∧ ∃ i, h.ann = some i ∧ h'.ann = some i ∧
      h'.doc.annotations = h.doc.annotations.modify i fun a => { a with type := value }) ∨
    (tag = .spdxREF ∧ ∃ i e, h.ann = some i ∧ extractDocElementID value = .ok e ∧ h'.ann = some i ∧
      h'.doc.annotations = h.doc.annotations.modify i fun a => { a with spdxId := e }) ∨
    (tag = .annotationComment ∧ ∃ i, h.ann = some i ∧ h'.ann = some i ∧
      h'.doc.annotations = h.doc.annotations.modify i fun a => { a with comment := value }) ∨
    (tag ≠ .annotator ∧ tag ≠ .annotationDate ∧ tag ≠ .annotationType ∧ tag ≠ .spdxREF ∧ tag ≠ .annotationComment ∧
      h'.ann = h.ann ∧ h'.doc.annotations = h.doc.annotations) := by
  component H

theorem step_reviews (H : HeadStep v b tag value h h') :
    (tag = .reviewer ∧ ∃ k x, extractSubs g!":" value = .ok (k, x) ∧ isAgentKind k = true ∧
      h'.rev = some h.doc.reviews.length ∧
      h'.doc.reviews = h.doc.reviews ++ [{ reviewer := x, reviewerType := k }]) ∨
    (tag = .reviewDate ∧ ∃ i, h.rev = some i ∧ h'.rev = some i ∧
      h'.doc.reviews = h.doc.reviews.modify i fun a => { a with date := value }) ∨
    (tag = .reviewComment ∧ ∃ i, h.rev = some i ∧ h'.rev = some i ∧
      h'.doc.reviews = h.doc.reviews.modify i fun a => { a with comment := value }) ∨
    (tag ≠ .reviewer ∧ tag ≠ .reviewDate ∧ tag ≠ .reviewComment ∧ h'.rev = h.rev ∧ h'.doc.reviews = h.doc.reviews) := by
  component H

theorem step_licenses (H : HeadStep v b tag value h h') :
    (tag = .licenseID ∧ h'.lic = some h.doc.otherLicenses.length ∧
      h'.doc.otherLicenses = h.doc.otherLicenses ++ [{ licenseIdentifier := value }]) ∨
    (tag = .extractedText ∧ ∃ i, h.lic = some i ∧ h'.lic = some i ∧
      h'.doc.otherLicenses = h.doc.otherLicenses.modify i fun a => { a with extractedText := value }) ∨
    (tag = .licenseName ∧ ∃ i, h.lic = some i ∧ h'.lic = some i ∧
      h'.doc.otherLicenses = h.doc.otherLicenses.modify i fun a => { a with licenseName := value }) ∨
    (tag = .licenseCrossReference ∧ ∃ i, h.lic = some i ∧ h'.lic = some i ∧
      h'.doc.otherLicenses = h.doc.otherLicenses.modify i fun a => { a with crossReferences := a.crossReferences ++ [value] }) ∨
    (tag = .licenseComment ∧ ∃ i, h.lic = some i ∧ h'.lic = some i ∧
      h'.doc.otherLicenses = h.doc.otherLicenses.modify i fun a => { a with comment := value }) ∨
    (tag ≠ .licenseID ∧ tag ≠ .extractedText ∧ tag ≠ .licenseName ∧ tag ≠ .licenseCrossReference ∧ tag ≠ .licenseComment ∧
      h'.lic = h.lic ∧ h'.doc.otherLicenses = h.doc.otherLicenses) := by
  component H

end Components

/-! ## The invariant -/

/-- Equivalence of a tag and its name. -/
local macro "tagname" : tactic => `(tactic| exact ofStr_iff (by decide +kernel) (by decide) (by decide +kernel) _)

theorem tag_relationship (t : Str) : Tag.ofStr t = .relationship ↔ t = g!"Relationship" := by tagname
theorem tag_relationshipComment (t : Str) : Tag.ofStr t = .relationshipComment ↔ t = g!"RelationshipComment" := by tagname
theorem tag_annotator (t : Str) : Tag.ofStr t = .annotator ↔ t = g!"Annotator" := by tagname
theorem tag_annotationDate (t : Str) : Tag.ofStr t = .annotationDate ↔ t = g!"AnnotationDate" := by tagname
theorem tag_annotationType (t : Str) : Tag.ofStr t = .annotationType ↔ t = g!"AnnotationType" := by tagname
theorem tag_spdxREF (t : Str) : Tag.ofStr t = .spdxREF ↔ t = g!"SPDXREF" := by tagname
theorem tag_annotationComment (t : Str) : Tag.ofStr t = .annotationComment ↔ t = g!"AnnotationComment" := by tagname
theorem tag_reviewer (t : Str) : Tag.ofStr t = .reviewer ↔ t = g!"Reviewer" := by tagname
theorem tag_reviewDate (t : Str) : Tag.ofStr t = .reviewDate ↔ t = g!"ReviewDate" := by tagname
theorem tag_reviewComment (t : Str) : Tag.ofStr t = .reviewComment ↔ t = g!"ReviewComment" := by tagname
theorem tag_licenseID (t : Str) : Tag.ofStr t = .licenseID ↔ t = g!"LicenseID" := by tagname
theorem tag_extractedText (t : Str) : Tag.ofStr t = .extractedText ↔ t = g!"ExtractedText" := by tagname
theorem tag_licenseName (t : Str) : Tag.ofStr t = .licenseName ↔ t = g!"LicenseName" := by tagname
theorem tag_licenseCrossReference (t : Str) :
    Tag.ofStr t = .licenseCrossReference ↔ t = g!"LicenseCrossReference" := by tagname
theorem tag_licenseComment (t : Str) : Tag.ofStr t = .licenseComment ↔ t = g!"LicenseComment" := by tagname
theorem tag_documentComment (t : Str) : Tag.ofStr t = .documentComment ↔ t = g!"DocumentComment" := by tagname
theorem tag_spdxVersion (t : Str) : Tag.ofStr t = .spdxVersion ↔ t = g!"SPDXVersion" := by tagname
theorem tag_dataLicense (t : Str) : Tag.ofStr t = .dataLicense ↔ t = g!"DataLicense" := by tagname
theorem tag_documentName (t : Str) : Tag.ofStr t = .documentName ↔ t = g!"DocumentName" := by tagname
theorem tag_documentNamespace (t : Str) : Tag.ofStr t = .documentNamespace ↔ t = g!"DocumentNamespace" := by tagname
theorem tag_externalDocumentRef (t : Str) :
    Tag.ofStr t = .externalDocumentRef ↔ t = g!"ExternalDocumentRef" := by tagname
theorem tag_created (t : Str) : Tag.ofStr t = .created ↔ t = g!"Created" := by tagname
theorem tag_creator (t : Str) : Tag.ofStr t = .creator ↔ t = g!"Creator" := by tagname
theorem tag_creatorComment (t : Str) : Tag.ofStr t = .creatorComment ↔ t = g!"CreatorComment" := by tagname
theorem tag_licenseListVersion (t : Str) :
    Tag.ofStr t = .licenseListVersion ↔ t = g!"LicenseListVersion" := by tagname

/-- What the pairs read so far say, of a parser state. -/
structure Says (v : Version) (tvs : List TVPair) (s : Parser) : Prop where
  version : (head s).doc.spdxVersion = lastValue g!"SPDXVersion" tvs
  license : (head s).doc.dataLicense = lastValue g!"DataLicense" tvs
  name : (head s).doc.name = lastValue g!"DocumentName" tvs
  namespace_ : (head s).doc.namespace_ = lastValue g!"DocumentNamespace" tvs
  comment : (head s).doc.comment = lastValue g!"DocumentComment" tvs
  id : if values g!"SPDXID" (beforeSections tvs) = [] then (head s).doc.spdxId = []
    else IsId (head s).doc.spdxId ∧ lastValue g!"SPDXID" (beforeSections tvs) = g!"SPDXRef-" ++ (head s).doc.spdxId
  externals : Pointwise ExternalDocumentSays (values g!"ExternalDocumentRef" tvs) (head s).doc.externalDocumentRefs
  creation : ∃ c, (head s).doc.creationInfo = some c ∧ CreationSays tvs c
  relationships : Pointwise (RelationshipSays v) (groups g!"Relationship" tvs) (head s).doc.relationships ∧
    (head s).rln = lastIdx (head s).doc.relationships
  annotations : Pointwise AnnotationSays (groups g!"Annotator" tvs) (head s).doc.annotations ∧
    (head s).ann = lastIdx (head s).doc.annotations
  reviews : Pointwise ReviewSays (groups g!"Reviewer" tvs) (head s).doc.reviews ∧
    (head s).rev = lastIdx (head s).doc.reviews
  licenses : Pointwise LicenseSays (groups g!"LicenseID" tvs) (head s).doc.otherLicenses ∧
    (head s).lic = lastIdx (head s).doc.otherLicenses
  /-- Before the sections. -/
  early : s.st = .start ∨ s.st = .creationInfo → ∀ p ∈ tvs, p.tag ≠ g!"PackageName" ∧ p.tag ≠ g!"FileName"
  /-- Inside the sections. -/
  late : s.st = .package ∨ s.st = .file ∨ s.st = .snippet → ∃ p ∈ tvs, p.tag = g!"PackageName" ∨ p.tag = g!"FileName"
  noCreation : hasCI s = false → s.st = .start ∧ ∀ p ∈ tvs, p.tag ∈ headTags
  headOnly : (∀ p ∈ tvs, p.tag ∈ headTags) → s.st = .start ∧ hasCI s = false
  snippets : (head s).doc.snippets = []

theorem beforeSections_snoc (ps : List TVPair) (p : TVPair) : beforeSections (ps ++ [p]) =
    if ∀ q ∈ ps, q.tag ≠ g!"PackageName" ∧ q.tag ≠ g!"FileName" then
      ps ++ (if p.tag ≠ g!"PackageName" ∧ p.tag ≠ g!"FileName" then [p] else []) else beforeSections ps := by
  unfold beforeSections
  rw [takeWhile_snoc]
  by_cases h : ∀ q ∈ ps, q.tag ≠ g!"PackageName" ∧ q.tag ≠ g!"FileName"
  · rw [if_pos (by simpa using h), if_pos h]; simp
  · rw [if_neg (by simpa using h), if_neg h]

theorem beforeSections_all {ps : List TVPair} (h : ∀ q ∈ ps, q.tag ≠ g!"PackageName" ∧ q.tag ≠ g!"FileName") :
    beforeSections ps = ps := takeWhile_all (by simpa using h)

theorem says_id {v : Version} {tvs : List TVPair} {s s' : Parser} {p : TVPair} (hs : Says v tvs s)
    (h : parsePair v s p = .ok s') :
    if values g!"SPDXID" (beforeSections (tvs ++ [p])) = [] then (head s').doc.spdxId = []
    else IsId (head s').doc.spdxId ∧
      lastValue g!"SPDXID" (beforeSections (tvs ++ [p])) = g!"SPDXRef-" ++ (head s').doc.spdxId := by
  have e3 := (ofStr_header p.tag).2.2
  rcases step_docId (headStep_pair h) with ⟨ht, hb, e, he, hd⟩ | ⟨hn, hd⟩
  · have hst : s.st = .start := by simpa using hb
    have hp := e3.2 ht
    have hall := hs.early (Or.inl hst)
    have hb2 : beforeSections (tvs ++ [p]) = tvs ++ [p] := by
      rw [beforeSections_snoc, if_pos hall]; simp [hp]
    rw [hb2, values_snoc, lastValue_snoc, if_pos hp, if_pos hp]
    obtain ⟨h1, h2, h3⟩ := extractElementID_eq_ok.1 he
    rw [if_neg (by simp), hd]
    exact ⟨⟨h2, h3⟩, h1⟩
  · rw [hd]
    have hid := hs.id
    rw [beforeSections_snoc]
    split
    · rename_i hall
      rw [beforeSections_all hall] at hid
      split
      · have hp : p.tag ≠ g!"SPDXID" := by
          intro hp
          have ht := e3.1 hp
          rcases hn with hn | hn
          · exact hn ht
          · have hst : s.st ≠ .start := by simpa using hn
            have hno : ¬(s.st = .package ∨ s.st = .file ∨ s.st = .snippet) := by
              intro hh
              obtain ⟨q, hq, hq'⟩ := hs.late hh
              have := hall q hq
              rcases hq' with h' | h'
              · exact this.1 h'
              · exact this.2 h'
            unfold parsePair at h
            rw [ht] at h
            simp only at h
            split at h
            · simp_all
            · simp only [parseFromCreationInfo, parseShared] at h
              split at h <;> simp at h
            · simp_all
            · simp_all
            · simp_all
            · simp [parseFromOtherLicense, parseShared] at h
            · simp [parseFromReview, parseShared] at h
        rw [values_snoc, lastValue_snoc, if_neg hp, if_neg hp, List.append_nil]
        exact hid
      · rw [List.append_nil]; exact hid
    · exact hid

theorem says_relationships {v : Version} {tvs : List TVPair} {s s' : Parser} {p : TVPair} (hs : Says v tvs s)
    (h : parsePair v s p = .ok s') :
    Pointwise (RelationshipSays v) (groups g!"Relationship" (tvs ++ [p])) (head s').doc.relationships ∧
    (head s').rln = lastIdx (head s').doc.relationships := by
  obtain ⟨hp, hl⟩ := hs.relationships
  rw [groups_snoc]
  rcases step_relationships (headStep_pair h) with ⟨ht, r, hr, h1, h2⟩ | ⟨ht, i, hi, h1, h2⟩ | ⟨hn1, hn2, h1, h2⟩
  · rw [h1, h2, lastIdx_snoc, if_pos ((tag_relationship _).1 ht)]
    exact ⟨hp.snoc (relationshipSays_of hr), rfl⟩
  · have ht' := (tag_relationshipComment _).1 ht
    rw [h1, h2, lastIdx_modify, ← hl, hi, modify_lastIdx (hl ▸ hi), if_neg (by simp [ht'])]
    refine ⟨hp.modLast ?_, rfl⟩
    rintro g r ⟨hr, -⟩
    exact ⟨hr, by rw [lastValue_snoc, if_pos ht']⟩
  · have n1 : p.tag ≠ g!"Relationship" := fun hh => hn1 ((tag_relationship _).2 hh)
    have n2 : p.tag ≠ g!"RelationshipComment" := fun hh => hn2 ((tag_relationshipComment _).2 hh)
    rw [h1, h2, if_neg n1]
    refine ⟨hp.same ?_, hl⟩
    rintro g r ⟨hr, hc⟩
    exact ⟨hr, by rw [lastValue_snoc, if_neg n2]; exact hc⟩

theorem refs_keep {ps : List TVPair} {p : TVPair} {r : DocElementID} (hn : p.tag ≠ g!"SPDXREF")
    (h : if values g!"SPDXREF" ps = [] then r = {} else RefReads (lastValue g!"SPDXREF" ps) r) :
    if values g!"SPDXREF" (ps ++ [p]) = [] then r = {} else RefReads (lastValue g!"SPDXREF" (ps ++ [p])) r := by
  have hv : values g!"SPDXREF" (ps ++ [p]) = values g!"SPDXREF" ps := by rw [values_snoc, if_neg hn, List.append_nil]
  rw [lastValue_snoc, if_neg hn, hv]; exact h

theorem says_annotations {v : Version} {tvs : List TVPair} {s s' : Parser} {p : TVPair} (hs : Says v tvs s)
    (h : parsePair v s p = .ok s') :
    Pointwise AnnotationSays (groups g!"Annotator" (tvs ++ [p])) (head s').doc.annotations ∧
    (head s').ann = lastIdx (head s').doc.annotations := by
  obtain ⟨hp, hl⟩ := hs.annotations
  rw [groups_snoc]
  rcases step_annotations (headStep_pair h) with ⟨ht, r, hr, h1, h2⟩ | ⟨ht, i, hi, h1, h2⟩ | ⟨ht, i, hi, h1, h2⟩ |
    ⟨ht, i, e, hi, he, h1, h2⟩ | ⟨ht, i, hi, h1, h2⟩ | ⟨hn1, hn2, hn3, hn4, hn5, h1, h2⟩
  · rw [h1, h2, lastIdx_snoc, if_pos ((tag_annotator _).1 ht)]
    refine ⟨hp.snoc ⟨?_, rfl, rfl, rfl, ?_⟩, rfl⟩
    · unfold parseAnnotatorValue at hr
      rw [bind_eq_ok] at hr
      obtain ⟨⟨k, x⟩, hx, hr⟩ := hr
      simp only at hr
      split at hr
      · rename_i hk
        simp only [Res.ok.injEq] at hr; subst hr
        exact agentText_of hx hk
      · simp at hr
    · exact rfl
  · have ht' := (tag_annotationDate _).1 ht
    rw [h1, h2, lastIdx_modify, ← hl, hi, modify_lastIdx (hl ▸ hi), if_neg (by simp [ht'])]
    refine ⟨hp.modLast ?_, rfl⟩
    rintro g r ⟨a1, a2, a3, a4, a5⟩
    refine ⟨a1, ?_, ?_, ?_, ?_⟩
    · rw [lastValue_snoc, if_pos ht']
    · rw [lastValue_snoc, if_neg (by simp [ht'])]; exact a3
    · rw [lastValue_snoc, if_neg (by simp [ht'])]; exact a4
    · exact refs_keep (by simp [ht']) a5
  · have ht' := (tag_annotationType _).1 ht
    rw [h1, h2, lastIdx_modify, ← hl, hi, modify_lastIdx (hl ▸ hi), if_neg (by simp [ht'])]
    refine ⟨hp.modLast ?_, rfl⟩
    rintro g r ⟨a1, a2, a3, a4, a5⟩
    refine ⟨a1, ?_, ?_, ?_, ?_⟩
    · rw [lastValue_snoc, if_neg (by simp [ht'])]; exact a2
    · rw [lastValue_snoc, if_pos ht']
    · rw [lastValue_snoc, if_neg (by simp [ht'])]; exact a4
    · exact refs_keep (by simp [ht']) a5
  · have ht' := (tag_spdxREF _).1 ht
    rw [h1, h2, lastIdx_modify, ← hl, hi, modify_lastIdx (hl ▸ hi), if_neg (by simp [ht'])]
    refine ⟨hp.modLast ?_, rfl⟩
    rintro g r ⟨a1, a2, a3, a4, a5⟩
    refine ⟨a1, ?_, ?_, ?_, ?_⟩
    · rw [lastValue_snoc, if_neg (by simp [ht'])]; exact a2
    · rw [lastValue_snoc, if_neg (by simp [ht'])]; exact a3
    · rw [lastValue_snoc, if_neg (by simp [ht'])]; exact a4
    · rw [lastValue_snoc, if_neg (by rw [values_snoc, if_pos ht']; simp), if_pos ht']; exact refReads_of he
  · have ht' := (tag_annotationComment _).1 ht
    rw [h1, h2, lastIdx_modify, ← hl, hi, modify_lastIdx (hl ▸ hi), if_neg (by simp [ht'])]
    refine ⟨hp.modLast ?_, rfl⟩
    rintro g r ⟨a1, a2, a3, a4, a5⟩
    refine ⟨a1, ?_, ?_, ?_, ?_⟩
    · rw [lastValue_snoc, if_neg (by simp [ht'])]; exact a2
    · rw [lastValue_snoc, if_neg (by simp [ht'])]; exact a3
    · rw [lastValue_snoc, if_pos ht']
    · exact refs_keep (by simp [ht']) a5
  · rw [ne_eq, tag_annotator] at hn1; rw [ne_eq, tag_annotationDate] at hn2; rw [ne_eq, tag_annotationType] at hn3
    rw [ne_eq, tag_spdxREF] at hn4; rw [ne_eq, tag_annotationComment] at hn5
    rw [h1, h2, if_neg hn1]
    refine ⟨hp.same ?_, hl⟩
    rintro g r ⟨a1, a2, a3, a4, a5⟩
    refine ⟨a1, ?_, ?_, ?_, ?_⟩
    · rw [lastValue_snoc, if_neg hn2]; exact a2
    · rw [lastValue_snoc, if_neg hn3]; exact a3
    · rw [lastValue_snoc, if_neg hn5]; exact a4
    · exact refs_keep hn4 a5

theorem says_reviews {v : Version} {tvs : List TVPair} {s s' : Parser} {p : TVPair} (hs : Says v tvs s)
    (h : parsePair v s p = .ok s') :
    Pointwise ReviewSays (groups g!"Reviewer" (tvs ++ [p])) (head s').doc.reviews ∧
    (head s').rev = lastIdx (head s').doc.reviews := by
  obtain ⟨hp, hl⟩ := hs.reviews
  rw [groups_snoc]
  rcases step_reviews (headStep_pair h) with ⟨ht, k, x, hx, hk, h1, h2⟩ | ⟨ht, i, hi, h1, h2⟩ | ⟨ht, i, hi, h1, h2⟩ |
    ⟨hn1, hn2, hn3, h1, h2⟩
  · rw [h1, h2, lastIdx_snoc, if_pos ((tag_reviewer _).1 ht)]
    exact ⟨hp.snoc ⟨agentText_of hx hk, rfl, rfl⟩, rfl⟩
  · have ht' := (tag_reviewDate _).1 ht
    rw [h1, h2, lastIdx_modify, ← hl, hi, modify_lastIdx (hl ▸ hi), if_neg (by simp [ht'])]
    refine ⟨hp.modLast ?_, rfl⟩
    rintro g r ⟨a1, a2, a3⟩
    refine ⟨a1, ?_, ?_⟩
    · rw [lastValue_snoc, if_pos ht']
    · rw [lastValue_snoc, if_neg (by simp [ht'])]; exact a3
  · have ht' := (tag_reviewComment _).1 ht
    rw [h1, h2, lastIdx_modify, ← hl, hi, modify_lastIdx (hl ▸ hi), if_neg (by simp [ht'])]
    refine ⟨hp.modLast ?_, rfl⟩
    rintro g r ⟨a1, a2, a3⟩
    refine ⟨a1, ?_, ?_⟩
    · rw [lastValue_snoc, if_neg (by simp [ht'])]; exact a2
    · rw [lastValue_snoc, if_pos ht']
  · rw [ne_eq, tag_reviewer] at hn1; rw [ne_eq, tag_reviewDate] at hn2; rw [ne_eq, tag_reviewComment] at hn3
    rw [h1, h2, if_neg hn1]
    refine ⟨hp.same ?_, hl⟩
    rintro g r ⟨a1, a2, a3⟩
    refine ⟨a1, ?_, ?_⟩
    · rw [lastValue_snoc, if_neg hn2]; exact a2
    · rw [lastValue_snoc, if_neg hn3]; exact a3

theorem says_licenses {v : Version} {tvs : List TVPair} {s s' : Parser} {p : TVPair} (hs : Says v tvs s)
    (h : parsePair v s p = .ok s') :
    Pointwise LicenseSays (groups g!"LicenseID" (tvs ++ [p])) (head s').doc.otherLicenses ∧
    (head s').lic = lastIdx (head s').doc.otherLicenses := by
  obtain ⟨hp, hl⟩ := hs.licenses
  rw [groups_snoc]
  rcases step_licenses (headStep_pair h) with ⟨ht, h1, h2⟩ | ⟨ht, i, hi, h1, h2⟩ | ⟨ht, i, hi, h1, h2⟩ |
    ⟨ht, i, hi, h1, h2⟩ | ⟨ht, i, hi, h1, h2⟩ | ⟨hn1, hn2, hn3, hn4, hn5, h1, h2⟩
  · rw [h1, h2, lastIdx_snoc, if_pos ((tag_licenseID _).1 ht)]
    exact ⟨hp.snoc ⟨rfl, rfl, rfl, rfl, rfl⟩, rfl⟩
  · have ht' := (tag_extractedText _).1 ht
    rw [h1, h2, lastIdx_modify, ← hl, hi, modify_lastIdx (hl ▸ hi), if_neg (by simp [ht'])]
    refine ⟨hp.modLast ?_, rfl⟩
    rintro g r ⟨a1, a2, a3, a4, a5⟩
    refine ⟨a1, ?_, ?_, ?_, ?_⟩
    · rw [lastValue_snoc, if_pos ht']
    · rw [lastValue_snoc, if_neg (by simp [ht'])]; exact a3
    · rw [lastValue_snoc, if_neg (by simp [ht'])]; exact a4
    · rw [values_snoc, if_neg (by simp [ht']), List.append_nil]; exact a5
  · have ht' := (tag_licenseName _).1 ht
    rw [h1, h2, lastIdx_modify, ← hl, hi, modify_lastIdx (hl ▸ hi), if_neg (by simp [ht'])]
    refine ⟨hp.modLast ?_, rfl⟩
    rintro g r ⟨a1, a2, a3, a4, a5⟩
    refine ⟨a1, ?_, ?_, ?_, ?_⟩
    · rw [lastValue_snoc, if_neg (by simp [ht'])]; exact a2
    · rw [lastValue_snoc, if_pos ht']
    · rw [lastValue_snoc, if_neg (by simp [ht'])]; exact a4
    · rw [values_snoc, if_neg (by simp [ht']), List.append_nil]; exact a5
  · have ht' := (tag_licenseCrossReference _).1 ht
    rw [h1, h2, lastIdx_modify, ← hl, hi, modify_lastIdx (hl ▸ hi), if_neg (by simp [ht'])]
    refine ⟨hp.modLast ?_, rfl⟩
    rintro g r ⟨a1, a2, a3, a4, a5⟩
    refine ⟨a1, ?_, ?_, ?_, ?_⟩
    · rw [lastValue_snoc, if_neg (by simp [ht'])]; exact a2
    · rw [lastValue_snoc, if_neg (by simp [ht'])]; exact a3
    · rw [lastValue_snoc, if_neg (by simp [ht'])]; exact a4
    · rw [values_snoc, if_pos ht', ← a5]
  · have ht' := (tag_licenseComment _).1 ht
    rw [h1, h2, lastIdx_modify, ← hl, hi, modify_lastIdx (hl ▸ hi), if_neg (by simp [ht'])]
    refine ⟨hp.modLast ?_, rfl⟩
    rintro g r ⟨a1, a2, a3, a4, a5⟩
    refine ⟨a1, ?_, ?_, ?_, ?_⟩
    · rw [lastValue_snoc, if_neg (by simp [ht'])]; exact a2
    · rw [lastValue_snoc, if_neg (by simp [ht'])]; exact a3
    · rw [lastValue_snoc, if_pos ht']
    · rw [values_snoc, if_neg (by simp [ht']), List.append_nil]; exact a5
  · rw [ne_eq, tag_licenseID] at hn1; rw [ne_eq, tag_extractedText] at hn2; rw [ne_eq, tag_licenseName] at hn3
    rw [ne_eq, tag_licenseCrossReference] at hn4; rw [ne_eq, tag_licenseComment] at hn5
    rw [h1, h2, if_neg hn1]
    refine ⟨hp.same ?_, hl⟩
    rintro g r ⟨a1, a2, a3, a4, a5⟩
    refine ⟨a1, ?_, ?_, ?_, ?_⟩
    · rw [lastValue_snoc, if_neg hn2]; exact a2
    · rw [lastValue_snoc, if_neg hn3]; exact a3
    · rw [lastValue_snoc, if_neg hn5]; exact a4
    · rw [values_snoc, if_neg hn4, List.append_nil]; exact a5

theorem says_creation {v : Version} {tvs : List TVPair} {s s' : Parser} {p : TVPair} (hs : Says v tvs s)
    (h : parsePair v s p = .ok s') :
    ∃ c, (head s').doc.creationInfo = some c ∧ CreationSays (tvs ++ [p]) c := by
  obtain ⟨c, hc, a1, a2, a3, a4⟩ := hs.creation
  obtain ⟨c', hc', h1, h2, h3, h4⟩ := step_creation (headStep_pair h) hc
  refine ⟨c', hc', ?_, ?_, ?_, ?_⟩
  · rw [h1, lastValue_snoc, a1]; simp only [tag_created]
  · rw [h2, lastValue_snoc, a2]; simp only [tag_creatorComment]
  · rw [h3, lastValue_snoc, a3]; simp only [tag_licenseListVersion]
  · rw [values_snoc]
    rcases h4 with ⟨ht, k, x, hx, hk, h4⟩ | ⟨hn, h4⟩
    · rw [h4, if_pos ((tag_creator _).1 ht)]
      exact a4.snoc (agentText_of hx hk)
    · rw [ne_eq, tag_creator] at hn
      rw [h4, if_neg hn, List.append_nil]; exact a4

theorem headTags_of {t : Str} (h : Tag.ofStr t ∈ [Tag.documentComment, .spdxVersion, .dataLicense, .spdxID, .documentName,
    .documentNamespace, .externalDocumentRef]) : t ∈ headTags := by
  have e3 := (ofStr_header t).2.2
  simp only [List.mem_cons, List.not_mem_nil, or_false, tag_documentComment, tag_spdxVersion, tag_dataLicense, ← e3,
    tag_documentName, tag_documentNamespace, tag_externalDocumentRef] at h
  rcases h with h | h | h | h | h | h | h <;> rw [h] <;> decide

theorem of_headTags {t : Str} (h : t ∈ headTags) : Tag.ofStr t ∈ [Tag.documentComment, .spdxVersion, .dataLicense, .spdxID,
    .documentName, .documentNamespace, .externalDocumentRef] := by
  simp only [headTags, List.mem_cons, List.not_mem_nil, or_false] at h
  rcases h with h | h | h | h | h | h | h <;> rw [h] <;> decide +kernel

theorem says_step {v : Version} {tvs : List TVPair} {s s' : Parser} {p : TVPair} (hs : Says v tvs s)
    (h : parsePair v s p = .ok s') : Says v (tvs ++ [p]) s' := by
  have H := headStep_pair h
  obtain ⟨e1, e2, e3⟩ := ofStr_header p.tag
  refine ⟨?_, ?_, ?_, ?_, ?_, says_id hs h, ?_, says_creation hs h, says_relationships hs h, says_annotations hs h,
    says_reviews hs h, says_licenses hs h, ?_, ?_, ?_, ?_, (step_snippets H).trans hs.snippets⟩
  · rw [step_version H, lastValue_snoc, hs.version]; simp only [tag_spdxVersion]
  · rw [step_dataLicense H, lastValue_snoc, hs.license]; simp only [tag_dataLicense]
  · rw [step_docName H, lastValue_snoc, hs.name]; simp only [tag_documentName]
  · rw [step_namespace H, lastValue_snoc, hs.namespace_]; simp only [tag_documentNamespace]
  · rw [step_comment H, lastValue_snoc, hs.comment]; simp only [tag_documentComment]
  · rw [values_snoc]
    rcases step_externals H with ⟨ht, e, he, h1⟩ | ⟨hn, h1⟩
    · rw [h1, if_pos ((tag_externalDocumentRef _).1 ht)]
      exact hs.externals.snoc (edrSays_of he)
    · rw [ne_eq, tag_externalDocumentRef] at hn
      rw [h1, if_neg hn, List.append_nil]; exact hs.externals
  · intro hst q hq
    rcases st_pair h with ⟨-, hh⟩ | ⟨-, hh⟩ | ⟨n1, n2, hh⟩
    · rw [hh] at hst; simp at hst
    · rw [hh] at hst; simp at hst
    · have : s.st = .start ∨ s.st = .creationInfo := by
        rcases hh with hh | hh | hh | ⟨hh, -⟩ | ⟨hh, -⟩ | ⟨-, hh, -⟩
        · rw [hh] at hst; exact hst
        · rw [hh] at hst; simp at hst
        · rw [hh] at hst; simp at hst
        · exact Or.inl hh
        · exact Or.inr hh
        · rw [hh] at hst; simp at hst
      rcases List.mem_append.1 hq with hq | hq
      · exact hs.early this q hq
      · simp only [List.mem_singleton] at hq; subst hq
        exact ⟨fun hh => n1 (e1.1 hh), fun hh => n2 (e2.1 hh)⟩
  · intro hst
    rcases st_pair h with ⟨hh, -⟩ | ⟨hh, -⟩ | ⟨n1, n2, hh⟩
    · exact ⟨p, by simp, Or.inl (e1.2 hh)⟩
    · exact ⟨p, by simp, Or.inr (e2.2 hh)⟩
    · have : s.st = .package ∨ s.st = .file ∨ s.st = .snippet := by
        rcases hh with hh | hh | hh | ⟨-, hh⟩ | ⟨-, hh⟩ | ⟨hh, -⟩
        · rw [hh] at hst; exact hst
        · rw [hh] at hst; simp at hst
        · rw [hh] at hst; simp at hst
        · rw [hh] at hst; simp at hst
        · rw [hh] at hst; simp at hst
        · exact Or.inr (Or.inl hh)
      obtain ⟨q, hq, hq'⟩ := hs.late this
      exact ⟨q, by simp [hq], hq'⟩
  · intro hci
    have hs' : s.st ≠ .start → hasCI s = true := by
      intro hst
      cases hc : hasCI s with
      | true => rfl
      | false => exact absurd (hs.noCreation hc).1 hst
    rcases ci_pair h hs' with hh | ⟨hh, hst, ht⟩
    · rw [hh] at hci; simp at hci
    · refine ⟨hst, ?_⟩
      rw [hh] at hci
      intro q hq
      rcases List.mem_append.1 hq with hq | hq
      · exact (hs.noCreation hci).2 q hq
      · simp only [List.mem_singleton] at hq; subst hq
        exact headTags_of ht
  · intro hall
    obtain ⟨h1, h2⟩ := hs.headOnly fun q hq => hall q (by simp [hq])
    obtain ⟨h3, h4⟩ := ci_headPair h h1 (of_headTags (hall p (by simp)))
    exact ⟨h4, h3.trans h2⟩

theorem says_init (v : Version) : Says v [] {} where
  version := rfl
  license := rfl
  name := rfl
  namespace_ := rfl
  comment := rfl
  id := rfl
  externals := .nil
  creation := ⟨{}, rfl, rfl, rfl, rfl, .nil⟩
  relationships := ⟨.nil, rfl⟩
  annotations := ⟨.nil, rfl⟩
  reviews := ⟨.nil, rfl⟩
  licenses := ⟨.nil, rfl⟩
  early := by simp
  late := by simp
  noCreation := by simp
  headOnly := fun _ => ⟨rfl, rfl⟩
  snippets := rfl

theorem says_pairs {v : Version} {tvs ps : List TVPair} {s s' : Parser} (hs : Says v tvs s)
    (h : parsePairs v s ps = .ok s') : Says v (tvs ++ ps) s' := by
  induction ps generalizing s tvs with
  | nil => simp only [parsePairs, Res.ok.injEq] at h; subst h; simpa using hs
  | cons p ps ih =>
    simp only [parsePairs] at h
    split at h
    · rename_i s1 h1
      have := ih (says_step hs h1) h
      simpa using this
    · simp at h
    · simp at h

/-- What the pairs say about the document is what the parser returns. -/
theorem documentSays {v : Version} {tvs : List TVPair} {d : Doc} (h : parseTagValues v tvs = .ok (some d)) :
    DocumentSays v tvs d := by
  unfold parseTagValues at h
  rw [bind_eq_ok] at h
  obtain ⟨s, hs, h⟩ := h
  have H := says_pairs (says_init v) hs
  rw [List.nil_append] at H
  split at h
  · simp at h
  · split at h
    · simp at h
    · split at h
      · simp at h
      · rename_i d' hd
        split at h
        · rename_i doc hdoc
          simp only [Res.ok.injEq, Option.some.injEq] at h
          subst h
          simp only [derefDoc, Option.bind_eq_bind, Option.bind_eq_some_iff, Option.pure_def, Option.some.injEq] at hdoc
          obtain ⟨ps, -, fs, -, rfl⟩ := hdoc
          have hh : (head s).doc = headOf d' := by simp [head, hd]
          obtain ⟨a1, a2, a3, a4, a5, a6, a7, a8, a9, a10, a11, a12, -, -, a13, a14, a15⟩ := H
          rw [hh] at a1 a2 a3 a4 a5 a6 a7 a8 a9 a10 a11 a12 a15
          refine ⟨a1, a2, a6, a3, a4, a5, a7, ?_, ⟨?_, ?_⟩, a9.1, a10.1, a11.1, a12.1, a15⟩
          · intro c hc
            obtain ⟨c', h1, h2⟩ := a8
            simp only [headOf, Option.some.injEq] at h1
            simp only at hc
            rw [hc] at h1
            simp only [Option.getD_some] at h1
            rw [h1]; exact h2
          · intro hc
            simp only at hc
            exact (a13 (by simp [hasCI, hd, hc])).2
          · intro hall
            simpa [hasCI, hd] using (a14 hall).2
        · simp at h

end Verif
