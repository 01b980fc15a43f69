import Verif.Lemmas.LegalTrack

set_option linter.unusedSimpArgs false

/-!
# Legal texts are accepted, and no others
-/

namespace Verif
open Spec

theorem Spec.Pointwise.nil_iff {α β : Type} {R : α → β → Prop} {l : List α} {m : List β} (h : Pointwise R l m) :
    m = [] ↔ l = [] := by
  cases h <;> simp

theorem lastIdx_none {α : Type} {l : List α} : lastIdx l = none ↔ l = [] := by
  unfold lastIdx
  cases l <;> simp

theorem tracks_rln {v : Version} {a : List TVPair} {s : Parser} (h : Tracks v a s) :
    s.rln ≠ none ↔ ∃ q ∈ a, q.tag = g!"Relationship" := by
  obtain ⟨h1, h2⟩ := h.says.relationships
  have h2' : s.rln = lastIdx (head s).doc.relationships := h2
  rw [h2', ne_eq, lastIdx_none, h1.nil_iff, groups_eq_nil]
  simp

theorem tracks_ann {v : Version} {a : List TVPair} {s : Parser} (h : Tracks v a s) :
    s.ann ≠ none ↔ ∃ q ∈ a, q.tag = g!"Annotator" := by
  obtain ⟨h1, h2⟩ := h.says.annotations
  have h2' : s.ann = lastIdx (head s).doc.annotations := h2
  rw [h2', ne_eq, lastIdx_none, h1.nil_iff, groups_eq_nil]
  simp

theorem tags_ann (t : Str) : t ∈ [g!"AnnotationDate", g!"AnnotationType", g!"SPDXREF", g!"AnnotationComment"] ↔
    Tag.ofStr t ∈ [Tag.annotationDate, .annotationType, .spdxREF, .annotationComment] := by
  simp [tag_annotationDate, tag_annotationType, tag_spdxREF, tag_annotationComment]

theorem tags_artifact (t : Str) : t ∈ [g!"ArtifactOfProjectHomePage", g!"ArtifactOfProjectURI"] ↔
    Tag.ofStr t ∈ [Tag.artifactOfProjectHomePage, .artifactOfProjectURI] := by
  simp [tag_artifactOfProjectHomePage, tag_artifactOfProjectURI]

theorem tags_artifacts (t : Str) : t ∈ [g!"ArtifactOfProjectName", g!"ArtifactOfProjectHomePage", g!"ArtifactOfProjectURI"] ↔
    Tag.ofStr t = .artifactOfProjectName ∨ Tag.ofStr t = .artifactOfProjectHomePage ∨ Tag.ofStr t = .artifactOfProjectURI := by
  simp [tag_artifactOfProjectHomePage, tag_artifactOfProjectURI, tag_artifactOfProjectName]

/-- The order of the tags, as the state sees it. -/
theorem order_iff {v : Version} {a : List TVPair} {s : Parser} {t : Str} (h : Tracks v a s)
    (ht : Tag.ofStr t ∈ tagsT v (stPlace s.st)) :
    OrderLegal v a t ↔ OrdT s (Tag.ofStr t) ∧ HeadT v s (Tag.ofStr t) := by
  have hext := h.ext
  have haop := h.aop
  have hstart := h.start
  have key : OrderLegal v a t ↔
      ((Ahead s.st → Tag.ofStr t ∈ headT → Tag.ofStr t = .externalDocumentRef ∨
          (v ≠ .v21 ∧ Tag.ofStr t = .documentComment) ∨ s.st = .start) ∧
       (Tag.ofStr t = .relationshipComment → s.rln ≠ none) ∧
       (Tag.ofStr t ∈ [Tag.annotationDate, .annotationType, .spdxREF, .annotationComment] → s.ann ≠ none) ∧
       (Tag.ofStr t = .externalRefComment → ∃ q, a.getLast? = some q ∧ Tag.ofStr q.tag = .externalRef) ∧
       (Tag.ofStr t ∈ [Tag.artifactOfProjectHomePage, .artifactOfProjectURI] →
         ∃ q, a.getLast? = some q ∧ (Tag.ofStr q.tag = .artifactOfProjectName ∨
           Tag.ofStr q.tag = .artifactOfProjectHomePage ∨ Tag.ofStr q.tag = .artifactOfProjectURI))) := by
    rw [tracks_rln h, tracks_ann h, ← tags_ann, ← tags_artifact, tag_relationshipComment, tag_externalRefComment]
    simp only [← tags_artifacts, tag_externalRef, ← headTags_iff, tag_externalDocumentRef, tag_documentComment]
    have hs : (Ahead s.st → t ∈ headTags → t = g!"ExternalDocumentRef" ∨
          (v ≠ .v21 ∧ t = g!"DocumentComment") ∨ s.st = .start) ↔
        (placeOf a = .header → t ∈ headTags → t = g!"ExternalDocumentRef" ∨
          (v ≠ .v21 ∧ t = g!"DocumentComment") ∨ ∀ q, a.getLast? = some q → q.tag ∈ headTags) := by
      rw [← h.place, stPlace_header]
      refine imp_congr_right fun ha => ?_
      rw [hstart ha]
      simp only [headTags_iff]
    rw [hs]
    constructor
    · intro h; exact ⟨h.1, h.2, h.3, h.4, h.5⟩
    · rintro ⟨h1, h2, h3, h4, h5⟩; exact ⟨h1, h2, h3, h4, h5⟩
  rw [key]
  have hH : (Ahead s.st → Tag.ofStr t ∈ headT → Tag.ofStr t = .externalDocumentRef ∨
      (v ≠ .v21 ∧ Tag.ofStr t = .documentComment) ∨ s.st = .start) ↔ HeadT v s (Tag.ofStr t) := by
    unfold HeadT Ahead
    cases s.st <;> simp
  rw [hH]
  generalize Tag.ofStr t = tag at *
  cases tag
  case externalRefComment =>
    have : s.st = .package := by
      generalize s.st = st at ht
      cases v <;> cases st <;> simp [stPlace, tagsT, headT, sharedT] at ht <;> rfl
    rw [← hext this]
    simp [OrdT, and_comm]
  case artifactOfProjectHomePage =>
    have : s.st = .file := by
      generalize s.st = st at ht
      cases v <;> cases st <;> simp [stPlace, tagsT, headT, sharedT] at ht <;> rfl
    rw [← haop this]
    simp [OrdT, and_comm]
  case artifactOfProjectURI =>
    have : s.st = .file := by
      generalize s.st = st at ht
      cases v <;> cases st <;> simp [stPlace, tagsT, headT, sharedT] at ht <;> rfl
    rw [← haop this]
    simp [OrdT, and_comm]
  all_goals simp [OrdT, and_comm]

theorem tracks_doc {v : Version} {a : List TVPair} {s : Parser} (h : Tracks v a s) (hs : s.st ≠ .start) : s.doc ≠ none := by
  rcases h.inv with rfl | ⟨hc, -⟩
  · exact absurd rfl hs
  · obtain ⟨d, hd, -⟩ := hc.doc; simp [hd]

/-- Which pairs are accepted. -/
theorem accepts_iff {v : Version} {a : List TVPair} {s : Parser} {p : TVPair} (h : Tracks v a s) :
    (∃ s', parsePair v s p = .ok s') ↔ p.tag ∈ tagsAt v (placeOf a) ∧ OrderLegal v a p.tag ∧ ValueLegal v p ∧
      (¬inTail s → IdsT s (Tag.ofStr p.tag)) := by
  have hsafe := safe_pair (p := p) h.inv
  have e1 : (∃ s', parsePair v s p = .ok s') ↔ parsePair v s p ≠ .err := by
    cases hr : parsePair v s p with
    | ok s' => simp
    | err => simp
    | panic => rw [hr] at hsafe; exact absurd hsafe (by simp [Safe])
  rw [e1, pair_legal (tracks_doc h) ?_ ?_ ?_ ?_, tagsAt_iff, ← h.place, valueLegal_iff]
  · constructor
    · rintro ⟨h1, h2, h3, h4, h5⟩; exact ⟨h1, (order_iff h h1).2 ⟨h3, h4⟩, h2, h5⟩
    · rintro ⟨h1, h3, h2, h5⟩
      obtain ⟨h3, h4⟩ := (order_iff h h1).1 h3
      exact ⟨h1, h2, h3, h4, h5⟩
  · intro ha
    obtain ⟨z, hz⟩ := h.zone (by rcases ha with e | e <;> simp [inTail, e])
    exact ⟨hz.tree.file.2 (hz.ahead ha).2, hz.tree.pkg.2 (hz.ahead ha).1⟩
  · intro hs
    obtain ⟨z, hz⟩ := h.zone (by simp [inTail, hs])
    have zone := hz.zone
    unfold ZoneOK at zone; rw [show (seen s).st = .package from hs] at zone
    exact ⟨hz.tree.file.2 zone.2, fun e => zone.1 (hz.tree.pkg.1 e)⟩
  · intro hs
    obtain ⟨z, hz⟩ := h.zone (by simp [inTail, hs])
    have zone := hz.zone
    unfold ZoneOK at zone; rw [show (seen s).st = .snippet from hs] at zone
    rw [hz.tree.fileLacks]
    obtain ⟨f, z1, -, z2, -⟩ := zone
    intro f' hf'
    rw [z1] at hf'; simp at hf'; subst hf'; exact z2
  · intro ht
    obtain ⟨z, hz⟩ := h.zone ht
    exact hz.tree.named

/-! ## The rest of a text -/

/-- The identifiers that are missing follow in their own sections. -/
structure Pending (s : Parser) (b : List TVPair) : Prop where
  file : s.fileLacksId = true → s.st = .file ∧ ∃ q ∈ ownPairs b, q.tag = g!"SPDXID"
  pkg : s.pkgLacksId = true → s.st = .package ∧ ∃ q ∈ ownPairs b, q.tag = g!"SPDXID"

/-- The pairs `b` are legal behind the pairs `a`. -/
def LegalRest (v : Version) (a b : List TVPair) : Prop := ∀ a' p b', b = a' ++ p :: b' → PairLegal v (a ++ a') p b'

theorem legalRest_nil (v : Version) (a : List TVPair) : LegalRest v a [] := by
  intro a' p b' h; simp at h

theorem legalRest_cons (v : Version) (a : List TVPair) (p : TVPair) (b : List TVPair) :
    LegalRest v a (p :: b) ↔ PairLegal v a p b ∧ LegalRest v (a ++ [p]) b := by
  constructor
  · intro h
    refine ⟨by simpa using h [] p b rfl, fun a' q b' e => ?_⟩
    have := h (p :: a') q b' (by simp [e])
    simpa using this
  · rintro ⟨h1, h2⟩ a' q b' e
    cases a' with
    | nil => simp at e; obtain ⟨rfl, rfl⟩ := e; simpa using h1
    | cons x a' =>
      simp at e
      obtain ⟨rfl, e⟩ := e
      have := h2 a' q b' e
      simpa using this

theorem own_opens {p : TVPair} {b : List TVPair} (h : opens p.tag ≠ none) : ownPairs (p :: b) = [] := by
  simp [ownPairs, h]

theorem own_cons {p : TVPair} {b : List TVPair} (h : opens p.tag = none) : ownPairs (p :: b) = p :: ownPairs b := by
  simp [ownPairs, h]

/-- The rest of a text is accepted. -/
def Accepts (v : Version) (s : Parser) (b : List TVPair) : Prop :=
  ∃ s', parsePairs v s b = .ok s' ∧ s'.fileLacksId = false ∧ s'.pkgLacksId = false

theorem accepts_cons (v : Version) (s : Parser) (p : TVPair) (b : List TVPair) :
    Accepts v s (p :: b) ↔ ∃ s1, parsePair v s p = .ok s1 ∧ Accepts v s1 b := by
  unfold Accepts
  simp only [parsePairs]
  cases h : parsePair v s p <;> simp

theorem opens_tag (t : Str) (h : opens t ≠ none) : Tag.ofStr t = .packageName ∨ Tag.ofStr t = .fileName ∨
    Tag.ofStr t = .snippetSPDXID ∨ Tag.ofStr t = .licenseID ∨ Tag.ofStr t = .reviewer := by
  rw [opens_iff] at h
  generalize Tag.ofStr t = tag at *
  cases tag <;> simp_all

theorem legal_rest {v : Version} {b : List TVPair} : ∀ {a : List TVPair} {s : Parser}, Tracks v a s →
    (∀ p ∈ b, p.tag = g!"PackageName" → p.value ≠ []) → (Accepts v s b ↔ LegalRest v a b ∧ Pending s b) := by
  induction b with
  | nil =>
    intro a s h _
    simp only [Accepts, parsePairs, Res.ok.injEq, exists_eq_left', legalRest_nil, true_and]
    constructor
    · rintro ⟨h1, h2⟩; exact ⟨by simp [h1], by simp [h2]⟩
    · rintro ⟨h1, h2⟩
      refine ⟨?_, ?_⟩
      · cases hl : s.fileLacksId with
        | false => rfl
        | true => obtain ⟨-, q, hq, -⟩ := h1 hl; simp [ownPairs] at hq
      · cases hl : s.pkgLacksId with
        | false => rfl
        | true => obtain ⟨-, q, hq, -⟩ := h2 hl; simp [ownPairs] at hq
  | cons p b ih =>
    intro a s h hn
    rw [accepts_cons, legalRest_cons]
    have hn' : ∀ q ∈ b, q.tag = g!"PackageName" → q.value ≠ [] := fun q hq => hn q (by simp [hq])
    constructor
    · rintro ⟨s1, h1, hacc⟩
      obtain ⟨ht, hm⟩ := tracks_step h1 h (hn p (by simp))
      obtain ⟨hl, hp⟩ := (ih ht hn').1 hacc
      obtain ⟨c1, c2, c3, c4⟩ := (accepts_iff h).1 ⟨s1, h1⟩
      refine ⟨⟨⟨c1, c2, c3, ?_⟩, hl⟩, ?_⟩
      · rintro (e | e)
        · exact (hp.pkg (hm.pkg.2 (Or.inl ((tag_packageName _).2 e)))).2
        · exact (hp.file (hm.file.2 (Or.inl ((tag_fileName _).2 e)))).2
      · have hplace : stPlace s1.st = (opens p.tag).getD (stPlace s.st) := by
          rw [ht.place, placeOf_snoc, h.place]
        refine ⟨?_, ?_⟩
        · intro hlack
          by_cases ho : opens p.tag = none
          · rw [ho] at hplace
            obtain ⟨n1, n2, -⟩ := opens_none.1 ho
            rw [own_cons ho]
            by_cases hid : s.st = .file ∧ Tag.ofStr p.tag = .spdxID
            · exact ⟨hid.1, p, by simp, (tag_spdxID _).1 hid.2⟩
            · obtain ⟨e1, q, hq, hq'⟩ := hp.file (hm.file.2 (Or.inr ⟨n1, hlack, hid⟩))
              refine ⟨?_, q, by simp [hq], hq'⟩
              rw [e1] at hplace
              exact stPlace_file.1 hplace.symm
          · exfalso
            rcases opens_tag _ ho with e | e | e | e | e
            · by_cases hti : inTail s
              · have := (pair_tail h1 (Or.inr (Or.inr hti))).2
                rw [opens_iff, e] at hplace
                rcases this with e' | e' <;> rw [e'] at hplace <;> simp [stPlace] at hplace
              · have := c4 hti
                rw [e] at this
                have := this.1; rw [hlack] at this; simp at this
            · by_cases hti : inTail s
              · have := (pair_tail h1 (Or.inr (Or.inr hti))).2
                rw [opens_iff, e] at hplace
                rcases this with e' | e' <;> rw [e'] at hplace <;> simp [stPlace] at hplace
              · have := c4 hti
                rw [e] at this
                have : s.fileLacksId = false := this
                rw [hlack] at this; simp at this
            · by_cases hti : inTail s
              · have := (pair_tail h1 (Or.inr (Or.inr hti))).2
                rw [opens_iff, e] at hplace
                rcases this with e' | e' <;> rw [e'] at hplace <;> simp [stPlace] at hplace
              · have := c4 hti
                rw [e] at this
                have : s.fileLacksId = false := this
                rw [hlack] at this; simp at this
            · have := (hp.file (hm.file.2 (Or.inr ⟨by simp [e], hlack, by simp [e]⟩))).1
              rw [st_opensLicense h1 e] at this; simp at this
            · have := (hp.file (hm.file.2 (Or.inr ⟨by simp [e], hlack, by simp [e]⟩))).1
              rw [st_opensReview h1 e] at this; simp at this
        · intro hlack
          by_cases ho : opens p.tag = none
          · rw [ho] at hplace
            rw [own_cons ho]
            by_cases hid : s.st = .package ∧ Tag.ofStr p.tag = .spdxID
            · exact ⟨hid.1, p, by simp, (tag_spdxID _).1 hid.2⟩
            · obtain ⟨e1, q, hq, hq'⟩ := hp.pkg (hm.pkg.2 (Or.inr ⟨hlack, hid⟩))
              refine ⟨?_, q, by simp [hq], hq'⟩
              rw [e1] at hplace
              exact stPlace_package.1 hplace.symm
          · exfalso
            rcases opens_tag _ ho with e | e
            · by_cases hti : inTail s
              · have := (pair_tail h1 (Or.inr (Or.inr hti))).2
                rw [opens_iff, e] at hplace
                rcases this with e' | e' <;> rw [e'] at hplace <;> simp [stPlace] at hplace
              · have := c4 hti
                rw [e] at this
                have := this.2; rw [hlack] at this; simp at this
            · have hs1 := (hp.pkg (hm.pkg.2 (Or.inr ⟨hlack, by rcases e with e | e | e | e <;> simp [e]⟩))).1
              rw [hs1, opens_iff] at hplace
              rcases e with e | e | e | e <;> rw [e] at hplace <;> simp [stPlace] at hplace
    · rintro ⟨⟨hl, hrest⟩, hp⟩
      have hids : IdsT s (Tag.ofStr p.tag) := by
        have no : opens p.tag ≠ none → s.fileLacksId = false ∧ s.pkgLacksId = false := by
          intro ho
          refine ⟨?_, ?_⟩
          · cases hc : s.fileLacksId with
            | false => rfl
            | true => obtain ⟨-, q, hq, -⟩ := hp.file hc; rw [own_opens ho] at hq; simp at hq
          · cases hc : s.pkgLacksId with
            | false => rfl
            | true => obtain ⟨-, q, hq, -⟩ := hp.pkg hc; rw [own_opens ho] at hq; simp at hq
        rw [opens_iff] at no
        unfold IdsT
        generalize Tag.ofStr p.tag = tag at *
        cases tag <;> simp at no ⊢ <;> first | exact no.1 | exact no
      obtain ⟨s1, h1⟩ := (accepts_iff h).2 ⟨hl.tag, hl.order, hl.value, fun _ => hids⟩
      obtain ⟨ht, hm⟩ := tracks_step h1 h (hn p (by simp))
      refine ⟨s1, h1, (ih ht hn').2 ⟨hrest, ?_⟩⟩
      have hplace : stPlace s1.st = (opens p.tag).getD (stPlace s.st) := by
        rw [ht.place, placeOf_snoc, h.place]
      refine ⟨?_, ?_⟩
      · intro hlack
        rcases hm.file.1 hlack with e | ⟨e1, e2, e3⟩
        · refine ⟨?_, hl.id (Or.inr ((tag_fileName _).1 e))⟩
          rw [opens_iff, e] at hplace
          exact stPlace_file.1 hplace
        · obtain ⟨k1, q, hq, hq'⟩ := hp.file e2
          by_cases ho : opens p.tag = none
          · rw [own_cons ho] at hq
            rw [ho, k1] at hplace
            refine ⟨stPlace_file.1 hplace, ?_⟩
            rcases List.mem_cons.1 hq with rfl | hq
            · exact absurd ⟨k1, (tag_spdxID _).2 hq'⟩ e3
            · exact ⟨q, hq, hq'⟩
          · rw [own_opens ho] at hq; simp at hq
      · intro hlack
        rcases hm.pkg.1 hlack with e | ⟨e2, e3⟩
        · refine ⟨?_, hl.id (Or.inl ((tag_packageName _).1 e))⟩
          rw [opens_iff, e] at hplace
          exact stPlace_package.1 hplace
        · obtain ⟨k1, q, hq, hq'⟩ := hp.pkg e2
          by_cases ho : opens p.tag = none
          · rw [own_cons ho] at hq
            rw [ho, k1] at hplace
            refine ⟨stPlace_package.1 hplace, ?_⟩
            rcases List.mem_cons.1 hq with rfl | hq
            · exact absurd ⟨k1, (tag_spdxID _).2 hq'⟩ e3
            · exact ⟨q, hq, hq'⟩
          · rw [own_opens ho] at hq; simp at hq

end Verif
