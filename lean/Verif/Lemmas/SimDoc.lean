import Verif.Lemmas.SimBlocks

set_option linter.unusedSimpArgs false

/-!
# Parsing the document-level fields and the final groups
-/

namespace Verif
open Spec

attribute [ext] Document CreationInfo OtherLicense Relationship Annotation Review

/-! ## The start section -/

/-- The parser is in the start section with the document `d`. -/
def AtStart (d : HDoc) (s : Parser) : Prop := s = { doc := some d } ∨ (s = {} ∧ d = {})

theorem start_eq {d : HDoc} {s : Parser} (h : AtStart d s) : s.st = .start ∧ ensureDoc s = { doc := some d } := by
  rcases h with rfl | ⟨rfl, rfl⟩ <;> exact ⟨rfl, rfl⟩

theorem start_step {v : Version} {t x : Str} {tag : Tag} {g : HDoc → HDoc} (ht : Tag.ofStr t = tag)
    (h : ∀ s, parseStartTags s tag x = some (s.modDoc g)) : FSteps v AtStart [⟨t, x⟩] g := by
  apply FSteps.single
  intro d s hs
  obtain ⟨h1, h2⟩ := start_eq hs
  refine ⟨{ doc := some (g d) }, ?_, .inl rfl⟩
  simp only [parsePair, ht, h1, parseFromStart, h2, h, Parser.modDoc]

/-- Optional one-line or text field of the document. -/
macro "start_opt" t:term : tactic => `(tactic|
  (first | apply FSteps.opt | apply FSteps.optText
   · rintro hx a; rw [hx]; rfl
   · intro hx
     refine (start_step (tag := $t) (by decide +kernel) (fun _ => rfl)).congr ?_
     intro a; rw [pick_of_ne hx]))

theorem header_fields {v : Version} {so : Sorter} {x : Doc} (h : Representable v x) :
    ∃ s', parsePairs v {} (pairsOf (renderHeader so x)) = .ok s' ∧
      AtStart { spdxVersion := x.spdxVersion, dataLicense := x.dataLicense, spdxId := x.spdxId, name := x.name,
                namespace_ := x.namespace_, comment := x.comment,
                externalDocumentRefs := so.run (·.documentRefID) x.externalDocumentRefs } s' := by
  have h1 : FSteps v AtStart (pairsOf (opt g!"SPDXVersion" x.spdxVersion))
      (fun a => { a with spdxVersion := pick x.spdxVersion a.spdxVersion }) := by
    start_opt .spdxVersion
  have h2 : FSteps v AtStart (pairsOf (opt g!"DataLicense" x.dataLicense))
      (fun a => { a with dataLicense := pick x.dataLicense a.dataLicense }) := by
    start_opt .dataLicense
  have h3 : FSteps v AtStart (pairsOf (optId g!"SPDXID" x.spdxId))
      (fun a => { a with spdxId := pick x.spdxId a.spdxId }) := by
    unfold optId
    split
    · rename_i hx; exact FSteps.nil.congr (fun a => by rw [hx]; rfl)
    · rename_i hx
      have hi : Ident x.spdxId := h.spdxId.resolve_left hx
      refine (start_step (tag := .spdxID) (g := fun a => { a with spdxId := x.spdxId }) (by decide +kernel)
        (fun s => ?_)).congr (fun a => by rw [pick_of_ne hx])
      simp [parseStartTags, extractElementID_rep hi]
  have h4 : FSteps v AtStart (pairsOf (opt g!"DocumentName" x.name))
      (fun a => { a with name := pick x.name a.name }) := by
    start_opt .documentName
  have h5 : FSteps v AtStart (pairsOf (opt g!"DocumentNamespace" x.namespace_))
      (fun a => { a with namespace_ := pick x.namespace_ a.namespace_ }) := by
    start_opt .documentNamespace
  have h6 : FSteps v AtStart (pairsOf ((so.run (·.documentRefID) x.externalDocumentRefs).flatMap renderExternalDocRef))
      (fun a => { a with externalDocumentRefs :=
        a.externalDocumentRefs ++ so.run (·.documentRefID) x.externalDocumentRefs }) := by
    refine (FSteps.list (F := fun r a => { a with externalDocumentRefs := a.externalDocumentRefs ++ [r] }) ?_).congr ?_
    · intro r hr
      have hrep := h.externalDocumentRefs r ((so.mem _ _ _).1 hr)
      have hv := extractEDR_text hrep
      unfold renderExternalDocRef
      generalize g!"DocumentRef-" ++ r.documentRefID ++ g!" " ++ r.uri ++ g!" " ++
        r.checksum.algorithm ++ g!":" ++ r.checksum.value = val at hv ⊢
      refine start_step (tag := .externalDocumentRef) (by decide +kernel) (fun s => ?_)
      simp [parseStartTags, hv]
    · fold_append (so.run (·.documentRefID) x.externalDocumentRefs)
  have h7 : FSteps v AtStart (pairsOf (optText g!"DocumentComment" x.comment))
      (fun a => { a with comment := pick x.comment a.comment }) := by
    start_opt .documentComment
  have hall := (((((h1.items h2).items h3).items h4).items h5).items h6).items h7
  obtain ⟨s', e, a⟩ := hall {} {} (.inr ⟨rfl, rfl⟩)
  refine ⟨s', e, ?_⟩
  have hx : ∀ y z, y = z → AtStart y s' → AtStart z s' := by rintro y _ rfl h; exact h
  refine hx _ _ ?_ a
  ext1 <;> first | rfl | exact pick_nil _ | exact List.nil_append _

/-! ## The creation info section -/

/-- The parser has read the creation info `c`, or nothing of it. -/
def AtCI (d0 : HDoc) (c : CreationInfo) (s : Parser) : Prop :=
  s = { doc := some { d0 with creationInfo := some c }, st := .creationInfo } ∨ (c = {} ∧ AtStart d0 s)

theorem ci_step {v : Version} {d0 : HDoc} {t x : Str} {tag : Tag} {g : CreationInfo → CreationInfo}
    (hd : d0.creationInfo = none) (ht : Tag.ofStr t = tag) (h0 : ∀ s, parseStartTags s tag x = none)
    (h : ∀ s d, s.doc = some d → parseFromCreationInfo v s tag x = modCI (ensureCI s d) g) :
    FSteps v (AtCI d0) [⟨t, x⟩] g := by
  apply FSteps.single
  intro c s hs
  refine ⟨{ doc := some { d0 with creationInfo := some (g c) }, st := .creationInfo }, ?_, .inl rfl⟩
  rcases hs with rfl | ⟨rfl, hs⟩
  · simp only [parsePair, ht]
    rw [h _ { d0 with creationInfo := some c } rfl]
    simp [ensureCI, modCI]
  · obtain ⟨h1, h2⟩ := start_eq hs
    simp only [parsePair, ht, h1, parseFromStart, h2, h0]
    rw [h _ d0 rfl]
    simp [ensureCI, hd, modCI]

theorem ci_fields {v : Version} {d0 : HDoc} {x : CreationInfo} (h : RepCreationInfo x) (hd : d0.creationInfo = none)
    (s : Parser) (hs : AtStart d0 s) :
    parsePairs v s (pairsOf (renderCreationInfo x)) =
      .ok { doc := some { d0 with creationInfo := some x }, st := .creationInfo } := by
  have h1 : FSteps v (AtCI d0) (pairsOf (opt g!"LicenseListVersion" x.licenseListVersion))
      (fun a => { a with licenseListVersion := pick x.licenseListVersion a.licenseListVersion }) := by
    apply FSteps.opt
    · rintro hx a; rw [hx]; rfl
    · intro hx
      refine (ci_step (tag := .licenseListVersion) hd (by decide +kernel) (fun _ => rfl)
        (g := fun a => { a with licenseListVersion := x.licenseListVersion }) (fun s d hs => ?_)).congr ?_
      · simp only [parseFromCreationInfo, hs]
      · intro a; rw [pick_of_ne hx]
  have h2 : FSteps v (AtCI d0)
      (pairsOf (x.creators.map fun y => .field g!"Creator" (pairValue y.creatorType y.creator)))
      (fun a => { a with creators := a.creators ++ x.creators }) := by
    have e : (x.creators.map fun y => Item.field g!"Creator" (pairValue y.creatorType y.creator)) =
        x.creators.flatMap fun y => [.field g!"Creator" (pairValue y.creatorType y.creator)] := by
      induction x.creators <;> simp_all
    rw [e]
    refine (FSteps.list (F := fun r a => { a with creators := a.creators ++ [r] }) ?_).congr ?_
    · intro r hr
      obtain ⟨k1, k2⟩ := extractSubs_agent (h.creators r hr)
      refine ci_step (tag := .creator) hd (by decide +kernel) (fun _ => rfl) (fun s d hs => ?_)
      simp [parseFromCreationInfo, hs, k1, k2]
    · fold_append x.creators
  have h3 : FSteps v (AtCI d0) (pairsOf (opt g!"Created" x.created))
      (fun a => { a with created := pick x.created a.created }) := by
    apply FSteps.opt
    · rintro hx a; rw [hx]; rfl
    · intro hx
      refine (ci_step (tag := .created) hd (by decide +kernel) (fun _ => rfl)
        (g := fun a => { a with created := x.created }) (fun s d hs => ?_)).congr ?_
      · simp only [parseFromCreationInfo, hs]
      · intro a; rw [pick_of_ne hx]
  have h4 : FSteps v (AtCI d0) (pairsOf (optText g!"CreatorComment" x.creatorComment))
      (fun a => { a with creatorComment := pick x.creatorComment a.creatorComment }) := by
    apply FSteps.optText
    · rintro hx a; rw [hx]; rfl
    · intro hx
      refine (ci_step (tag := .creatorComment) hd (by decide +kernel) (fun _ => rfl)
        (g := fun a => { a with creatorComment := x.creatorComment }) (fun s d hs => ?_)).congr ?_
      · simp only [parseFromCreationInfo, hs]
      · intro a; rw [pick_of_ne hx]
  have hall := (((h1.items h2).items h3).items h4).items FSteps.blank
  obtain ⟨s', e, a⟩ := hall {} s (.inr ⟨rfl, hs⟩)
  have hx : ∀ y, y = x → AtCI d0 y s' → AtCI d0 x s' := by rintro y rfl h; exact h
  have a' := hx _ (by ext1 <;> first | rfl | exact pick_nil _ | exact List.nil_append _) a
  rcases a' with rfl | ⟨h0, -⟩
  · exact e
  · exact absurd h0 h.notEmpty

/-! ## The groups after the packages -/

/-- The parser is past the start section and its document is `D`; everything the heaps hold is as in
`s0`. -/
def AtTail (s0 : Parser) (D : HDoc) (s : Parser) : Prop :=
  ∃ st er aop ol rl an rv, st ≠ .start ∧
    s = { s0 with
      doc := some D, st := st, pkgExtRef := er, fileAOP := aop, otherLic := ol, rln := rl, ann := an, rev := rv }

/-- The same, and not yet in the review section. -/
def AtTail' (s0 : Parser) (D : HDoc) (s : Parser) : Prop := AtTail s0 D s ∧ s.st ≠ .review

/-- The tags all sections treat alike. -/
def isShared : Tag → Bool
  | .relationship | .relationshipComment | .annotator | .annotationDate | .annotationType | .spdxREF
  | .annotationComment => true
  | _ => false

theorem shared_step {v : Version} {s : Parser} {d : HDoc} {c : CreationInfo} {t x : Str} {tag : Tag}
    (ht : Tag.ofStr t = tag) (hs : isShared tag = true) (hd : s.doc = some d) (hc : d.creationInfo = some c)
    (hst : s.st ≠ .start) :
    ∃ er aop, parsePair v s ⟨t, x⟩ = parseShared v { s with pkgExtRef := er, fileAOP := aop } tag x := by
  obtain ⟨doc, st, pkg, er, file, aop, snip, ol, rln, ann, rev, pkgs, files, snips⟩ := s
  simp only at hd hst
  subst hd
  cases st with
  | start => exact absurd rfl hst
  | creationInfo =>
    refine ⟨er, aop, ?_⟩
    cases tag <;> simp [isShared] at hs <;>
      simp [parsePair, ht, parseFromCreationInfo, ensureCI, hc, parseShared]
  | package =>
    refine ⟨none, aop, ?_⟩
    cases tag <;> simp [isShared] at hs <;> simp [parsePair, ht, parseFromPackage, parseShared]
  | file =>
    refine ⟨er, none, ?_⟩
    cases tag <;> simp [isShared] at hs <;> simp [parsePair, ht, parseFromFile, parseShared]
  | snippet =>
    refine ⟨er, aop, ?_⟩
    cases tag <;> simp [isShared] at hs <;> simp [parsePair, ht, parseFromSnippet, parseShared]
  | otherLicense =>
    refine ⟨er, aop, ?_⟩
    cases tag <;> simp [isShared] at hs <;> simp [parsePair, ht, parseFromOtherLicense, parseShared]
  | review =>
    refine ⟨er, aop, ?_⟩
    cases tag <;> simp [isShared] at hs <;> simp [parsePair, ht, parseFromReview, parseShared]

/-! ### Other licenses -/

/-- The parser is in the other license section; the last license is `l`. -/
def AtLic (s0 : Parser) (D : HDoc) (l : OtherLicense) (s : Parser) : Prop :=
  ∃ er aop rl an rv, s = { s0 with
      doc := some { D with otherLicenses := D.otherLicenses ++ [l] }, st := .otherLicense,
      otherLic := some D.otherLicenses.length, pkgExtRef := er, fileAOP := aop, rln := rl, ann := an, rev := rv }

theorem lic_step {v : Version} {s0 : Parser} {D : HDoc} {t x : Str} {tag : Tag} {g : OtherLicense → OtherLicense}
    (ht : Tag.ofStr t = tag) (h : ∀ s, parseFromOtherLicense v s tag x = modLic s g) :
    FSteps v (AtLic s0 D) [⟨t, x⟩] g := by
  apply FSteps.single
  rintro l s ⟨er, aop, rl, an, rv, rfl⟩
  refine ⟨_, ?_, ⟨er, aop, rl, an, rv, rfl⟩⟩
  simp only [parsePair, ht, h, modLic, Parser.modDoc, modify_last]

/-- Optional one-line or text field of a license. -/
macro "lic_opt" t:term : tactic => `(tactic|
  (first | apply FSteps.opt | apply FSteps.optText
   · rintro hx a; rw [hx]; rfl
   · intro hx
     refine (lic_step (tag := $t) (by decide +kernel) (fun _ => rfl)).congr ?_
     intro a; rw [pick_of_ne hx]))

theorem lic_block {v : Version} {c : CreationInfo} {s0 s : Parser} {D : HDoc} {x : OtherLicense}
    (hc : D.creationInfo = some c) (h : RepOtherLicense x) (hs : AtTail' s0 D s) :
    ∃ s', parsePairs v s (pairsOf (renderOtherLicense x)) = .ok s' ∧
      AtTail' s0 { D with otherLicenses := D.otherLicenses ++ [x] } s' := by
  have ht : Tag.ofStr g!"LicenseID" = .licenseID := by decide +kernel
  have h0 : ∃ s', parsePair v s ⟨g!"LicenseID", x.licenseIdentifier⟩ = .ok s' ∧
      AtLic s0 D { licenseIdentifier := x.licenseIdentifier } s' := by
    obtain ⟨⟨st, er, aop, ol, rl, an, rv, hst, rfl⟩, hrev⟩ := hs
    cases st with
    | start => exact absurd rfl hst
    | review => exact absurd rfl hrev
    | creationInfo =>
      exact ⟨_, by simp only [parsePair, ht, parseFromCreationInfo, ensureCI, hc, parseFromOtherLicense],
        ⟨er, aop, rl, an, rv, rfl⟩⟩
    | package =>
      exact ⟨_, by simp only [parsePair, ht, parseFromPackage, parseFromOtherLicense]; rfl,
        ⟨none, aop, rl, an, rv, rfl⟩⟩
    | file =>
      exact ⟨_, by simp only [parsePair, ht, parseFromFile, parseFromOtherLicense]; rfl,
        ⟨er, none, rl, an, rv, rfl⟩⟩
    | snippet =>
      exact ⟨_, by simp only [parsePair, ht, parseFromSnippet, parseFromOtherLicense],
        ⟨er, aop, rl, an, rv, rfl⟩⟩
    | otherLicense =>
      exact ⟨_, by simp only [parsePair, ht, parseFromOtherLicense], ⟨er, aop, rl, an, rv, rfl⟩⟩
  have h1 : FSteps v (AtLic s0 D) (pairsOf (optText g!"ExtractedText" x.extractedText))
      (fun a => { a with extractedText := pick x.extractedText a.extractedText }) := by
    lic_opt .extractedText
  have h2 : FSteps v (AtLic s0 D) (pairsOf (opt g!"LicenseName" x.licenseName))
      (fun a => { a with licenseName := pick x.licenseName a.licenseName }) := by
    lic_opt .licenseName
  have h3 : FSteps v (AtLic s0 D) (pairsOf (each g!"LicenseCrossReference" x.crossReferences))
      (fun a => { a with crossReferences := a.crossReferences ++ x.crossReferences }) := by
    rw [each_flatMap]
    refine (FSteps.list (F := fun r a => { a with crossReferences := a.crossReferences ++ [r] }) ?_).congr ?_
    · intro r _
      exact lic_step (tag := .licenseCrossReference) (by decide +kernel) (fun _ => rfl)
    · fold_append x.crossReferences
  have h4 : FSteps v (AtLic s0 D) (pairsOf (optText g!"LicenseComment" x.comment))
      (fun a => { a with comment := pick x.comment a.comment }) := by
    lic_opt .licenseComment
  obtain ⟨s1, e1, a1⟩ := h0
  obtain ⟨s2, e2, a2⟩ := ((((h1.items h2).items h3).items h4).items FSteps.blank) _ s1 a1
  have hx : ∀ y, y = x → AtLic s0 D y s2 → AtLic s0 D x s2 := by rintro y rfl h; exact h
  obtain ⟨er, aop, rl, an, rv, rfl⟩ :=
    hx _ (by ext1 <;> first | rfl | exact pick_nil _ | exact List.nil_append _) a2
  refine ⟨_, ?_, ⟨⟨.otherLicense, er, aop, some D.otherLicenses.length, rl, an, rv, by simp, rfl⟩, by simp⟩⟩
  rw [renderOtherLicense, opt, if_neg h.licenseIdentifier.1]
  simp only [List.append_assoc] at e2 ⊢
  rw [pairsOf_append, pairsOf_field, parsePairs_cons e1]
  exact e2

/-! ### Relationships -/

theorem renderElementID_ne {e : Str} (h : e ≠ []) : renderElementID e ≠ g!"SPDXRef-" := by
  intro he
  have : spdxRefPrefix ++ e = spdxRefPrefix ++ [] := by rw [List.append_nil]; exact he
  exact h (List.append_cancel_left this)

theorem renderRef_ne {r : DocElementID} (h : RepRef r) : renderDocElementID r ≠ g!"SPDXRef-" := by
  obtain ⟨h1, h2, h3⟩ := h
  unfold renderDocElementID
  simp only [h3, ne_eq, not_true_eq_false, if_false]
  split
  · intro he
    simp [documentRefPrefix] at he
  · simpa [renderElementID] using renderElementID_ne h1.1.1

theorem rendered_ne {v : Version} {r : Relationship} (h : RepRelationship v r) :
    renderDocElementID r.refA ≠ g!"SPDXRef-" ∧ renderDocElementID r.refB ≠ g!"SPDXRef-" := by
  refine ⟨renderRef_ne h.refA, ?_⟩
  rcases h.refB with hb | ⟨-, hb⟩
  · exact renderRef_ne hb
  · rcases hb with hb | hb <;> rw [hb] <;> decide

/-- The last relationship is `r`. -/
def AtRel (s0 : Parser) (D : HDoc) (r : Relationship) (s : Parser) : Prop :=
  ∃ st er aop ol an rv, st ≠ .start ∧ s = { s0 with
      doc := some { D with relationships := D.relationships ++ [r] }, st := st,
      rln := some D.relationships.length, pkgExtRef := er, fileAOP := aop, otherLic := ol, ann := an, rev := rv }

theorem rel_block {v : Version} {c : CreationInfo} {s0 s : Parser} {D : HDoc} {x : Relationship}
    (hc : D.creationInfo = some c) (h : RepRelationship v x) (hs : AtTail s0 D s) :
    ∃ s', parsePairs v s (pairsOf (renderRelationship x)) = .ok s' ∧
      AtTail s0 { D with relationships := D.relationships ++ [x] } s' := by
  have ht : Tag.ofStr g!"Relationship" = .relationship := by decide +kernel
  have hv := parseRelationship_text h
  have e0 : renderRelationship x =
      [.field g!"Relationship" (renderDocElementID x.refA ++ g!" " ++ x.relationship ++ g!" " ++
        renderDocElementID x.refB)] ++ optText g!"RelationshipComment" x.comment := by
    have ha := rendered_ne h
    simp only [renderRelationship, if_pos (show _ ∧ _ ∧ _ from ⟨ha.1, ha.2, h.relationship.1⟩)]
  rw [e0]
  generalize renderDocElementID x.refA ++ g!" " ++ x.relationship ++ g!" " ++ renderDocElementID x.refB = val at hv
  have h0 : ∃ s', parsePair v s ⟨g!"Relationship", val⟩ = .ok s' ∧ AtRel s0 D { x with comment := [] } s' := by
    obtain ⟨st, er, aop, ol, rl, an, rv, hst, hse⟩ := hs
    have hd : s.doc = some D := by rw [hse]
    have hst' : s.st ≠ .start := by rw [hse]; exact hst
    obtain ⟨er', aop', e⟩ := shared_step (v := v) (x := val) ht rfl hd hc hst'
    rw [e]
    subst hse
    refine ⟨_, ?_, ⟨st, er', aop', ol, an, rv, hst, rfl⟩⟩
    simp only [parseShared, parseForRelationship, hv, Res.bind_ok]
  have h1 : FSteps v (AtRel s0 D) (pairsOf (optText g!"RelationshipComment" x.comment))
      (fun a => { a with comment := pick x.comment a.comment }) := by
    apply FSteps.optText
    · rintro hx a; rw [hx]; rfl
    · intro hx
      apply FSteps.single
      rintro r s ⟨st, er, aop, ol, an, rv, hst, rfl⟩
      have ht : Tag.ofStr g!"RelationshipComment" = .relationshipComment := by decide +kernel
      obtain ⟨er', aop', e⟩ := shared_step (v := v) (x := x.comment) ht rfl
        (d := { D with relationships := D.relationships ++ [r] })
        (s := { s0 with
          doc := some { D with relationships := D.relationships ++ [r] }, st := st,
          rln := some D.relationships.length, pkgExtRef := er, fileAOP := aop, otherLic := ol, ann := an, rev := rv })
        rfl hc hst
      refine ⟨_, by rw [e]; rfl, ⟨st, er', aop', ol, an, rv, hst, ?_⟩⟩
      simp only [modify_last, pick_of_ne hx]
  obtain ⟨s1, e1, a1⟩ := h0
  obtain ⟨s2, e2, a2⟩ := h1 _ s1 a1
  have hx : ∀ y, y = x → AtRel s0 D y s2 → AtRel s0 D x s2 := by rintro y rfl h; exact h
  obtain ⟨st, er, aop, ol, an, rv, hst, rfl⟩ :=
    hx _ (by ext1 <;> first | rfl | exact pick_nil _ | exact List.nil_append _) a2
  refine ⟨_, ?_, ⟨st, er, aop, ol, some D.relationships.length, an, rv, hst, rfl⟩⟩
  rw [pairsOf_append, pairsOf_field, parsePairs_cons e1]
  exact e2

/-! ### Annotations -/

/-- The last annotation is `a`. -/
def AtAnn (s0 : Parser) (D : HDoc) (a : Annotation) (s : Parser) : Prop :=
  ∃ st er aop ol rl rv, st ≠ .start ∧ s = { s0 with
      doc := some { D with annotations := D.annotations ++ [a] }, st := st,
      ann := some D.annotations.length, pkgExtRef := er, fileAOP := aop, otherLic := ol, rln := rl, rev := rv }

theorem ann_step {v : Version} {c : CreationInfo} {s0 : Parser} {D : HDoc} {t x : Str} {tag : Tag}
    {g : Annotation → Annotation} (hc : D.creationInfo = some c) (ht : Tag.ofStr t = tag) (hs : isShared tag = true)
    (h : ∀ s, s.ann ≠ none → parseShared v s tag x = modAnn s g) :
    FSteps v (AtAnn s0 D) [⟨t, x⟩] g := by
  apply FSteps.single
  rintro a s ⟨st, er, aop, ol, rl, rv, hst, rfl⟩
  obtain ⟨er', aop', e⟩ := shared_step (v := v) (x := x) ht hs
    (d := { D with annotations := D.annotations ++ [a] })
    (s := { s0 with
      doc := some { D with annotations := D.annotations ++ [a] }, st := st,
      ann := some D.annotations.length, pkgExtRef := er, fileAOP := aop, otherLic := ol, rln := rl, rev := rv })
    rfl hc hst
  rw [e, h _ (by simp)]
  refine ⟨_, rfl, ⟨st, er', aop', ol, rl, rv, hst, ?_⟩⟩
  simp only [modify_last]

theorem ann_block {v : Version} {c : CreationInfo} {s0 s : Parser} {D : HDoc} {x : Annotation}
    (hc : D.creationInfo = some c) (h : RepAnnotation x) (hs : AtTail s0 D s) :
    ∃ s', parsePairs v s (pairsOf (renderAnnotation x ++ [.line []])) = .ok s' ∧
      AtTail s0 { D with annotations := D.annotations ++ [x] } s' := by
  have ht : Tag.ofStr g!"Annotator" = .annotator := by decide +kernel
  obtain ⟨k1, k2⟩ := extractSubs_agent h.annotator
  have h0 : ∃ s', parsePair v s ⟨g!"Annotator", pairValue x.annotator.annotatorType x.annotator.annotator⟩ = .ok s' ∧
      AtAnn s0 D { annotator := x.annotator } s' := by
    obtain ⟨st, er, aop, ol, rl, an, rv, hst, hse⟩ := hs
    have hd : s.doc = some D := by rw [hse]
    have hst' : s.st ≠ .start := by rw [hse]; exact hst
    obtain ⟨er', aop', e⟩ := shared_step (v := v)
      (x := pairValue x.annotator.annotatorType x.annotator.annotator) ht rfl hd hc hst'
    rw [e]
    subst hse
    refine ⟨_, ?_, ⟨st, er', aop', ol, rl, rv, hst, rfl⟩⟩
    simp only [parseShared, parseForAnnotation, parseAnnotatorValue, k1, k2, Res.bind_ok, if_true]
  have h1 : FSteps v (AtAnn s0 D) (pairsOf (opt g!"AnnotationDate" x.date))
      (fun a => { a with date := pick x.date a.date }) := by
    apply FSteps.opt
    · rintro hx a; rw [hx]; rfl
    · intro hx
      refine (ann_step (tag := .annotationDate) hc (by decide +kernel) rfl (fun _ _ => rfl)).congr ?_
      intro a; rw [pick_of_ne hx]
  have h2 : FSteps v (AtAnn s0 D) (pairsOf (opt g!"AnnotationType" x.type))
      (fun a => { a with type := pick x.type a.type }) := by
    apply FSteps.opt
    · rintro hx a; rw [hx]; rfl
    · intro hx
      refine (ann_step (tag := .annotationType) hc (by decide +kernel) rfl (fun _ _ => rfl)).congr ?_
      intro a; rw [pick_of_ne hx]
  have h3 : FSteps v (AtAnn s0 D) (pairsOf (if renderDocElementID x.spdxId ≠ g!"SPDXRef-" then
        [.field g!"SPDXREF" (renderDocElementID x.spdxId)] else []))
      (fun a => { a with spdxId := if renderDocElementID x.spdxId ≠ g!"SPDXRef-" then x.spdxId else a.spdxId }) := by
    by_cases hx : renderDocElementID x.spdxId ≠ g!"SPDXRef-"
    · simp only [if_pos hx]
      have hr : RepRef x.spdxId := by
        rcases h.spdxId with h0 | h0
        · rw [h0] at hx; exact absurd rfl hx
        · exact h0
      refine ann_step (tag := .spdxREF) hc (by decide +kernel) rfl (fun s hs => ?_)
      cases hn : s.ann with
      | none => exact absurd hn hs
      | some i => simp only [parseShared, parseForAnnotation, hn, extractDocElementID_rep hr, Res.bind_ok]
    · simp only [if_neg hx]
      exact FSteps.nil
  have h4 : FSteps v (AtAnn s0 D) (pairsOf (optText g!"AnnotationComment" x.comment))
      (fun a => { a with comment := pick x.comment a.comment }) := by
    apply FSteps.optText
    · rintro hx a; rw [hx]; rfl
    · intro hx
      refine (ann_step (tag := .annotationComment) hc (by decide +kernel) rfl (fun _ _ => rfl)).congr ?_
      intro a; rw [pick_of_ne hx]
  obtain ⟨s1, e1, a1⟩ := h0
  obtain ⟨s2, e2, a2⟩ := ((((h1.items h2).items h3).items h4).items FSteps.blank) _ s1 a1
  have hx : ∀ y, y = x → AtAnn s0 D y s2 → AtAnn s0 D x s2 := by rintro y rfl h; exact h
  have hid : (if renderDocElementID x.spdxId ≠ g!"SPDXRef-" then x.spdxId else {}) = x.spdxId := by
    split
    · rfl
    · rename_i hn
      rcases h.spdxId with h0 | h0
      · exact h0.symm
      · exact absurd (renderRef_ne h0) hn
  obtain ⟨st, er, aop, ol, rl, rv, hst, rfl⟩ :=
    hx _ (by ext1 <;> first | rfl | exact pick_nil _ | exact hid) a2
  refine ⟨_, ?_, ⟨st, er, aop, ol, rl, some D.annotations.length, rv, hst, rfl⟩⟩
  have hk : x.annotator.annotatorType ≠ [] := (kind_line1 h.annotator.1).1.1.1
  rw [renderAnnotation, if_pos ⟨h.annotator.2.1, hk⟩]
  simp only [List.append_assoc] at e2 ⊢
  rw [pairsOf_append, pairsOf_field, parsePairs_cons e1]
  exact e2

/-! ### Reviews -/

/-- The parser is in the review section; the last review is `r`. -/
def AtRev (s0 : Parser) (D : HDoc) (r : Review) (s : Parser) : Prop :=
  ∃ er aop ol rl an, s = { s0 with
      doc := some { D with reviews := D.reviews ++ [r] }, st := .review,
      rev := some D.reviews.length, pkgExtRef := er, fileAOP := aop, otherLic := ol, rln := rl, ann := an }

theorem rev_step {v : Version} {s0 : Parser} {D : HDoc} {t x : Str} {tag : Tag} {g : Review → Review}
    (ht : Tag.ofStr t = tag) (h : ∀ s, parseFromReview v s tag x = modRev s g) :
    FSteps v (AtRev s0 D) [⟨t, x⟩] g := by
  apply FSteps.single
  rintro l s ⟨er, aop, ol, rl, an, rfl⟩
  refine ⟨_, ?_, ⟨er, aop, ol, rl, an, rfl⟩⟩
  simp only [parsePair, ht, h, modRev, Parser.modDoc, modify_last]

theorem rev_block {v : Version} {c : CreationInfo} {s0 s : Parser} {D : HDoc} {x : Review}
    (hc : D.creationInfo = some c) (h : RepReview x) (hs : AtTail s0 D s) :
    ∃ s', parsePairs v s (pairsOf (renderReview x)) = .ok s' ∧
      AtTail s0 { D with reviews := D.reviews ++ [x] } s' := by
  have ht : Tag.ofStr g!"Reviewer" = .reviewer := by decide +kernel
  obtain ⟨k1, k2⟩ := extractSubs_agent h.reviewer
  have h0 : ∃ s', parsePair v s ⟨g!"Reviewer", pairValue x.reviewerType x.reviewer⟩ = .ok s' ∧
      AtRev s0 D { reviewer := x.reviewer, reviewerType := x.reviewerType } s' := by
    obtain ⟨st, er, aop, ol, rl, an, rv, hst, rfl⟩ := hs
    cases st with
    | start => exact absurd rfl hst
    | creationInfo =>
      exact ⟨_, by simp only [parsePair, ht, parseFromCreationInfo, ensureCI, hc, parseFromReview, k1, k2, Res.bind_ok,
          if_true],
        ⟨er, aop, ol, rl, an, rfl⟩⟩
    | package =>
      exact ⟨_, by simp only [parsePair, ht, parseFromPackage, parseFromReview, k1, k2, Res.bind_ok, if_true]; rfl,
        ⟨none, aop, ol, rl, an, rfl⟩⟩
    | file =>
      exact ⟨_, by simp only [parsePair, ht, parseFromFile, parseFromReview, k1, k2, Res.bind_ok, if_true]; rfl,
        ⟨er, none, ol, rl, an, rfl⟩⟩
    | snippet =>
      exact ⟨_, by simp only [parsePair, ht, parseFromSnippet, parseFromReview, k1, k2, Res.bind_ok, if_true],
        ⟨er, aop, ol, rl, an, rfl⟩⟩
    | otherLicense =>
      exact ⟨_, by simp only [parsePair, ht, parseFromOtherLicense, parseFromReview, k1, k2, Res.bind_ok, if_true],
        ⟨er, aop, ol, rl, an, rfl⟩⟩
    | review =>
      exact ⟨_, by simp only [parsePair, ht, parseFromReview, k1, k2, Res.bind_ok, if_true],
        ⟨er, aop, ol, rl, an, rfl⟩⟩
  have h1 : FSteps v (AtRev s0 D) (pairsOf (opt g!"ReviewDate" x.date))
      (fun a => { a with date := pick x.date a.date }) := by
    apply FSteps.opt
    · rintro hx a; rw [hx]; rfl
    · intro hx
      refine (rev_step (tag := .reviewDate) (by decide +kernel) (fun _ => rfl)).congr ?_
      intro a; rw [pick_of_ne hx]
  have h2 : FSteps v (AtRev s0 D) (pairsOf (optText g!"ReviewComment" x.comment))
      (fun a => { a with comment := pick x.comment a.comment }) := by
    apply FSteps.optText
    · rintro hx a; rw [hx]; rfl
    · intro hx
      refine (rev_step (tag := .reviewComment) (by decide +kernel) (fun _ => rfl)).congr ?_
      intro a; rw [pick_of_ne hx]
  obtain ⟨s1, e1, a1⟩ := h0
  obtain ⟨s2, e2, a2⟩ := ((h1.items h2).items FSteps.blank) _ s1 a1
  have hx : ∀ y, y = x → AtRev s0 D y s2 → AtRev s0 D x s2 := by rintro y rfl h; exact h
  obtain ⟨er, aop, ol, rl, an, rfl⟩ :=
    hx _ (by ext1 <;> first | rfl | exact pick_nil _) a2
  refine ⟨_, ?_, ⟨.review, er, aop, ol, rl, an, some D.reviews.length, by simp, rfl⟩⟩
  have hk : x.reviewerType ≠ [] := (kind_line1 h.reviewer.1).1.1.1
  rw [renderReview, if_pos ⟨h.reviewer.2.1, hk⟩]
  simp only [List.append_assoc] at e2 ⊢
  rw [pairsOf_append, pairsOf_field, parsePairs_cons e1]
  exact e2

/-! ## The whole document -/

theorem pairsOf_heading {α : Type} (l : List α) (t : Str) : pairsOf (heading l t) = [] := by
  unfold heading; split <;> rfl

theorem tail_block {v : Version} {c : CreationInfo} {d : Doc} (h : Representable v d) {s0 s : Parser} {D : HDoc}
    (hc : D.creationInfo = some c) (hL : D.otherLicenses = []) (hR : D.relationships = []) (hA : D.annotations = [])
    (hV : D.reviews = []) (hs : AtTail' s0 D s) :
    ∃ s', parsePairs v s (pairsOf (renderTail d)) = .ok s' ∧
      AtTail s0 { D with otherLicenses := d.otherLicenses, relationships := d.relationships,
                         annotations := d.annotations, reviews := d.reviews } s' := by
  have h1 : FSteps v (fun D s => D.creationInfo = some c ∧ AtTail' s0 D s)
      (pairsOf (d.otherLicenses.flatMap renderOtherLicense))
      (fun D => { D with otherLicenses := D.otherLicenses ++ d.otherLicenses }) := by
    refine (FSteps.list (F := fun x D => { D with otherLicenses := D.otherLicenses ++ [x] }) ?_).congr ?_
    · rintro x hx D s ⟨hc, hs⟩
      obtain ⟨s', e, a⟩ := lic_block hc (h.otherLicenses x hx) hs
      exact ⟨s', e, hc, a⟩
    · fold_append d.otherLicenses
  have h2 : FSteps v (fun D s => D.creationInfo = some c ∧ AtTail s0 D s)
      (pairsOf (d.relationships.flatMap renderRelationship))
      (fun D => { D with relationships := D.relationships ++ d.relationships }) := by
    refine (FSteps.list (F := fun x D => { D with relationships := D.relationships ++ [x] }) ?_).congr ?_
    · rintro x hx D s ⟨hc, hs⟩
      obtain ⟨s', e, a⟩ := rel_block hc (h.relationships x hx) hs
      exact ⟨s', e, hc, a⟩
    · fold_append d.relationships
  have h3 : FSteps v (fun D s => D.creationInfo = some c ∧ AtTail s0 D s)
      (pairsOf (d.annotations.flatMap fun a => renderAnnotation a ++ [.line []]))
      (fun D => { D with annotations := D.annotations ++ d.annotations }) := by
    refine (FSteps.list (F := fun x D => { D with annotations := D.annotations ++ [x] }) ?_).congr ?_
    · rintro x hx D s ⟨hc, hs⟩
      obtain ⟨s', e, a⟩ := ann_block hc (h.annotations x hx) hs
      exact ⟨s', e, hc, a⟩
    · fold_append d.annotations
  have h4 : FSteps v (fun D s => D.creationInfo = some c ∧ AtTail s0 D s)
      (pairsOf (d.reviews.flatMap renderReview))
      (fun D => { D with reviews := D.reviews ++ d.reviews }) := by
    refine (FSteps.list (F := fun x D => { D with reviews := D.reviews ++ [x] }) ?_).congr ?_
    · rintro x hx D s ⟨hc, hs⟩
      obtain ⟨s', e, a⟩ := rev_block hc (h.reviews x hx) hs
      exact ⟨s', e, hc, a⟩
    · fold_append d.reviews
  obtain ⟨s1, e1, c1, a1⟩ := h1 D s ⟨hc, hs⟩
  obtain ⟨s2, e2, c2, a2⟩ := h2 _ s1 ⟨c1, a1.1⟩
  obtain ⟨s3, e3, c3, a3⟩ := h3 _ s2 ⟨c2, a2⟩
  obtain ⟨s4, e4, c4, a4⟩ := h4 _ s3 ⟨c3, a3⟩
  refine ⟨s4, ?_, ?_⟩
  · have hb : pairsOf (if d.relationships = [] then [] else [.line []]) = [] := by split <;> rfl
    unfold renderTail renderRelationships
    simp only [pairsOf_append, pairsOf_heading, hb, List.nil_append, List.append_nil, parsePairs_append, e1,
      Res.bind_ok, e2, e3, e4]
  · simpa [hL, hR, hA, hV] using a4

/-- A document as it comes back from being written: references, packages and files by identifier. -/
def writtenDoc (so : Sorter) (d : Doc) : Doc :=
  { d with externalDocumentRefs := so.run (·.documentRefID) d.externalDocumentRefs,
           files := (so.run (·.spdxId) d.files).map (writtenFile so),
           packages := (so.run (·.spdxId) d.packages).map (writtenPackage so) }

/-- The document after its own fields and the creation info. -/
def headDoc (so : Sorter) (d : Doc) (ci : CreationInfo) : HDoc where
  spdxVersion := d.spdxVersion
  dataLicense := d.dataLicense
  spdxId := d.spdxId
  name := d.name
  namespace_ := d.namespace_
  comment := d.comment
  externalDocumentRefs := so.run (·.documentRefID) d.externalDocumentRefs
  creationInfo := some ci

theorem parse_body {v : Version} {so : Sorter} {d : Doc} {ci : CreationInfo} (h : Representable v d)
    (hd : d.creationInfo = some ci) (hci : RepCreationInfo ci) :
    parseTagValues v (pairsOf (renderBody v so d ci)) = .ok (some (writtenDoc so d)) := by
  obtain ⟨s1, e1, a1⟩ := header_fields (so := so) h
  have e2 : parsePairs v s1 (pairsOf (renderCreationInfo ci)) =
      .ok { doc := some (headDoc so d ci), st := .creationInfo } := ci_fields (v := v) hci rfl s1 a1
  generalize hd0 : headDoc so d ci = d0 at e2
  have hb : InBody ci d0 [] [] { doc := some d0, st := .creationInfo } := by
    refine ⟨⟨.inl ⟨rfl, rfl⟩, ⟨d0, rfl, by rw [← hd0]; rfl⟩, rfl, rfl, rfl⟩, [], [], ?_, rfl, rfl⟩
    rw [← hd0]; rfl
  obtain ⟨s3, e3, b3⟩ := files_unpackaged (v := v) (so := so) (l := so.run (·.spdxId) d.files) hb rfl
    (fun f hf => h.files f ((so.mem _ _ _).1 hf))
  obtain ⟨s4, e4, b4⟩ := packages_block (v := v) (so := so) (l := so.run (·.spdxId) d.packages) b3
    (fun f hf => h.packages f ((so.mem _ _ _).1 hf))
  obtain ⟨hr, fr, pr, hdoc, hU, hQ⟩ := b4
  have ht : AtTail' s4 { d0 with files := fr, packages := pr } s4 := by
    obtain ⟨doc, st, pkg, er, file, aop, snip, ol, rln, ann, rev, pkgs, files, snips⟩ := s4
    have := hr.st
    simp only at this hdoc
    subst hdoc
    refine ⟨⟨st, er, aop, ol, rln, ann, rev, ?_, rfl⟩, ?_⟩
    · rintro rfl; simp at this
    · rintro rfl; simp at this
  obtain ⟨s5, e5, a5⟩ := tail_block h (c := ci) (by rw [← hd0]; rfl) (by rw [← hd0]; rfl) (by rw [← hd0]; rfl) (by rw [← hd0]; rfl)
    (by rw [← hd0]; rfl) ht
  obtain ⟨st, er, aop, ol, rl, an, rv, hst, a5⟩ := a5
  have e : parsePairs v {} (pairsOf (renderBody v so d ci)) = .ok s5 := by
    unfold renderBody
    simp only [pairsOf_append, pairsOf_heading, List.nil_append, List.append_nil, parsePairs_append, e1,
      Res.bind_ok, e2, e3, e4, e5]
  have hf : s5.fileLacksId = false := by rw [a5]; exact hr.fileId
  have hp : s5.pkgLacksId = false := by rw [a5]; exact hr.pkgId
  have hU5 : fr.mapM (derefFileRef s5) = some _ :=
    mapM_mono (fun _ _ => derefFileRef_mono (by rw [a5]; exact List.prefix_refl _) (by rw [a5]; exact List.prefix_refl _)) hU
  have hQ5 : pr.mapM (derefPackageRef s5) = some _ :=
    mapM_mono (fun _ _ => derefPackageRef_mono (by rw [a5]; exact List.prefix_refl _)
      (by rw [a5]; exact List.prefix_refl _) (by rw [a5]; exact List.prefix_refl _)) hQ
  have hd5 : s5.doc = some { d0 with
      files := fr, packages := pr, otherLicenses := d.otherLicenses, relationships := d.relationships,
      annotations := d.annotations, reviews := d.reviews } := by rw [a5]
  unfold parseTagValues
  rw [e]
  simp only [Res.bind_ok, hf, hp, hd5, derefDoc, hU5, hQ5, Option.bind_eq_bind, Option.bind_some]
  simp only [Bool.false_eq_true, if_false, List.nil_append, Option.pure_def, Res.ok.injEq, Option.some.injEq]
  subst hd0
  unfold writtenDoc
  ext1 <;> first | rfl | exact hd.symm | exact h.noSnippets.symm

theorem read_back {v : Version} {so : Sorter} {d : Doc} {text : Str} (h : Representable v d)
    (hw : writeTagValue v so d = .ok text) (hfit : LinesFit text) :
    (readTagValues text >>= parseTagValues v) = .ok (some (writtenDoc so d)) := by
  obtain ⟨ci, hd, hci⟩ := h.creationInfo
  simp only [writeTagValue, renderDocument, hd, Res.bind_ok, Res.ok.injEq] at hw
  subst hw
  rw [read_items _ (fun i hi => ⟨shaped_body v so d ci i hi, clean_body so h hci i hi⟩) hfit, Res.bind_ok]
  exact parse_body h hd hci

/-! ## It is the same document, in order -/

theorem writtenFile_same {v : Version} (so : Sorter) {f : FileV} (h : RepFile v f) : SameFile f (writtenFile so f) := by
  refine ⟨rfl, ?_⟩
  show f.snippets.Perm ((snippetsInOrder so f).map fun x => (x.spdxId, x))
  have key : ∀ ks : List Str, (∀ k ∈ ks, k ∈ f.snippets.map Prod.fst) →
      (ks.filterMap fun k => mapGet k f.snippets).map (fun x => (x.spdxId, x)) =
      ks.filterMap (fun k => (mapGet k f.snippets).map fun x => (k, x)) := by
    intro ks hks
    induction ks with
    | nil => rfl
    | cons k ks ih =>
      obtain ⟨⟨k', x⟩, hm, rfl⟩ := List.mem_map.1 (hks k (by simp))
      have := (mapGet_eq_some_iff h.snippetKeys).2 hm
      rw [List.filterMap_cons, List.filterMap_cons, this]
      simp only [List.map_cons, Option.map_some]
      rw [ih fun k hk => hks k (by simp [hk])]
      rw [← (h.snippets _ hm).1]
  have e : f.snippets = (f.snippets.map Prod.fst).filterMap (fun k => (mapGet k f.snippets).map fun x => (k, x)) := by
    have : ∀ l : List (Str × Snippet), (∀ p ∈ l, p ∈ f.snippets) →
        l = (l.map Prod.fst).filterMap (fun k => (mapGet k f.snippets).map fun x => (k, x)) := by
      intro l hl
      induction l with
      | nil => rfl
      | cons p l ih =>
        obtain ⟨k, x⟩ := p
        have := (mapGet_eq_some_iff h.snippetKeys).2 (hl (k, x) (by simp))
        rw [List.map_cons, List.filterMap_cons, this]
        simp only [Option.map_some]
        rw [← ih fun p hp => hl p (by simp [hp])]
    exact this _ fun _ hp => hp
  unfold snippetsInOrder
  rw [key _ fun k hk => (so.mem _ _ _).1 hk]
  have := ((so.perm id (f.snippets.map Prod.fst)).symm).filterMap
    (fun k => (mapGet k f.snippets).map fun x => (k, x))
  rw [← e] at this
  exact this

theorem writtenFiles_same {v : Version} (so : Sorter) {l : List FileV} (h : ∀ f ∈ l, RepFile v f) :
    SameFiles l ((so.run (·.spdxId) l).map (writtenFile so)) :=
  ⟨so.run (·.spdxId) l, (so.perm _ _).symm,
    Pointwise.map_right _ fun f hf => writtenFile_same so (h f ((so.mem _ _ _).1 hf))⟩

theorem sortedBy_map {α β : Type} {k : α → Str} {k' : β → Str} {g : α → β} {l : List α} (h : SortedBy k l)
    (e : ∀ a, k' (g a) = k a) : SortedBy k' (l.map g) := by
  unfold SortedBy at *
  rw [List.pairwise_map]
  simpa only [e] using h

theorem written_same {v : Version} (so : Sorter) {d : Doc} (h : Representable v d) : SameDoc d (writtenDoc so d) := by
  refine ⟨rfl, (so.perm _ _).symm, writtenFiles_same so h.files, so.run (·.spdxId) d.packages, (so.perm _ _).symm, ?_⟩
  exact Pointwise.map_right _ fun p hp =>
    ⟨rfl, writtenFiles_same so (h.packages p ((so.mem _ _ _).1 hp)).files⟩

theorem writtenFile_inOrder {v : Version} (so : Sorter) {f : FileV} (h : RepFile v f) :
    SortedBy (·.1) (writtenFile so f).snippets := by
  have hk := (snippets_rep (so := so) h).2.1
  have hs : SortedBy id ((snippetsInOrder so f).map (·.spdxId)) := by rw [hk]; exact so.sorted _ _
  unfold SortedBy at *
  rw [List.pairwise_map] at hs
  show List.Pairwise _ ((snippetsInOrder so f).map fun x => (x.spdxId, x))
  rw [List.pairwise_map]
  exact hs

theorem written_inOrder {v : Version} (so : Sorter) {d : Doc} (h : Representable v d) : InOrder (writtenDoc so d) := by
  refine ⟨so.sorted _ _, sortedBy_map (so.sorted _ _) fun _ => rfl, sortedBy_map (so.sorted _ _) fun _ => rfl, ?_, ?_⟩
  · intro p hp
    obtain ⟨q, hq, rfl⟩ := List.mem_map.1 hp
    exact sortedBy_map (so.sorted _ _) fun _ => rfl
  · intro f hf
    rcases List.mem_append.1 hf with hf | hf
    · obtain ⟨g, hg, rfl⟩ := List.mem_map.1 hf
      exact writtenFile_inOrder so (h.files g ((so.mem _ _ _).1 hg))
    · obtain ⟨p, hp, hf⟩ := List.mem_flatMap.1 hf
      obtain ⟨q, hq, rfl⟩ := List.mem_map.1 hp
      obtain ⟨g, hg, rfl⟩ := List.mem_map.1 hf
      exact writtenFile_inOrder so ((h.packages q ((so.mem _ _ _).1 hq)).files g ((so.mem _ _ _).1 hg))

end Verif
