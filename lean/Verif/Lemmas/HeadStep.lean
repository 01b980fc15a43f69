import Verif.Lemmas.ParserSteps

set_option linter.unusedSimpArgs false

/-!
# What one pair does to the document-level fields
-/

namespace Verif

/-- The document-level fields of a parser state: everything but packages and files, with the pointers into
the document's lists.  The creation info is there even when the parser has not allocated it yet. -/
structure Head where
  doc : Document Unit Unit
  rln : Option Nat
  ann : Option Nat
  rev : Option Nat
  lic : Option Nat

def headOf (d : HDoc) : Document Unit Unit :=
  { d with packages := [], files := [], creationInfo := some (d.creationInfo.getD {}) }

def head (s : Parser) : Head :=
  { doc := headOf (s.doc.getD {}), rln := s.rln, ann := s.ann, rev := s.rev, lic := s.otherLic }

/-- Updating the creation info of a head. -/
def Head.modCI (h : Head) (f : CreationInfo → CreationInfo) : Head :=
  { h with doc := { h.doc with creationInfo := h.doc.creationInfo.map f } }

/-- What a pair does to the head, `start` telling whether the parser is in the first section. -/
def HeadStep (v : Version) (start : Bool) (tag : Tag) (value : Str) (h h' : Head) : Prop :=
  match tag with
  | .documentComment => h' = { h with doc := { h.doc with comment := value } }
  | .spdxVersion => h' = { h with doc := { h.doc with spdxVersion := value } }
  | .dataLicense => h' = { h with doc := { h.doc with dataLicense := value } }
  | .documentName => h' = { h with doc := { h.doc with name := value } }
  | .documentNamespace => h' = { h with doc := { h.doc with namespace_ := value } }
  | .spdxID => if start then ∃ e, extractElementID value = .ok e ∧ h' = { h with doc := { h.doc with spdxId := e } }
      else h' = h
  | .externalDocumentRef => ∃ e, extractExternalDocumentReference value = .ok e ∧
      h' = { h with doc := { h.doc with externalDocumentRefs := h.doc.externalDocumentRefs ++ [e] } }
  | .licenseListVersion => h' = h.modCI fun c => { c with licenseListVersion := value }
  | .created => h' = h.modCI fun c => { c with created := value }
  | .creatorComment => h' = h.modCI fun c => { c with creatorComment := value }
  | .creator => ∃ k x, extractSubs g!":" value = .ok (k, x) ∧ isAgentKind k = true ∧
      h' = h.modCI fun c => { c with creators := c.creators ++ [{ creator := x, creatorType := k }] }
  | .relationship => ∃ r, parseRelationshipValue v value = .ok r ∧
      h' = { h with rln := some h.doc.relationships.length,
                    doc := { h.doc with relationships := h.doc.relationships ++ [r] } }
  | .relationshipComment => ∃ i, h.rln = some i ∧ h' = { h with doc := { h.doc with
      relationships := h.doc.relationships.modify i fun r => { r with comment := value } } }
  | .annotator => ∃ a, parseAnnotatorValue value = .ok a ∧
      h' = { h with ann := some h.doc.annotations.length,
                    doc := { h.doc with annotations := h.doc.annotations ++ [{ annotator := a }] } }
  | .annotationDate => ∃ i, h.ann = some i ∧ h' = { h with doc := { h.doc with
      annotations := h.doc.annotations.modify i fun a => { a with date := value } } }
  | .annotationType => ∃ i, h.ann = some i ∧ h' = { h with doc := { h.doc with
      annotations := h.doc.annotations.modify i fun a => { a with type := value } } }
  | .spdxREF => ∃ i e, h.ann = some i ∧ extractDocElementID value = .ok e ∧ h' = { h with doc := { h.doc with
      annotations := h.doc.annotations.modify i fun a => { a with spdxId := e } } }
  | .annotationComment => ∃ i, h.ann = some i ∧ h' = { h with doc := { h.doc with
      annotations := h.doc.annotations.modify i fun a => { a with comment := value } } }
  | .reviewer => ∃ k x, extractSubs g!":" value = .ok (k, x) ∧ isAgentKind k = true ∧
      h' = { h with rev := some h.doc.reviews.length,
                    doc := { h.doc with reviews := h.doc.reviews ++ [{ reviewer := x, reviewerType := k }] } }
  | .reviewDate => ∃ i, h.rev = some i ∧ h' = { h with doc := { h.doc with
      reviews := h.doc.reviews.modify i fun a => { a with date := value } } }
  | .reviewComment => ∃ i, h.rev = some i ∧ h' = { h with doc := { h.doc with
      reviews := h.doc.reviews.modify i fun a => { a with comment := value } } }
  | .licenseID => h' = { h with
      lic := some h.doc.otherLicenses.length
      doc := { h.doc with otherLicenses := h.doc.otherLicenses ++ [{ licenseIdentifier := value }] } }
  | .extractedText => ∃ i, h.lic = some i ∧ h' = { h with doc := { h.doc with
      otherLicenses := h.doc.otherLicenses.modify i fun l => { l with extractedText := value } } }
  | .licenseName => ∃ i, h.lic = some i ∧ h' = { h with doc := { h.doc with
      otherLicenses := h.doc.otherLicenses.modify i fun l => { l with licenseName := value } } }
  | .licenseCrossReference => ∃ i, h.lic = some i ∧ h' = { h with doc := { h.doc with
      otherLicenses := h.doc.otherLicenses.modify i fun l => { l with crossReferences := l.crossReferences ++ [value] } } }
  | .licenseComment => ∃ i, h.lic = some i ∧ h' = { h with doc := { h.doc with
      otherLicenses := h.doc.otherLicenses.modify i fun l => { l with comment := value } } }
  | _ => h' = h

theorem head_modPkg {s s' : Parser} {f} (h : s.modPkg f = .ok s') : head s' = head s := by
  obtain ⟨i, -, rfl⟩ := modPkg_ok h; rfl
theorem head_modFile {s s' : Parser} {f} (h : s.modFile f = .ok s') : head s' = head s := by
  obtain ⟨i, -, rfl⟩ := modFile_ok h; rfl
theorem head_modSnip {s s' : Parser} {f} (h : s.modSnip f = .ok s') : head s' = head s := by
  obtain ⟨i, -, rfl⟩ := modSnip_ok h; rfl

theorem head_modDoc {s s' : Parser} {f : HDoc → HDoc} {g : Document Unit Unit → Document Unit Unit}
    (h : s.modDoc f = .ok s') (hfg : ∀ d, headOf (f d) = g (headOf d)) :
    head s' = { head s with doc := g (head s).doc } := by
  obtain ⟨d, hd, rfl⟩ := modDoc_ok h
  simp [head, hd, hfg]

theorem head_modDoc_same {s s' : Parser} {f : HDoc → HDoc}
    (h : s.modDoc f = .ok s') (hfg : ∀ d, headOf (f d) = headOf d) : head s' = head s := by
  obtain ⟨d, hd, rfl⟩ := modDoc_ok h
  simp [head, hd, hfg]

theorem head_openFile {s s' : Parser} {value} (h : openFile s value = .ok s') : head s' = head s := by
  unfold openFile at h
  simp only at h
  split at h
  · simp at h
  · simp only [Res.ok.injEq] at h; subst h; rfl

theorem head_openPackage {s s' : Parser} {value} (h : openPackage s value = .ok s') : head s' = head s := by
  unfold openPackage at h
  simp only at h
  split at h
  · split at h
    · simp at h
    · rw [head_modPkg h]; rfl
  · rw [head_modPkg h]; rfl

theorem head_openSnippet {s s' : Parser} {value} (h : openSnippet s value = .ok s') : head s' = head s := by
  unfold openSnippet at h
  split at h
  · simp at h
  · rw [bind_eq_ok] at h
    obtain ⟨e, -, h⟩ := h
    simp only at h
    split at h
    · simp only [Res.ok.injEq] at h; subst h; rfl
    · rw [head_modFile h]; rfl

theorem head_ensureDoc (s : Parser) : head (ensureDoc s) = head s := by
  unfold ensureDoc; split
  · rename_i h; simp [head, h]
  · rfl

theorem head_ensureCI {s : Parser} {d : HDoc} (h : s.doc = some d) : head (ensureCI s d) = head s := by
  unfold ensureCI; split
  · rename_i h'; simp [head, h, headOf, h']
  · rfl

theorem head_modCI {s s' : Parser} {f} (h : modCI s f = .ok s') : head s' = (head s).modCI f := by
  unfold modCI at h
  split at h
  · simp at h
  · rename_i d hd
    split at h
    · simp at h
    · rename_i c hc
      simp only [Res.ok.injEq] at h; subst h
      simp [head, hd, headOf, hc, Head.modCI]

theorem head_modAnn {s s' : Parser} {f} (h : modAnn s f = .ok s') : ∃ i, (head s).ann = some i ∧
    head s' = { head s with doc := { (head s).doc with annotations := (head s).doc.annotations.modify i f } } := by
  unfold modAnn at h
  split at h
  · simp at h
  · rename_i i hi
    exact ⟨i, hi, head_modDoc (g := fun d => { d with annotations := d.annotations.modify i f }) h (fun d => rfl)⟩

theorem head_modRev {s s' : Parser} {f} (h : modRev s f = .ok s') : ∃ i, (head s).rev = some i ∧
    head s' = { head s with doc := { (head s).doc with reviews := (head s).doc.reviews.modify i f } } := by
  unfold modRev at h
  split at h
  · simp at h
  · rename_i i hi
    exact ⟨i, hi, head_modDoc (g := fun d => { d with reviews := d.reviews.modify i f }) h (fun d => rfl)⟩

theorem head_modLic {s s' : Parser} {f} (h : modLic s f = .ok s') : ∃ i, (head s).lic = some i ∧
    head s' = { head s with doc := { (head s).doc with otherLicenses := (head s).doc.otherLicenses.modify i f } } := by
  unfold modLic at h
  split at h
  · simp at h
  · rename_i i hi
    exact ⟨i, hi, head_modDoc (g := fun d => { d with otherLicenses := d.otherLicenses.modify i f }) h (fun d => rfl)⟩

theorem headStep_shared {v b s tag value s'} (h : parseShared v s tag value = .ok s') :
    HeadStep v b tag value (head s) (head s') := by
  unfold parseShared at h
  split at h
  · unfold parseForRelationship at h
    simp only at h
    split at h
    · simp at h
    · rename_i d hd
      rw [bind_eq_ok] at h
      obtain ⟨r, hr, h⟩ := h
      simp only [Res.ok.injEq] at h; subst h
      exact ⟨r, hr, by simp [head, hd, headOf]⟩
  · unfold parseForRelationship at h
    simp only at h
    split at h
    · simp at h
    · rename_i i hi
      refine ⟨i, hi, ?_⟩
      exact head_modDoc (g := fun d => { d with relationships := d.relationships.modify i fun r => { r with comment := value } }) h (fun d => rfl)
  · unfold parseForAnnotation at h
    simp only at h
    split at h
    · simp at h
    · rename_i d hd
      rw [bind_eq_ok] at h
      obtain ⟨r, hr, h⟩ := h
      simp only [Res.ok.injEq] at h; subst h
      exact ⟨r, hr, by simp [head, hd, headOf]⟩
  · exact head_modAnn h
  · exact head_modAnn h
  · unfold parseForAnnotation at h
    simp only at h
    split at h
    · simp at h
    · rw [bind_eq_ok] at h
      obtain ⟨e, he, h⟩ := h
      obtain ⟨i, hi, h⟩ := head_modAnn h
      exact ⟨i, e, hi, he, h⟩
  · exact head_modAnn h
  · simp at h

theorem headStep_review {v b s tag value s'} (h : parseFromReview v s tag value = .ok s') :
    HeadStep v b tag value (head s) (head s') := by
  unfold parseFromReview at h
  split at h
  · split at h
    · simp at h
    · rename_i d hd
      rw [bind_eq_ok] at h
      obtain ⟨⟨k, x⟩, hkx, h⟩ := h
      simp only at h
      split at h
      · rename_i hk
        simp only [Res.ok.injEq] at h; subst h
        exact ⟨k, x, hkx, hk, by simp [head, hd, headOf]⟩
      · simp at h
  · exact head_modRev h
  · exact head_modRev h
  · exact headStep_shared h

theorem headStep_otherLicense {v b s tag value s'} (h : parseFromOtherLicense v s tag value = .ok s') :
    HeadStep v b tag value (head s) (head s') := by
  unfold parseFromOtherLicense at h
  split at h
  · split at h
    · simp at h
    · rename_i d hd
      simp only [Res.ok.injEq] at h; subst h
      show _ = _
      simp [head, hd, headOf]
  · exact head_modLic h
  · exact head_modLic h
  · exact head_modLic h
  · exact head_modLic h
  · have := headStep_review (b := b) h; exact this
  · exact headStep_shared h

theorem headStep_snippet {v s tag value s'} (h : parseFromSnippet v s tag value = .ok s') :
    HeadStep v false tag value (head s) (head s') := by
  unfold parseFromSnippet at h
  split at h
  all_goals first
    | (have w := head_openSnippet h; exact w)
    | (have w := head_openFile h; exact w)
    | (have w := head_openPackage h; exact w)
    | (have w := headStep_otherLicense (b := false) h; exact w)
    | exact head_modSnip h
    | (have w := headStep_review (b := false) h; exact w)
    | (have w := headStep_shared (b := false) h; exact w)
    | (rw [bind_eq_ok] at h; obtain ⟨e, -, h⟩ := h; exact head_modSnip h)
    | (split at h
       · simp at h
       · exact head_modSnip h)

theorem headStep_file {v s tag value s'} (h : parseFromFile v s tag value = .ok s') :
    HeadStep v false tag value (head s) (head s') := by
  unfold parseFromFile at h
  simp only at h
  have e : head (if tag ≠ .artifactOfProjectHomePage ∧ tag ≠ .artifactOfProjectURI
    then { s with fileAOP := none } else s) = head s := by split <;> rfl
  rw [← e]
  generalize (if tag ≠ .artifactOfProjectHomePage ∧ tag ≠ .artifactOfProjectURI
    then { s with fileAOP := none } else s) = t at h
  split at h
  all_goals first
    | (have w := head_openSnippet h; exact w)
    | (have w := head_openFile h; exact w)
    | (have w := headStep_otherLicense (b := false) h; exact w)
    | exact head_modFile h
    | (have w := headStep_review (b := false) h; exact w)
    | (have w := headStep_shared (b := false) h; exact w)
    | (split at h
       · simp at h
       · have w := head_openPackage h; exact w)
    | (rw [bind_eq_ok] at h; obtain ⟨e, -, h⟩ := h; exact head_modFile h)
    | (split at h
       · simp at h
       · exact head_modFile h)
    | (split at h
       · simp at h
       · rw [bind_eq_ok] at h
         obtain ⟨s1, h1, h⟩ := h
         simp only [Res.ok.injEq] at h; subst h
         have w := head_modFile h1; exact w)
    | skip
  · rw [bind_eq_ok] at h
    obtain ⟨e, -, h⟩ := h
    rw [bind_eq_ok] at h
    obtain ⟨s1, h1, h⟩ := h
    split at h
    · simp at h
    · split at h
      · have := head_modDoc_same h (fun d => rfl)
        show _ = _
        rw [this, head_modFile h1]
      · show _ = _
        rw [head_modPkg h, head_modFile h1]

theorem headStep_package {v s tag value s'} (h : parseFromPackage v s tag value = .ok s') :
    HeadStep v false tag value (head s) (head s') := by
  unfold parseFromPackage at h
  simp only at h
  have e : head (if tag ≠ .externalRefComment then { s with pkgExtRef := none } else s) = head s := by split <;> rfl
  rw [← e]
  generalize (if tag ≠ .externalRefComment then { s with pkgExtRef := none } else s) = t at h
  split at h
  all_goals first
    | (have w := head_openPackage h; exact w)
    | (have w := head_openFile h; exact w)
    | (have w := headStep_otherLicense (b := false) h; exact w)
    | exact head_modPkg h
    | (have w := headStep_review (b := false) h; exact w)
    | (have w := headStep_shared (b := false) h; exact w)
    | (rw [bind_eq_ok] at h; obtain ⟨e, -, h⟩ := h; exact head_modPkg h)
    | (split at h
       · exact head_modPkg h
       · simp at h)
    | (split at h
       · simp at h
       · exact head_modPkg h)
    | (split at h
       · simp at h
       · rw [bind_eq_ok] at h
         obtain ⟨s1, h1, h⟩ := h
         simp only [Res.ok.injEq] at h; subst h
         have w := head_modPkg h1; exact w)
    | (split at h
       · simp at h
       · rw [bind_eq_ok] at h
         obtain ⟨s0, h0, h⟩ := h
         rw [bind_eq_ok] at h
         obtain ⟨s1, h1, h⟩ := h
         simp only [Res.ok.injEq] at h; subst h
         have w := head_modPkg h1; exact w)
    | skip
  · rw [bind_eq_ok] at h
    obtain ⟨e, -, h⟩ := h
    rw [bind_eq_ok] at h
    obtain ⟨s1, h1, h⟩ := h
    split at h
    · simp at h
    · have := head_modDoc_same h (fun d => rfl)
      show _ = _
      rw [this, head_modPkg h1]

theorem headStep_startTags {v s tag value s' r} (h : parseStartTags s tag value = some r) (hr : r = .ok s') :
    HeadStep v true tag value (head s) (head s') := by
  subst hr
  unfold parseStartTags at h
  split at h <;> try simp only [Option.some.injEq] at h
  · exact head_modDoc (g := fun d => { d with comment := value }) h (fun d => rfl)
  · exact head_modDoc (g := fun d => { d with spdxVersion := value }) h (fun d => rfl)
  · exact head_modDoc (g := fun d => { d with dataLicense := value }) h (fun d => rfl)
  · rw [bind_eq_ok] at h
    obtain ⟨e, he, h⟩ := h
    exact ⟨e, he, head_modDoc (g := fun d => { d with spdxId := e }) h (fun d => rfl)⟩
  · exact head_modDoc (g := fun d => { d with name := value }) h (fun d => rfl)
  · exact head_modDoc (g := fun d => { d with namespace_ := value }) h (fun d => rfl)
  · rw [bind_eq_ok] at h
    obtain ⟨e, he, h⟩ := h
    exact ⟨e, he, head_modDoc (g := fun d => { d with externalDocumentRefs := d.externalDocumentRefs ++ [e] }) h (fun d => rfl)⟩
  · simp at h

theorem headStep_back {v b s tag value s'} (h : backToStart s tag value = .ok s')
    (ht : tag = .documentComment ∨ tag = .externalDocumentRef) : HeadStep v b tag value (head s) (head s') := by
  unfold backToStart at h
  split at h
  · rename_i r hr
    have := headStep_startTags (v := v) hr h
    rw [head_ensureDoc] at this
    have e : head { s with st := .start } = head s := rfl
    rw [e] at this
    rcases ht with rfl | rfl <;> exact this
  · simp at h

theorem headStep_creationInfo {v b s tag value s'} (h : parseFromCreationInfo v s tag value = .ok s')
    (ht : tag = .spdxID → b = false) : HeadStep v b tag value (head s) (head s') := by
  unfold parseFromCreationInfo at h
  split at h
  · simp at h
  · rename_i d hd
    simp only at h
    rw [← head_ensureCI hd]
    generalize ensureCI s d = t at h
    split at h
    all_goals first
      | exact head_modCI h
      | (rw [bind_eq_ok] at h
         obtain ⟨⟨k, x⟩, hkx, h⟩ := h
         simp only at h
         split at h
         · rename_i hk; exact ⟨k, x, hkx, hk, head_modCI h⟩
         · simp at h)
      | (split at h
         · simp at h
         · have := head_openPackage h; exact this)
      | (have w := head_openFile h; exact w)
      | (have w := headStep_otherLicense (b := b) h; exact w)
      | (have w := headStep_review (b := b) h; exact w)
      | (split at h
         · simp at h
         · exact headStep_back h (Or.inl rfl))
      | exact headStep_back h (Or.inr rfl)
      | (have w := headStep_shared (b := b) h; exact w)

theorem headStep_start {v s tag value s'} (h : parseFromStart v s tag value = .ok s') :
    HeadStep v true tag value (head s) (head s') := by
  unfold parseFromStart at h
  simp only at h
  rw [← head_ensureDoc]
  generalize ensureDoc s = t at h
  split at h
  · rename_i r hr; exact headStep_startTags hr h
  · rename_i hr
    have := headStep_creationInfo (b := true) h (by rintro rfl; simp [parseStartTags] at hr)
    exact this

/-- What one pair does to the document-level fields. -/
theorem headStep_pair {v : Version} {s s' : Parser} {p : TVPair} (h : parsePair v s p = .ok s') :
    HeadStep v (decide (s.st = .start)) (Tag.ofStr p.tag) p.value (head s) (head s') := by
  unfold parsePair at h
  simp only at h
  split at h <;> rename_i hst <;> rw [hst]
  · exact headStep_start h
  · exact headStep_creationInfo h (by simp)
  · exact headStep_package h
  · exact headStep_file h
  · exact headStep_snippet h
  · exact headStep_otherLicense h
  · exact headStep_review h

end Verif
