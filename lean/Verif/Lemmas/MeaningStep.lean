import Verif.Lemmas.HeadStep
import Verif.Lemmas.Outline
import Verif.Spec.Meaning

set_option linter.unusedSimpArgs false

/-!
# Sections and the creation information, step by step
-/

namespace Verif
open Spec

theorem st_openPackage {s s' : Parser} {value} (h : openPackage s value = .ok s') : s'.st = s.st := by
  unfold openPackage at h
  simp only at h
  split at h
  · split at h
    · simp at h
    · obtain ⟨i, -, rfl⟩ := modPkg_ok h; rfl
  · obtain ⟨i, -, rfl⟩ := modPkg_ok h; rfl

/-- How a pair changes the section. -/
theorem st_pair {v : Version} {s s' : Parser} {p : TVPair} (h : parsePair v s p = .ok s') :
    (Tag.ofStr p.tag = .packageName ∧ s'.st = .package) ∨ (Tag.ofStr p.tag = .fileName ∧ s'.st = .file) ∨
    (Tag.ofStr p.tag ≠ .packageName ∧ Tag.ofStr p.tag ≠ .fileName ∧ StStep (s.fileLacksId = false) s.st s'.st) := by
  unfold parsePair at h
  simp only at h
  by_cases n1 : Tag.ofStr p.tag = .packageName
  · left
    refine ⟨n1, ?_⟩
    rw [n1] at h
    split at h
    · simp only [parseFromStart, parseStartTags, parseFromCreationInfo] at h
      split at h
      · simp at h
      · split at h
        · simp at h
        · exact st_openPackage h
    · simp only [parseFromCreationInfo] at h
      split at h
      · simp at h
      · split at h
        · simp at h
        · exact st_openPackage h
    · rename_i hs0
      simp only [parseFromPackage] at h
      simp at h
      rw [st_openPackage h]; exact hs0
    · simp only [parseFromFile] at h
      simp only [ne_eq, reduceCtorEq, not_false_eq_true, and_self, if_true] at h
      split at h
      · simp at h
      · rw [st_openPackage h]
    · simp only [parseFromSnippet] at h
      rw [st_openPackage h]
    · simp [parseFromOtherLicense, parseShared] at h
    · simp [parseFromReview, parseShared] at h
  · right
    by_cases n2 : Tag.ofStr p.tag = .fileName
    · left
      refine ⟨n2, ?_⟩
      rw [n2] at h
      split at h
      · simp only [parseFromStart, parseStartTags, parseFromCreationInfo] at h
        split at h
        · simp at h
        · exact (skel_openFile h).2.1
      · simp only [parseFromCreationInfo] at h
        split at h
        · simp at h
        · exact (skel_openFile h).2.1
      · simp only [parseFromPackage] at h
        exact (skel_openFile h).2.1
      · rename_i hs0
        simp only [parseFromFile] at h
        rw [(skel_openFile h).2.1]
        split <;> exact hs0
      · simp only [parseFromSnippet] at h
        exact (skel_openFile h).2.1
      · simp [parseFromOtherLicense, parseShared] at h
      · simp [parseFromReview, parseShared] at h
    · right
      refine ⟨n1, n2, ?_⟩
      split at h
      · rename_i hst; exact (keep_start h hst n1 n2).2
      · rename_i hst; exact (keep_creationInfo h hst n1 n2).2
      · rename_i hst
        by_cases n3 : Tag.ofStr p.tag = .spdxID
        · rw [n3] at h
          simp only [parseFromPackage] at h
          simp only [ne_eq, reduceCtorEq, not_false_eq_true, if_true] at h
          rw [bind_eq_ok] at h
          obtain ⟨e, -, h⟩ := h
          rw [bind_eq_ok] at h
          obtain ⟨s1, h1, h⟩ := h
          split at h
          · simp at h
          · rw [st_modDoc h]
            obtain ⟨i, -, rfl⟩ := modPkg_ok h1
            exact Or.inl rfl
        · exact (keep_package h hst n1 n2 n3).2
      · rename_i hst
        by_cases n3 : Tag.ofStr p.tag = .spdxID
        · rw [n3] at h
          simp only [parseFromFile] at h
          simp only [ne_eq, reduceCtorEq, not_false_eq_true, and_self, if_true] at h
          rw [bind_eq_ok] at h
          obtain ⟨e, -, h⟩ := h
          rw [bind_eq_ok] at h
          obtain ⟨s1, h1, h⟩ := h
          obtain ⟨i, -, rfl⟩ := modFile_ok h1
          split at h
          · simp at h
          · split at h
            · rw [st_modDoc h]; exact Or.inl rfl
            · obtain ⟨j, -, rfl⟩ := modPkg_ok h; exact Or.inl rfl
        · exact (keep_file h hst n1 n2 n3).2
      · exact (keep_snippet h n1 n2).2
      · rename_i hst
        have := tail_otherLicense (Or.inl hst) h
        rcases this with hh | hh
        · rw [hh]; exact Or.inr (Or.inl rfl)
        · rw [hh]; exact Or.inr (Or.inr (Or.inl rfl))
      · exact (same_review h).keep.2

/-! ## Creation information -/

/-- The creation information has been allocated. -/
def hasCI (s : Parser) : Bool := ((s.doc.getD {}).creationInfo).isSome

theorem ci_modPkg {s s' : Parser} {f} (h : s.modPkg f = .ok s') : hasCI s' = hasCI s := by
  obtain ⟨i, -, rfl⟩ := modPkg_ok h; rfl
theorem ci_modFile {s s' : Parser} {f} (h : s.modFile f = .ok s') : hasCI s' = hasCI s := by
  obtain ⟨i, -, rfl⟩ := modFile_ok h; rfl
theorem ci_modSnip {s s' : Parser} {f} (h : s.modSnip f = .ok s') : hasCI s' = hasCI s := by
  obtain ⟨i, -, rfl⟩ := modSnip_ok h; rfl
theorem ci_modDoc {s s' : Parser} {f : HDoc → HDoc} (h : s.modDoc f = .ok s')
    (hf : ∀ d, (f d).creationInfo = d.creationInfo) : hasCI s' = hasCI s := by
  obtain ⟨d, hd, rfl⟩ := modDoc_ok h
  simp [hasCI, hd, hf]
theorem ci_openFile {s s' : Parser} {value} (h : openFile s value = .ok s') : hasCI s' = hasCI s := by
  unfold openFile at h
  simp only at h
  split at h
  · simp at h
  · simp only [Res.ok.injEq] at h; subst h; rfl
theorem ci_openPackage {s s' : Parser} {value} (h : openPackage s value = .ok s') : hasCI s' = hasCI s := by
  unfold openPackage at h
  simp only at h
  split at h
  · split at h
    · simp at h
    · rw [ci_modPkg h]; rfl
  · rw [ci_modPkg h]; rfl
theorem ci_openSnippet {s s' : Parser} {value} (h : openSnippet s value = .ok s') : hasCI s' = hasCI s := by
  unfold openSnippet at h
  split at h
  · simp at h
  · rw [bind_eq_ok] at h
    obtain ⟨e, -, h⟩ := h
    simp only at h
    split at h
    · simp only [Res.ok.injEq] at h; subst h; rfl
    · rw [ci_modFile h]; rfl
theorem ci_modAnn {s s' : Parser} {f} (h : modAnn s f = .ok s') : hasCI s' = hasCI s := by
  unfold modAnn at h
  split at h
  · simp at h
  · exact ci_modDoc h (fun _ => rfl)
theorem ci_modRev {s s' : Parser} {f} (h : modRev s f = .ok s') : hasCI s' = hasCI s := by
  unfold modRev at h
  split at h
  · simp at h
  · exact ci_modDoc h (fun _ => rfl)
theorem ci_modLic {s s' : Parser} {f} (h : modLic s f = .ok s') : hasCI s' = hasCI s := by
  unfold modLic at h
  split at h
  · simp at h
  · exact ci_modDoc h (fun _ => rfl)
theorem ci_shared {v s tag value s'} (h : parseShared v s tag value = .ok s') : hasCI s' = hasCI s := by
  unfold parseShared at h
  split at h
  · unfold parseForRelationship at h
    simp only at h
    split at h
    · simp at h
    · rename_i d hd
      rw [bind_eq_ok] at h
      obtain ⟨r, hr, h⟩ := h
      simp only [Res.ok.injEq] at h; subst h
      simp [hasCI, hd]
  · unfold parseForRelationship at h
    simp only at h
    split at h
    · simp at h
    · exact ci_modDoc h (fun _ => rfl)
  · unfold parseForAnnotation at h
    simp only at h
    split at h
    · simp at h
    · rename_i d hd
      rw [bind_eq_ok] at h
      obtain ⟨r, hr, h⟩ := h
      simp only [Res.ok.injEq] at h; subst h
      simp [hasCI, hd]
  · exact ci_modAnn h
  · exact ci_modAnn h
  · unfold parseForAnnotation at h
    simp only at h
    split at h
    · simp at h
    · rw [bind_eq_ok] at h
      obtain ⟨e, he, h⟩ := h
      exact ci_modAnn h
  · exact ci_modAnn h
  · simp at h
theorem ci_review {v s tag value s'} (h : parseFromReview v s tag value = .ok s') : hasCI s' = hasCI s := by
  unfold parseFromReview at h
  split at h
  · split at h
    · simp at h
    · rename_i d hd
      rw [bind_eq_ok] at h
      obtain ⟨⟨k, x⟩, hkx, h⟩ := h
      simp only at h
      split at h
      · simp only [Res.ok.injEq] at h; subst h
        simp [hasCI, hd]
      · simp at h
  · exact ci_modRev h
  · exact ci_modRev h
  · exact ci_shared h
theorem ci_otherLicense {v s tag value s'} (h : parseFromOtherLicense v s tag value = .ok s') : hasCI s' = hasCI s := by
  unfold parseFromOtherLicense at h
  split at h
  · split at h
    · simp at h
    · rename_i d hd
      simp only [Res.ok.injEq] at h; subst h
      simp [hasCI, hd]
  · exact ci_modLic h
  · exact ci_modLic h
  · exact ci_modLic h
  · exact ci_modLic h
  · have w := ci_review h; exact w
  · exact ci_shared h
theorem ci_snippet {v s tag value s'} (h : parseFromSnippet v s tag value = .ok s') : hasCI s' = hasCI s := by
  unfold parseFromSnippet at h
  split at h
  all_goals first
    | (have w := ci_openSnippet h; exact w)
    | (have w := ci_openFile h; exact w)
    | (have w := ci_openPackage h; exact w)
    | (have w := ci_otherLicense h; exact w)
    | exact ci_modSnip h
    | (have w := ci_review h; exact w)
    | exact ci_shared h
    | (rw [bind_eq_ok] at h; obtain ⟨e, -, h⟩ := h; exact ci_modSnip h)
    | (split at h
       · simp at h
       · exact ci_modSnip h)
theorem ci_file {v s tag value s'} (h : parseFromFile v s tag value = .ok s') : hasCI s' = hasCI s := by
  unfold parseFromFile at h
  simp only at h
  have e : hasCI (if tag ≠ .artifactOfProjectHomePage ∧ tag ≠ .artifactOfProjectURI
    then { s with fileAOP := none } else s) = hasCI s := by split <;> rfl
  rw [← e]
  generalize (if tag ≠ .artifactOfProjectHomePage ∧ tag ≠ .artifactOfProjectURI
    then { s with fileAOP := none } else s) = t at h
  split at h
  all_goals first
    | (have w := ci_openSnippet h; exact w)
    | (have w := ci_openFile h; exact w)
    | (have w := ci_otherLicense h; exact w)
    | exact ci_modFile h
    | (have w := ci_review h; exact w)
    | exact ci_shared h
    | (split at h
       · simp at h
       · have w := ci_openPackage h; exact w)
    | (rw [bind_eq_ok] at h; obtain ⟨e, -, h⟩ := h; exact ci_modFile h)
    | (split at h
       · simp at h
       · exact ci_modFile h)
    | (split at h
       · simp at h
       · rw [bind_eq_ok] at h
         obtain ⟨s1, h1, h⟩ := h
         simp only [Res.ok.injEq] at h; subst h
         have w := ci_modFile h1; exact w)
    | skip
  · rw [bind_eq_ok] at h
    obtain ⟨e, -, h⟩ := h
    rw [bind_eq_ok] at h
    obtain ⟨s1, h1, h⟩ := h
    split at h
    · simp at h
    · split at h
      · rw [ci_modDoc h (fun _ => rfl), ci_modFile h1]
      · rw [ci_modPkg h, ci_modFile h1]
theorem ci_package {v s tag value s'} (h : parseFromPackage v s tag value = .ok s') : hasCI s' = hasCI s := by
  unfold parseFromPackage at h
  simp only at h
  have e : hasCI (if tag ≠ .externalRefComment then { s with pkgExtRef := none } else s) = hasCI s := by split <;> rfl
  rw [← e]
  generalize (if tag ≠ .externalRefComment then { s with pkgExtRef := none } else s) = t at h
  split at h
  all_goals first
    | (have w := ci_openPackage h; exact w)
    | (have w := ci_openFile h; exact w)
    | (have w := ci_otherLicense h; exact w)
    | exact ci_modPkg h
    | (have w := ci_review h; exact w)
    | exact ci_shared h
    | (rw [bind_eq_ok] at h; obtain ⟨e, -, h⟩ := h; exact ci_modPkg h)
    | (split at h
       · exact ci_modPkg h
       · simp at h)
    | (split at h
       · simp at h
       · exact ci_modPkg h)
    | (split at h
       · simp at h
       · rw [bind_eq_ok] at h
         obtain ⟨s1, h1, h⟩ := h
         simp only [Res.ok.injEq] at h; subst h
         have w := ci_modPkg h1; exact w)
    | (split at h
       · simp at h
       · rw [bind_eq_ok] at h
         obtain ⟨s0, h0, h⟩ := h
         rw [bind_eq_ok] at h
         obtain ⟨s1, h1, h⟩ := h
         simp only [Res.ok.injEq] at h; subst h
         have w := ci_modPkg h1; exact w)
    | skip
  · rw [bind_eq_ok] at h
    obtain ⟨e, -, h⟩ := h
    rw [bind_eq_ok] at h
    obtain ⟨s1, h1, h⟩ := h
    split at h
    · simp at h
    · rw [ci_modDoc h (fun _ => rfl), ci_modPkg h1]

theorem ci_ensureDoc (s : Parser) : hasCI (ensureDoc s) = hasCI s := by
  unfold ensureDoc; split
  · rename_i h; simp [hasCI, h]
  · rfl

theorem ci_startTags {s tag value s' r} (h : parseStartTags s tag value = some r) (hr : r = .ok s') :
    hasCI s' = hasCI s ∧ s'.st = s.st ∧ tag ∈ [Tag.documentComment, .spdxVersion, .dataLicense, .spdxID, .documentName,
      .documentNamespace, .externalDocumentRef] := by
  subst hr
  unfold parseStartTags at h
  split at h <;> try simp only [Option.some.injEq] at h
  · exact ⟨ci_modDoc h (fun _ => rfl), st_modDoc h, by simp⟩
  · exact ⟨ci_modDoc h (fun _ => rfl), st_modDoc h, by simp⟩
  · exact ⟨ci_modDoc h (fun _ => rfl), st_modDoc h, by simp⟩
  · rw [bind_eq_ok] at h
    obtain ⟨e, he, h⟩ := h
    exact ⟨ci_modDoc h (fun _ => rfl), st_modDoc h, by simp⟩
  · exact ⟨ci_modDoc h (fun _ => rfl), st_modDoc h, by simp⟩
  · exact ⟨ci_modDoc h (fun _ => rfl), st_modDoc h, by simp⟩
  · rw [bind_eq_ok] at h
    obtain ⟨e, he, h⟩ := h
    exact ⟨ci_modDoc h (fun _ => rfl), st_modDoc h, by simp⟩
  · simp at h

theorem ci_modCI {s s' : Parser} {f} (h : modCI s f = .ok s') : hasCI s' = hasCI s := by
  unfold modCI at h
  split at h
  · simp at h
  · rename_i d hd
    split at h
    · simp at h
    · rename_i c hc
      simp only [Res.ok.injEq] at h; subst h
      simp [hasCI, hd, hc]

theorem ci_back {s tag value s'} (h : backToStart s tag value = .ok s') : hasCI s' = hasCI s := by
  unfold backToStart at h
  split at h
  · rename_i r hr
    have := (ci_startTags hr h).1
    rw [ci_ensureDoc] at this
    exact this
  · simp at h

theorem ci_creationInfo {v s tag value s'} (h : parseFromCreationInfo v s tag value = .ok s') : hasCI s' = true := by
  unfold parseFromCreationInfo at h
  split at h
  · simp at h
  · rename_i d hd
    simp only at h
    have e : hasCI (ensureCI s d) = true := by
      unfold ensureCI; split
      · rfl
      · rename_i c hc; simp [hasCI, hd, hc]
    rw [← e]
    generalize ensureCI s d = t at h
    split at h
    all_goals first
      | exact ci_modCI h
      | (rw [bind_eq_ok] at h
         obtain ⟨⟨k, x⟩, hkx, h⟩ := h
         simp only at h
         split at h
         · exact ci_modCI h
         · simp at h)
      | (split at h
         · simp at h
         · have := ci_openPackage h; exact this)
      | (have w := ci_openFile h; exact w)
      | (have w := ci_otherLicense h; exact w)
      | (have w := ci_review h; exact w)
      | (split at h
         · simp at h
         · exact ci_back h)
      | exact ci_back h
      | exact ci_shared h

/-- After a pair there is creation information, unless the pair is one of the seven of the first section. -/
theorem ci_pair {v : Version} {s s' : Parser} {p : TVPair} (h : parsePair v s p = .ok s')
    (hs : s.st ≠ .start → hasCI s = true) :
    hasCI s' = true ∨ (hasCI s' = hasCI s ∧ s'.st = .start ∧
      Tag.ofStr p.tag ∈ [Tag.documentComment, .spdxVersion, .dataLicense, .spdxID, .documentName, .documentNamespace,
        .externalDocumentRef]) := by
  unfold parsePair at h
  simp only at h
  split at h <;> rename_i hst
  · unfold parseFromStart at h
    simp only at h
    split at h
    · rename_i r hr
      obtain ⟨h1, h2, h3⟩ := ci_startTags hr h
      refine Or.inr ⟨by rw [h1, ci_ensureDoc], ?_, h3⟩
      rw [h2]; unfold ensureDoc; split <;> exact hst
    · exact Or.inl (ci_creationInfo h)
  · exact Or.inl (ci_creationInfo h)
  · exact Or.inl (by rw [ci_package h]; exact hs (by simp [hst]))
  · exact Or.inl (by rw [ci_file h]; exact hs (by simp [hst]))
  · exact Or.inl (by rw [ci_snippet h]; exact hs (by simp [hst]))
  · exact Or.inl (by rw [ci_otherLicense h]; exact hs (by simp [hst]))
  · exact Or.inl (by rw [ci_review h]; exact hs (by simp [hst]))

/-- One of the seven tags of the first section, read in it. -/
theorem ci_headPair {v : Version} {s s' : Parser} {p : TVPair} (h : parsePair v s p = .ok s') (hs : s.st = .start)
    (ht : Tag.ofStr p.tag ∈ [Tag.documentComment, .spdxVersion, .dataLicense, .spdxID, .documentName, .documentNamespace,
        .externalDocumentRef]) : hasCI s' = hasCI s ∧ s'.st = .start := by
  unfold parsePair at h
  simp only [hs] at h
  unfold parseFromStart at h
  simp only at h
  split at h
  · rename_i r hr
    obtain ⟨h1, h2, h3⟩ := ci_startTags hr h
    refine ⟨by rw [h1, ci_ensureDoc], ?_⟩
    rw [h2]; unfold ensureDoc; split <;> exact hs
  · rename_i hn
    exfalso
    simp only [List.mem_cons, List.not_mem_nil, or_false] at ht
    unfold parseStartTags at hn
    rcases ht with ht | ht | ht | ht | ht | ht | ht <;> simp [ht] at hn

end Verif
