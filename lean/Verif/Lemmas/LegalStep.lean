import Verif.Lemmas.LegalValues

set_option linter.unusedSimpArgs false

/-!
# Which pairs a parser state accepts
-/

namespace Verif
open Spec

/-! ## Tags -/

theorem tag_mem {L : List Str} (hL : ∀ n ∈ L, Tag.ofStr n ≠ .other) (t : Str) :
    t ∈ L ↔ Tag.ofStr t ∈ L.map Tag.ofStr := by
  constructor
  · exact List.mem_map_of_mem
  · intro h
    obtain ⟨n, hn, e⟩ := List.mem_map.1 h
    have h1 := tag_of_ofStr (t := n) rfl (hL n hn)
    have h2 := tag_of_ofStr (t := t) e.symm (hL n hn)
    have := tagTable_inj _ h1 _ h2 rfl
    rw [← (Prod.mk.inj this).1]; exact hn

/-- The part of the text a state stands for. -/
def stPlace : PState → Place
  | .start | .creationInfo => .header
  | .package => .package
  | .file => .file
  | .snippet => .snippet
  | .otherLicense => .license
  | .review => .review

def headT : List Tag := [.spdxVersion, .dataLicense, .spdxID, .documentName, .documentNamespace, .externalDocumentRef,
  .documentComment]

def sharedT : List Tag := [.relationship, .relationshipComment, .annotator, .annotationDate, .annotationType, .spdxREF,
  .annotationComment]

/-- The tags of a part. -/
def tagsT (v : Version) : Place → List Tag
  | .header => headT ++ [.licenseListVersion, .creator, .created, .creatorComment] ++
      [.packageName, .fileName, .licenseID, .reviewer] ++ sharedT
  | .package => [.spdxID, .packageVersion, .packageFileName, .packageSupplier, .packageOriginator,
      .packageDownloadLocation, .filesAnalyzed, .packageVerificationCode, .packageChecksum, .packageHomePage,
      .packageSourceInfo, .packageLicenseConcluded, .packageLicenseInfoFromFiles, .packageLicenseDeclared,
      .packageLicenseComments, .packageCopyrightText, .packageSummary, .packageDescription, .packageComment, .externalRef,
      .externalRefComment] ++ (if v = .v21 then [] else [.packageAttributionText]) ++
      (if v = .v23 then [.primaryPackagePurpose, .releaseDate, .builtDate, .validUntilDate] else []) ++
      [.packageName, .fileName, .licenseID, .reviewer] ++ sharedT
  | .file => [.spdxID, .fileType, .fileChecksum, .licenseConcluded, .licenseInfoInFile, .licenseComments,
      .fileCopyrightText, .artifactOfProjectName, .artifactOfProjectHomePage, .artifactOfProjectURI, .fileComment,
      .fileNotice, .fileContributor, .fileDependency] ++ (if v = .v21 then [] else [.fileAttributionText]) ++
      [.packageName, .fileName, .snippetSPDXID, .licenseID, .reviewer] ++ sharedT
  | .snippet => [.snippetFromFileSPDXID, .snippetByteRange, .snippetLineRange, .snippetLicenseConcluded,
      .licenseInfoInSnippet, .snippetLicenseComments, .snippetCopyrightText, .snippetComment, .snippetName] ++
      (if v = .v21 then [] else [.snippetAttributionText]) ++
      [.packageName, .fileName, .snippetSPDXID, .licenseID, .reviewer] ++ sharedT
  | .license => [.licenseID, .extractedText, .licenseName, .licenseCrossReference, .licenseComment, .reviewer] ++ sharedT
  | .review => [.reviewer, .reviewDate, .reviewComment] ++ sharedT

theorem tagsAt_known (v : Version) (pl : Place) : ∀ n ∈ tagsAt v pl, Tag.ofStr n ≠ .other := by
  cases v <;> cases pl <;> decide +kernel

theorem tagsAt_map (v : Version) (pl : Place) : (tagsAt v pl).map Tag.ofStr = tagsT v pl := by
  cases v <;> cases pl <;> decide +kernel

theorem tagsAt_iff (v : Version) (pl : Place) (t : Str) : t ∈ tagsAt v pl ↔ Tag.ofStr t ∈ tagsT v pl := by
  rw [tag_mem (tagsAt_known v pl), tagsAt_map]

theorem headTags_iff (t : Str) : t ∈ headTags ↔ Tag.ofStr t ∈ headT := by
  rw [tag_mem (by decide +kernel)]
  rw [show headTags.map Tag.ofStr = headT by decide +kernel]

/-- The values a tag may have. -/
def ValT (v : Version) (tag : Tag) (p : TVPair) : Prop :=
  match tag with
  | .spdxID | .snippetSPDXID => ∃ e, IdReads p.value e
  | .externalDocumentRef => ∃ e, ExternalDocumentSays p.value e
  | .creator | .annotator | .reviewer => ∃ k x, AgentText p.value k x
  | .packageSupplier | .packageOriginator => ∃ k x, PartyReads p.value k x
  | .packageChecksum | .fileChecksum => ∃ c, ChecksumReads v p.value c
  | .externalRef => (wordsOf p.value).length = 3
  | .snippetFromFileSPDXID | .spdxREF => ∃ r, RefReads p.value r
  | .snippetByteRange | .snippetLineRange => ∃ r, RangeReads p r
  | .relationship => ∃ r, RelationshipSays v (p.value, []) r
  | _ => True

theorem valueLegal_iff (v : Version) (p : TVPair) : ValueLegal v p ↔ ValT v (Tag.ofStr p.tag) p := by
  have key : ValueLegal v p ↔
    ((Tag.ofStr p.tag = .spdxID ∨ Tag.ofStr p.tag = .snippetSPDXID → ∃ e, IdReads p.value e) ∧
     (Tag.ofStr p.tag = .externalDocumentRef → ∃ e, ExternalDocumentSays p.value e) ∧
     (Tag.ofStr p.tag = .creator ∨ Tag.ofStr p.tag = .annotator ∨ Tag.ofStr p.tag = .reviewer → ∃ k x, AgentText p.value k x) ∧
     (Tag.ofStr p.tag = .packageSupplier ∨ Tag.ofStr p.tag = .packageOriginator → ∃ k x, PartyReads p.value k x) ∧
     (Tag.ofStr p.tag = .packageChecksum ∨ Tag.ofStr p.tag = .fileChecksum → ∃ c, ChecksumReads v p.value c) ∧
     (Tag.ofStr p.tag = .externalRef → (wordsOf p.value).length = 3) ∧
     (Tag.ofStr p.tag = .snippetFromFileSPDXID ∨ Tag.ofStr p.tag = .spdxREF → ∃ r, RefReads p.value r) ∧
     (Tag.ofStr p.tag = .snippetByteRange ∨ Tag.ofStr p.tag = .snippetLineRange → ∃ r, RangeReads p r) ∧
     (Tag.ofStr p.tag = .relationship → ∃ r, RelationshipSays v (p.value, []) r)) := by
    simp only [tag_spdxID, tag_snippetSPDXID, tag_externalDocumentRef, tag_creator, tag_annotator, tag_reviewer,
      tag_packageSupplier, tag_packageOriginator, tag_packageChecksum, tag_fileChecksum, tag_externalRef,
      tag_snippetFromFileSPDXID, tag_spdxREF, tag_snippetByteRange, tag_snippetLineRange, tag_relationship]
    constructor
    · intro h; exact ⟨h.1, h.2, h.3, h.4, h.5, h.6, h.7, h.8, h.9⟩
    · rintro ⟨h1, h2, h3, h4, h5, h6, h7, h8, h9⟩; exact ⟨h1, h2, h3, h4, h5, h6, h7, h8, h9⟩
  rw [key]
  generalize Tag.ofStr p.tag = tag
  cases tag <;> simp [ValT]

/-! ## What makes an error -/

theorem err_bind {α β : Type} {r : Res α} {f : α → Res β} :
    (r >>= f) = .err ↔ r = .err ∨ ∃ a, r = .ok a ∧ f a = .err := by
  cases r <;> simp

theorem modDoc_err (s : Parser) (f) : s.modDoc f = .err ↔ False := by unfold Parser.modDoc; split <;> simp
theorem modPkg_err (s : Parser) (f) : s.modPkg f = .err ↔ False := by unfold Parser.modPkg; split <;> simp
theorem modFile_err (s : Parser) (f) : s.modFile f = .err ↔ False := by unfold Parser.modFile; split <;> simp
theorem modSnip_err (s : Parser) (f) : s.modSnip f = .err ↔ False := by unfold Parser.modSnip; split <;> simp
theorem modCI_err (s : Parser) (f) : modCI s f = .err ↔ False := by unfold modCI; split <;> (try split) <;> simp
theorem modRev_err (s : Parser) (f) : modRev s f = .err ↔ False := by unfold modRev; split <;> simp [modDoc_err]
theorem modLic_err (s : Parser) (f) : modLic s f = .err ↔ False := by unfold modLic; split <;> simp [modDoc_err]
theorem modAnn_err (s : Parser) (f) : modAnn s f = .err ↔ s.ann = none := by
  unfold modAnn; split <;> rename_i h <;> simp [modDoc_err, h]

/-- What must have come before. -/
def OrdT (s : Parser) (tag : Tag) : Prop :=
  match tag with
  | .relationshipComment => s.rln ≠ none
  | .annotationDate | .annotationType | .spdxREF | .annotationComment => s.ann ≠ none
  | .externalRefComment => s.pkgExtRef ≠ none
  | .artifactOfProjectHomePage | .artifactOfProjectURI => s.fileAOP ≠ none
  | _ => True

theorem shared_legal {v : Version} {s : Parser} {tag : Tag} {p : TVPair} (hd : s.doc ≠ none) :
    parseShared v s tag p.value ≠ .err ↔ tag ∈ sharedT ∧ ValT v tag p ∧ OrdT s tag := by
  obtain ⟨d, hd⟩ := Option.ne_none_iff_exists'.1 hd
  cases tag
  case relationship => simp [parseShared, parseForRelationship, hd, sharedT, ValT, OrdT, err_bind, relationship_legal]
  case relationshipComment =>
    cases hr : s.rln <;> simp [parseShared, parseForRelationship, hr, modDoc_err, sharedT, ValT, OrdT]
  case annotator => simp [parseShared, parseForAnnotation, hd, sharedT, ValT, OrdT, err_bind, annotator_legal]
  case annotationDate => simp [parseShared, parseForAnnotation, sharedT, ValT, OrdT, modAnn_err]
  case annotationType => simp [parseShared, parseForAnnotation, sharedT, ValT, OrdT, modAnn_err]
  case annotationComment => simp [parseShared, parseForAnnotation, sharedT, ValT, OrdT, modAnn_err]
  case spdxREF =>
    cases ha : s.ann with
    | none => simp [parseShared, parseForAnnotation, sharedT, ValT, OrdT, modAnn_err, ha]
    | some i =>
      simp only [parseShared, parseForAnnotation, sharedT, ValT, OrdT, ha]
      rw [ne_eq, err_bind, ref_legal]
      simp [modAnn_err, ha]
  all_goals simp [parseShared, sharedT]

theorem agent_bind {α : Type} {value : Str} {f : Str × Str → Res α} (hf : ∀ k x, f (k, x) = .err ↔ isAgentKind k = false) :
    (extractSubs g!":" value >>= f) ≠ .err ↔ ∃ k x, AgentText value k x := by
  rw [ne_eq, err_bind, ← agent_legal]
  cases h : extractSubs g!":" value with
  | ok a => obtain ⟨k, x⟩ := a; simp [hf]
  | err => simp
  | panic => exact absurd h (extractSubs_ne_panic _ _)

theorem review_legal {v : Version} {s : Parser} {tag : Tag} {p : TVPair} (hd : s.doc ≠ none) :
    parseFromReview v s tag p.value ≠ .err ↔ tag ∈ tagsT v .review ∧ ValT v tag p ∧ OrdT s tag := by
  have sh := shared_legal (v := v) (tag := tag) (p := p) hd
  obtain ⟨d, hd⟩ := Option.ne_none_iff_exists'.1 hd
  cases tag
  case reviewer =>
    simp only [parseFromReview, hd, tagsT, ValT, OrdT]
    rw [agent_bind (fun k x => by cases h : isAgentKind k <;> simp [h])]
    simp
  case reviewDate => simp [parseFromReview, modRev_err, tagsT, ValT, OrdT]
  case reviewComment => simp [parseFromReview, modRev_err, tagsT, ValT, OrdT]
  all_goals simpa [parseFromReview, tagsT, sharedT] using sh

theorem license_legal {v : Version} {s : Parser} {tag : Tag} {p : TVPair} (hd : s.doc ≠ none) :
    parseFromOtherLicense v s tag p.value ≠ .err ↔ tag ∈ tagsT v .license ∧ ValT v tag p ∧ OrdT s tag := by
  have sh := shared_legal (v := v) (tag := tag) (p := p) hd
  have rv : ∀ st, parseFromReview v { s with st := st } tag p.value ≠ .err ↔ tag ∈ tagsT v .review ∧ ValT v tag p ∧ OrdT s tag :=
    fun st => review_legal (s := { s with st := st }) hd
  obtain ⟨d, hd⟩ := Option.ne_none_iff_exists'.1 hd
  cases tag
  case reviewer => simpa [parseFromOtherLicense, tagsT, sharedT] using rv .review
  case licenseID => simp [parseFromOtherLicense, hd, tagsT, ValT, OrdT]
  case extractedText => simp [parseFromOtherLicense, modLic_err, tagsT, ValT, OrdT]
  case licenseName => simp [parseFromOtherLicense, modLic_err, tagsT, ValT, OrdT]
  case licenseCrossReference => simp [parseFromOtherLicense, modLic_err, tagsT, ValT, OrdT]
  case licenseComment => simp [parseFromOtherLicense, modLic_err, tagsT, ValT, OrdT]
  all_goals simpa [parseFromOtherLicense, tagsT, sharedT] using sh

/-! ## Openings -/

theorem openFile_legal (s : Parser) (value : Str) : openFile s value ≠ .err ↔ s.fileLacksId = false := by
  unfold openFile
  simp only
  rw [show ({ s with fileAOP := none } : Parser).fileLacksId = s.fileLacksId from rfl]
  split <;> rename_i h <;> simp [h]

theorem openPackage_legal {s : Parser} (value : Str) (hn : s.pkgNamedOrNil = true) :
    openPackage s value ≠ .err ↔ s.pkgLacksId = false := by
  unfold openPackage
  simp only
  rw [show ({ s with pkgExtRef := none } : Parser).pkgLacksId = s.pkgLacksId from rfl,
    show ({ s with pkgExtRef := none } : Parser).pkgNamedOrNil = s.pkgNamedOrNil from rfl, if_pos hn]
  split <;> rename_i h <;> simp [h, modPkg_err]

theorem openPackage_new (s : Parser) (value : Str) : openPackage s.newPkg value ≠ .err := by
  unfold openPackage
  simp [Parser.newPkg, Parser.pkgNamedOrNil, modPkg_err]

theorem openSnippet_legal (s : Parser) (value : Str) :
    openSnippet s value ≠ .err ↔ s.fileLacksId = false ∧ ∃ e, IdReads value e := by
  unfold openSnippet
  split
  · rename_i h; simp [h]
  · rename_i h
    rw [ne_eq, err_bind, element_legal]
    simp only [Bool.not_eq_true] at h
    simp only [h, true_and]
    constructor
    · intro hh
      exact Classical.not_not.1 fun hc => hh (Or.inl hc)
    · rintro he (hc | ⟨a, -, hc⟩)
      · exact hc he
      · split at hc
        · simp at hc
        · simp [modFile_err] at hc

/-- The sections that are open give their identifiers. -/
def IdsT (s : Parser) (tag : Tag) : Prop :=
  match tag with
  | .fileName | .snippetSPDXID => s.fileLacksId = false
  | .packageName => s.fileLacksId = false ∧ s.pkgLacksId = false
  | _ => True

theorem snippet_legal {v : Version} {s : Parser} {tag : Tag} {p : TVPair} (hd : s.doc ≠ none) (hf : s.fileLacksId = false)
    (hn : s.pkgNamedOrNil = true) :
    parseFromSnippet v s tag p.value ≠ .err ↔ tag ∈ tagsT v .snippet ∧ ValT v tag p ∧ OrdT s tag ∧ IdsT s tag := by
  have sh := shared_legal (v := v) (tag := tag) (p := p) hd
  have rv : ∀ st, parseFromReview v { s with st := st } tag p.value ≠ .err ↔ tag ∈ tagsT v .review ∧ ValT v tag p ∧ OrdT s tag :=
    fun st => review_legal (s := { s with st := st }) hd
  have lc : ∀ st, parseFromOtherLicense v { s with st := st } tag p.value ≠ .err ↔
      tag ∈ tagsT v .license ∧ ValT v tag p ∧ OrdT s tag :=
    fun st => license_legal (s := { s with st := st }) hd
  cases tag
  case reviewer => simpa [parseFromSnippet, tagsT, sharedT, IdsT] using rv .review
  case licenseID => simpa [parseFromSnippet, tagsT, sharedT, IdsT] using lc .otherLicense
  case snippetSPDXID =>
    simp only [parseFromSnippet]
    rw [openSnippet_legal]
    simp [tagsT, ValT, OrdT, IdsT, and_comm]
  case fileName =>
    simp only [parseFromSnippet]
    rw [openFile_legal]
    simp [tagsT, ValT, OrdT, IdsT, Parser.fileLacksId]
  case packageName =>
    simp only [parseFromSnippet]
    refine (openPackage_legal (s := { s with st := .package, file := none, snippet := none }) _ hn).trans ?_
    rw [show ({ s with st := .package, file := none, snippet := none } : Parser).pkgLacksId = s.pkgLacksId from rfl]
    simp [tagsT, ValT, OrdT, IdsT, hf]
  case snippetFromFileSPDXID =>
    simp only [parseFromSnippet]
    rw [ne_eq, err_bind, ref_legal]
    simp [tagsT, ValT, OrdT, IdsT, modSnip_err]
  case snippetByteRange =>
    simp only [parseFromSnippet]
    rw [ne_eq, err_bind, range_legal]
    simp [tagsT, ValT, OrdT, IdsT, modSnip_err]
  case snippetLineRange =>
    simp only [parseFromSnippet]
    rw [ne_eq, err_bind, range_legal]
    simp [tagsT, ValT, OrdT, IdsT, modSnip_err]
  case snippetAttributionText =>
    cases v <;> simp [parseFromSnippet, tagsT, ValT, OrdT, IdsT, modSnip_err, sharedT]
  all_goals first
    | (simp [parseFromSnippet, tagsT, ValT, OrdT, IdsT, modSnip_err]; done)
    | (simp [parseFromSnippet, tagsT, sharedT, IdsT] at sh ⊢
       cases v <;> simpa using sh)

theorem file_legal {v : Version} {s : Parser} {tag : Tag} {p : TVPair} (hd : s.doc ≠ none) (hn : s.pkgNamedOrNil = true) :
    parseFromFile v s tag p.value ≠ .err ↔ tag ∈ tagsT v .file ∧ ValT v tag p ∧ OrdT s tag ∧ IdsT s tag := by
  have sh : ∀ a, parseShared v { s with fileAOP := a } tag p.value ≠ .err ↔
      tag ∈ sharedT ∧ ValT v tag p ∧ OrdT { s with fileAOP := a } tag :=
    fun a => shared_legal (s := { s with fileAOP := a }) hd
  have rv : ∀ st a, parseFromReview v { s with st := st, fileAOP := a } tag p.value ≠ .err ↔
      tag ∈ tagsT v .review ∧ ValT v tag p ∧ OrdT { s with fileAOP := a } tag :=
    fun st a => review_legal (s := { s with st := st, fileAOP := a }) hd
  have lc : ∀ st a, parseFromOtherLicense v { s with st := st, fileAOP := a } tag p.value ≠ .err ↔
      tag ∈ tagsT v .license ∧ ValT v tag p ∧ OrdT { s with fileAOP := a } tag :=
    fun st a => license_legal (s := { s with st := st, fileAOP := a }) hd
  cases tag
  case reviewer => simpa [parseFromFile, tagsT, sharedT, IdsT, OrdT] using rv .review none
  case licenseID => simpa [parseFromFile, tagsT, sharedT, IdsT, OrdT] using lc .otherLicense none
  case snippetSPDXID =>
    simp only [parseFromFile]
    rw [openSnippet_legal]
    simp [tagsT, ValT, OrdT, IdsT, and_comm, Parser.fileLacksId]
  case fileName =>
    simp only [parseFromFile]
    rw [openFile_legal]
    simp [tagsT, ValT, OrdT, IdsT, Parser.fileLacksId]
  case packageName =>
    simp only [parseFromFile]
    simp only [ne_eq, reduceCtorEq, not_false_eq_true, and_self, if_true]
    rw [show ({ s with fileAOP := none } : Parser).fileLacksId = s.fileLacksId from rfl]
    cases hl : s.fileLacksId with
    | true => simp [IdsT, hl]
    | false =>
      simp only [Bool.false_eq_true, if_false]
      refine (openPackage_legal (s := { s with st := .package, file := none, fileAOP := none }) _ hn).trans ?_
      rw [show ({ s with st := .package, file := none, fileAOP := none } : Parser).pkgLacksId = s.pkgLacksId from rfl]
      simp [tagsT, ValT, OrdT, IdsT, hl]
  case spdxID =>
    simp only [parseFromFile]
    rw [ne_eq, err_bind, element_legal]
    simp only [tagsT, ValT, OrdT, IdsT, and_true, List.cons_append, List.mem_cons, true_or, true_and]
    constructor
    · intro hh
      exact Classical.not_not.1 fun hc => hh (Or.inl hc)
    · rintro he (hc | ⟨a, -, hc⟩)
      · exact hc he
      · simp only [ne_eq, reduceCtorEq, not_false_eq_true, and_self, if_true, err_bind, modFile_err, false_or] at hc
        obtain ⟨s1, -, hc⟩ := hc
        split at hc
        · simp at hc
        · split at hc
          · simp [modDoc_err] at hc
          · simp [modPkg_err] at hc
  case fileChecksum =>
    simp only [parseFromFile]
    rw [ne_eq, err_bind, checksum_legal]
    simp [tagsT, ValT, OrdT, IdsT, modFile_err]
  case artifactOfProjectName =>
    simp only [parseFromFile]
    cases hf : s.file <;> simp [hf, err_bind, modFile_err, tagsT, ValT, OrdT, IdsT]
  case artifactOfProjectHomePage =>
    cases hf : s.fileAOP <;> simp [parseFromFile, hf, modFile_err, tagsT, ValT, OrdT, IdsT]
  case artifactOfProjectURI =>
    cases hf : s.fileAOP <;> simp [parseFromFile, hf, modFile_err, tagsT, ValT, OrdT, IdsT]
  case fileAttributionText =>
    cases v <;> simp [parseFromFile, tagsT, ValT, OrdT, IdsT, modFile_err, sharedT]
  all_goals first
    | (simp [parseFromFile, tagsT, ValT, OrdT, IdsT, modFile_err]; done)
    | (replace sh := sh none
       simp [parseFromFile, tagsT, sharedT, IdsT, OrdT] at sh ⊢
       cases v <;> simpa using sh)

theorem package_legal {v : Version} {s : Parser} {tag : Tag} {p : TVPair} (hd : s.doc ≠ none) (hf : s.file = none)
    (hp : s.pkg ≠ none) (hn : s.pkgNamedOrNil = true) :
    parseFromPackage v s tag p.value ≠ .err ↔ tag ∈ tagsT v .package ∧ ValT v tag p ∧ OrdT s tag ∧ IdsT s tag := by
  have sh : ∀ a, parseShared v { s with pkgExtRef := a } tag p.value ≠ .err ↔
      tag ∈ sharedT ∧ ValT v tag p ∧ OrdT { s with pkgExtRef := a } tag :=
    fun a => shared_legal (s := { s with pkgExtRef := a }) hd
  have rv : ∀ st a, parseFromReview v { s with st := st, pkgExtRef := a } tag p.value ≠ .err ↔
      tag ∈ tagsT v .review ∧ ValT v tag p ∧ OrdT { s with pkgExtRef := a } tag :=
    fun st a => review_legal (s := { s with st := st, pkgExtRef := a }) hd
  have lc : ∀ st a, parseFromOtherLicense v { s with st := st, pkgExtRef := a } tag p.value ≠ .err ↔
      tag ∈ tagsT v .license ∧ ValT v tag p ∧ OrdT { s with pkgExtRef := a } tag :=
    fun st a => license_legal (s := { s with st := st, pkgExtRef := a }) hd
  cases tag
  case reviewer => simpa [parseFromPackage, tagsT, sharedT, IdsT, OrdT] using rv .review none
  case licenseID => simpa [parseFromPackage, tagsT, sharedT, IdsT, OrdT] using lc .otherLicense none
  case fileName =>
    simp only [parseFromPackage]
    rw [openFile_legal]
    simp [tagsT, ValT, OrdT, IdsT, Parser.fileLacksId]
  case packageName =>
    simp only [parseFromPackage]
    simp only [ne_eq, reduceCtorEq, not_false_eq_true, and_self, if_true]
    refine (openPackage_legal (s := { s with pkgExtRef := none }) _ hn).trans ?_
    rw [show ({ s with pkgExtRef := none } : Parser).pkgLacksId = s.pkgLacksId from rfl]
    simp [tagsT, ValT, OrdT, IdsT, Parser.fileLacksId, hf]
  case spdxID =>
    simp only [parseFromPackage]
    rw [ne_eq, err_bind, element_legal]
    simp only [tagsT, ValT, OrdT, IdsT, and_true, List.cons_append, List.mem_cons, true_or, true_and]
    constructor
    · intro hh
      exact Classical.not_not.1 fun hc => hh (Or.inl hc)
    · rintro he (hc | ⟨a, -, hc⟩)
      · exact hc he
      · simp only [ne_eq, reduceCtorEq, not_false_eq_true, and_self, if_true, err_bind, modPkg_err, false_or] at hc
        obtain ⟨s1, -, hc⟩ := hc
        split at hc
        · simp at hc
        · simp [modDoc_err] at hc
  case packageChecksum =>
    simp only [parseFromPackage]
    rw [ne_eq, err_bind, checksum_legal]
    simp [tagsT, ValT, OrdT, IdsT, modPkg_err]
  case packageSupplier =>
    simp only [parseFromPackage]
    rw [ne_eq, err_bind, supplier_legal]
    simp [tagsT, ValT, OrdT, IdsT, modPkg_err]
  case packageOriginator =>
    simp only [parseFromPackage]
    rw [ne_eq, err_bind, originator_legal]
    simp [tagsT, ValT, OrdT, IdsT, modPkg_err]
  case externalRef =>
    simp only [parseFromPackage]
    simp only [ne_eq, reduceCtorEq, not_false_eq_true, and_self, if_true]
    obtain ⟨i, hp⟩ := Option.ne_none_iff_exists'.1 hp
    rw [hp]
    simp only [err_bind, externalRef_legal]
    simp [tagsT, ValT, OrdT, IdsT, modPkg_err]
  case externalRefComment =>
    cases hf : s.pkgExtRef <;> simp [parseFromPackage, hf, modPkg_err, err_bind, tagsT, ValT, OrdT, IdsT]
  case packageAttributionText =>
    cases v <;> simp [parseFromPackage, tagsT, ValT, OrdT, IdsT, modPkg_err, sharedT]
  case primaryPackagePurpose =>
    cases v <;> simp [parseFromPackage, tagsT, ValT, OrdT, IdsT, modPkg_err, sharedT]
  case releaseDate =>
    cases v <;> simp [parseFromPackage, tagsT, ValT, OrdT, IdsT, modPkg_err, sharedT]
  case builtDate =>
    cases v <;> simp [parseFromPackage, tagsT, ValT, OrdT, IdsT, modPkg_err, sharedT]
  case validUntilDate =>
    cases v <;> simp [parseFromPackage, tagsT, ValT, OrdT, IdsT, modPkg_err, sharedT]
  all_goals first
    | (simp [parseFromPackage, tagsT, ValT, OrdT, IdsT, modPkg_err]; done)
    | (replace sh := sh none
       simp [parseFromPackage, tagsT, sharedT, IdsT, OrdT] at sh ⊢
       cases v <;> simpa using sh)

theorem startTags_legal {v : Version} {s : Parser} {tag : Tag} {p : TVPair} {r : Res Parser}
    (h : parseStartTags s tag p.value = some r) : tag ∈ headT ∧ (r ≠ .err ↔ ValT v tag p) := by
  cases tag <;> simp [parseStartTags] at h <;> subst h <;>
    simp [headT, ValT, modDoc_err, err_bind, element_legal, externalDocument_legal]

theorem startTags_none {s : Parser} {tag : Tag} {value : Str} : parseStartTags s tag value = none ↔ tag ∉ headT := by
  cases tag <;> simp [parseStartTags, headT]

theorem creation_legal {v : Version} {s : Parser} {tag : Tag} {p : TVPair} (hd : s.doc ≠ none) (hf : s.file = none)
    (hp : s.pkg = none) : parseFromCreationInfo v s tag p.value ≠ .err ↔
      tag ∈ tagsT v .header ∧ ValT v tag p ∧ OrdT s tag ∧ IdsT s tag ∧
      (tag ∈ headT → tag = .externalDocumentRef ∨ (v ≠ .v21 ∧ tag = .documentComment)) := by
  obtain ⟨d, hd⟩ := Option.ne_none_iff_exists'.1 hd
  unfold parseFromCreationInfo
  rw [hd]
  simp only
  have hd' : (ensureCI s d).doc ≠ none := by unfold ensureCI; split <;> simp [hd]
  have hf' : (ensureCI s d).file = none := by unfold ensureCI; split <;> simp [hf]
  have hp' : (ensureCI s d).pkg = none := by unfold ensureCI; split <;> simp [hp]
  have ho : OrdT s tag ↔ OrdT (ensureCI s d) tag := by
    unfold ensureCI; split <;> exact Iff.rfl
  have hi : IdsT s tag ↔ True := by
    unfold IdsT; split <;> simp [Parser.fileLacksId, Parser.pkgLacksId, hf, hp]
  rw [ho, hi]
  generalize ensureCI s d = t at *
  have sh := shared_legal (v := v) (tag := tag) (p := p) hd'
  have rv : ∀ st, parseFromReview v { t with st := st } tag p.value ≠ .err ↔
      tag ∈ tagsT v .review ∧ ValT v tag p ∧ OrdT t tag :=
    fun st => review_legal (s := { t with st := st }) hd'
  have lc : ∀ st, parseFromOtherLicense v { t with st := st } tag p.value ≠ .err ↔
      tag ∈ tagsT v .license ∧ ValT v tag p ∧ OrdT t tag :=
    fun st => license_legal (s := { t with st := st }) hd'
  cases tag
  case reviewer => simpa [tagsT, sharedT, headT] using rv .review
  case licenseID => simpa [tagsT, sharedT, headT] using lc .otherLicense
  case fileName =>
    simp only
    rw [openFile_legal]
    simp [tagsT, ValT, OrdT, Parser.fileLacksId, hf', headT]
  case packageName =>
    simp only
    rw [if_neg (by simp [Parser.fileLacksId, hf'])]
    simp [tagsT, ValT, OrdT, headT, openPackage_new]
  case creator =>
    simp only
    rw [agent_bind (fun k x => by cases h : isAgentKind k <;> simp [h, modCI_err])]
    simp [tagsT, ValT, OrdT, headT]
  case documentComment =>
    cases v <;> simp [backToStart, parseStartTags, modDoc_err, tagsT, ValT, OrdT, headT]
  case externalDocumentRef =>
    simp [backToStart, parseStartTags, modDoc_err, tagsT, ValT, OrdT, headT, err_bind, externalDocument_legal]
  all_goals first
    | (simp [tagsT, ValT, OrdT, headT, modCI_err]; done)
    | (simp [tagsT, sharedT, headT] at sh ⊢
       cases v <;> simpa using sh)

theorem start_legal {v : Version} {s : Parser} {tag : Tag} {p : TVPair} (hf : s.file = none)
    (hp : s.pkg = none) : parseFromStart v s tag p.value ≠ .err ↔
      tag ∈ tagsT v .header ∧ ValT v tag p ∧ OrdT s tag ∧ IdsT s tag := by
  unfold parseFromStart
  simp only
  have hd' : (ensureDoc s).doc ≠ none := by unfold ensureDoc; split <;> simp_all
  have hf' : (ensureDoc s).file = none := by unfold ensureDoc; split <;> simp [hf]
  have hp' : (ensureDoc s).pkg = none := by unfold ensureDoc; split <;> simp [hp]
  have ho : OrdT s tag ↔ OrdT (ensureDoc s) tag := by
    unfold ensureDoc; split <;> exact Iff.rfl
  have hi : IdsT s tag ↔ True := by
    unfold IdsT; split <;> simp [Parser.fileLacksId, Parser.pkgLacksId, hf, hp]
  rw [ho, hi]
  generalize ensureDoc s = t at *
  split
  · rename_i r hr
    obtain ⟨h1, h2⟩ := startTags_legal (v := v) hr
    rw [h2]
    have : OrdT t tag := by cases tag <;> simp [headT] at h1 <;> trivial
    simp [tagsT, h1, this]
  · rename_i hr
    rw [startTags_none] at hr
    refine (creation_legal (s := { t with st := .creationInfo }) hd' hf' hp').trans ?_
    have h1 : IdsT { t with st := .creationInfo } tag ↔ True := by
      unfold IdsT; split <;> simp [Parser.fileLacksId, Parser.pkgLacksId, hf', hp']
    have h2 : OrdT { t with st := .creationInfo } tag ↔ OrdT t tag := Iff.rfl
    rw [h1, h2]
    simp [hr]

/-! ## All states -/

/-- What must have come before, in the header. -/
def HeadT (v : Version) (s : Parser) (tag : Tag) : Prop :=
  s.st = .creationInfo → tag ∈ headT → tag = .externalDocumentRef ∨ (v ≠ .v21 ∧ tag = .documentComment)

theorem pair_legal {v : Version} {s : Parser} {p : TVPair} (hd : s.st ≠ .start → s.doc ≠ none)
    (ha : Ahead s.st → s.file = none ∧ s.pkg = none) (hk : s.st = .package → s.file = none ∧ s.pkg ≠ none)
    (hs : s.st = .snippet → s.fileLacksId = false) (hn : ¬inTail s → s.pkgNamedOrNil = true) :
    parsePair v s p ≠ .err ↔ Tag.ofStr p.tag ∈ tagsT v (stPlace s.st) ∧ ValT v (Tag.ofStr p.tag) p ∧
      OrdT s (Tag.ofStr p.tag) ∧ HeadT v s (Tag.ofStr p.tag) ∧
      (¬inTail s → IdsT s (Tag.ofStr p.tag)) := by
  unfold parsePair HeadT inTail
  simp only
  cases hst : s.st with
  | start =>
    obtain ⟨h1, h2⟩ := ha (Or.inl hst)
    simp only [stPlace]; rw [start_legal h1 h2]; simp
  | creationInfo =>
    obtain ⟨h1, h2⟩ := ha (Or.inr hst)
    simp only [stPlace]; rw [creation_legal (hd (by simp [hst])) h1 h2]; simp
    intros; exact and_comm
  | package =>
    obtain ⟨h1, h2⟩ := hk hst
    simp only [stPlace]; rw [package_legal (hd (by simp [hst])) h1 h2 (hn (by simp [inTail, hst]))]; simp
  | file => simp only [stPlace]; rw [file_legal (hd (by simp [hst])) (hn (by simp [inTail, hst]))]; simp
  | snippet => simp only [stPlace]; rw [snippet_legal (hd (by simp [hst])) (hs hst) (hn (by simp [inTail, hst]))]; simp
  | otherLicense => simp only [stPlace]; rw [license_legal (hd (by simp [hst]))]; simp
  | review => simp only [stPlace]; rw [review_legal (hd (by simp [hst]))]; simp

end Verif
