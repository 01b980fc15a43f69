import Verif.Lemmas.SectionTags
import Verif.Lemmas.Composite

set_option linter.unusedSimpArgs false

/-!
# The pairs of a section and the fields of its object: one pair at a time
-/

namespace Verif
open Spec

/-! ## Values -/

theorem idReads_iff {value e : Str} : extractElementID value = .ok e ↔ IdReads value e := by
  rw [extractElementID_eq_ok]
  constructor
  · rintro ⟨h1, h2, h3⟩; exact ⟨⟨h2, h3⟩, h1⟩
  · rintro ⟨⟨h2, h3⟩, h1⟩; exact ⟨h1, h2, h3⟩

theorem known_iff {v : Version} {a : Str} : (knownAlgorithms v).contains a = true ↔ a ∈ algorithmsOf v := by
  constructor
  · intro h
    have : ∀ v, ∀ a ∈ knownAlgorithms v, a ∈ algorithmsOf v := by intro v; cases v <;> decide +kernel
    exact this v a (by simpa using h)
  · exact known_contains

theorem checksumReads_of {v : Version} {value : Str} {c : Checksum} (h : parseChecksum v value = .ok c) :
    ChecksumReads v value c := by
  unfold parseChecksum at h
  rw [bind_eq_ok] at h
  obtain ⟨⟨k, x⟩, hx, h⟩ := h
  simp only at h
  split at h
  · rename_i hk
    simp only [Res.ok.injEq] at h; subst h
    exact ⟨colonPair_of hx, known_iff.1 hk⟩
  · simp at h

theorem supplierReads_of {value : Str} {x : Supplier} (h : parseSupplier value = .ok x) :
    PartyReads value x.supplierType x.supplier := by
  unfold parseSupplier at h
  split at h
  · rename_i hv
    simp only [Res.ok.injEq] at h; subst h
    exact Or.inl ⟨hv, rfl, rfl⟩
  · rename_i hv
    rw [bind_eq_ok] at h
    obtain ⟨⟨k, y⟩, hx, h⟩ := h
    simp only at h
    split at h
    · rename_i hk
      simp only [Res.ok.injEq] at h; subst h
      exact Or.inr ⟨hv, colonPair_of hx, by simpa [partyKinds] using hk⟩
    · simp at h

theorem originatorReads_of {value : Str} {x : Originator} (h : parseOriginator value = .ok x) :
    PartyReads value x.originatorType x.originator := by
  unfold parseOriginator at h
  split at h
  · rename_i hv
    simp only [Res.ok.injEq] at h; subst h
    exact Or.inl ⟨hv, rfl, rfl⟩
  · rename_i hv
    rw [bind_eq_ok] at h
    obtain ⟨⟨k, y⟩, hx, h⟩ := h
    simp only at h
    split at h
    · rename_i hk
      simp only [Res.ok.injEq] at h; subst h
      exact Or.inr ⟨hv, colonPair_of hx, by simpa [partyKinds] using hk⟩
    · simp at h

theorem without_iff {sep s : Str} : contains sep s = false ↔ Without sep s := contains_false_iff

theorem cut_char {c : Char} {s a b : Str} (h : cut [c] s = some (a, b)) : a = s.takeWhile fun x => x ≠ c := by
  have h1 := cut_eq h
  have h2 := cut_first (by simp) h
  have h3 : c ∉ a := fun hm => by rw [contains_single.2 hm] at h2; simp at h2
  subst h1
  rw [List.append_assoc, List.takeWhile_append_of_pos]
  · simp [List.takeWhile_cons]
  · intro x hx
    have : x ≠ c := fun he => h3 (he ▸ hx)
    simpa using this

theorem codeReads_of (value : Str) : CodeReads value (extractCodeAndExcludes value) := by
  unfold extractCodeAndExcludes
  split
  · rename_i h
    exact Or.inl ⟨without_iff.1 (by simp [contains, h]), rfl⟩
  · rename_i code rest h
    refine Or.inr ⟨code, rest, cut_eq h, without_iff.1 (cut_first (by simp) h), ?_⟩
    simp only [VerificationCode.mk.injEq, List.cons.injEq, and_true, true_and]
    congr 1
    split
    · rename_i f r hc
      exact cut_char hc
    · rename_i hc
      have : contains g!")" rest = false := by simp [contains, hc]
      have hn : ∀ x ∈ rest, x ≠ ')' := by
        rintro x hx rfl
        rw [contains_single.2 hx] at this; simp at this
      rw [takeWhile_all (by simpa using hn)]

theorem externalRefReads_of {value : Str} {x : PackageExternalRef} (h : extractPackageExternalReference value = .ok x) :
    ExternalRefReads (value, []) x := by
  unfold extractPackageExternalReference at h
  split at h
  · rename_i c t l hi
    simp only [Res.ok.injEq] at h; subst h
    exact ⟨by rw [wordsOf_eq]; exact hi, rfl⟩
  · simp at h

theorem parseRange_iff {value : Str} {i j : Int} : parseRange value = .ok (i, j) ↔
    ∃ a b, extractSubs g!":" value = .ok (a, b) ∧ NumberText a i ∧ NumberText b j := by
  unfold parseRange
  rw [bind_eq_ok]
  constructor
  · rintro ⟨⟨a, b⟩, hx, h⟩
    simp only at h
    split at h
    · simp at h
    · rename_i x ha
      split at h
      · simp at h
      · rename_i y hb
        simp only [Res.ok.injEq, Prod.mk.injEq] at h
        obtain ⟨rfl, rfl⟩ := h
        exact ⟨a, b, hx, number_iff.2 ha, number_iff.2 hb⟩
  · rintro ⟨a, b, hx, h1, h2⟩
    refine ⟨(a, b), hx, ?_⟩
    simp [number_iff.1 h1, number_iff.1 h2]

/-! ## Packages -/

/-- What a pair does to the package whose section it is in; `ext` is the reference that may get a comment. -/
def PkgStep {φ : Type} (v : Version) (tag : Tag) (value : Str) (ext : Option Nat) (p p' : Package φ) : Prop :=
  match tag with
  | .spdxID => ∃ e, extractElementID value = .ok e ∧ p' = { p with spdxId := e }
  | .packageVersion => p' = { p with version := value }
  | .packageFileName => p' = { p with fileName := value }
  | .packageSupplier => ∃ x, parseSupplier value = .ok x ∧ p' = { p with supplier := some x }
  | .packageOriginator => ∃ x, parseOriginator value = .ok x ∧ p' = { p with originator := some x }
  | .packageDownloadLocation => p' = { p with downloadLocation := value }
  | .filesAnalyzed => p' = { p with filesAnalyzedTagPresent := true,
                                    filesAnalyzed := if value = g!"false" then false
                                      else if value = g!"true" then true else p.filesAnalyzed }
  | .packageVerificationCode => p' = { p with verificationCode := some (extractCodeAndExcludes value) }
  | .packageChecksum => ∃ c, parseChecksum v value = .ok c ∧ p' = { p with checksums := p.checksums ++ [c] }
  | .packageHomePage => p' = { p with homePage := value }
  | .packageSourceInfo => p' = { p with sourceInfo := value }
  | .packageLicenseConcluded => p' = { p with licenseConcluded := value }
  | .packageLicenseInfoFromFiles => p' = { p with licenseInfoFromFiles := p.licenseInfoFromFiles ++ [value] }
  | .packageLicenseDeclared => p' = { p with licenseDeclared := value }
  | .packageLicenseComments => p' = { p with licenseComments := value }
  | .packageCopyrightText => p' = { p with copyrightText := value }
  | .packageSummary => p' = { p with summary := value }
  | .packageDescription => p' = { p with description := value }
  | .packageComment => p' = { p with comment := value }
  | .primaryPackagePurpose => v = .v23 ∧ p' = { p with primaryPurpose := value }
  | .releaseDate => v = .v23 ∧ p' = { p with releaseDate := value }
  | .builtDate => v = .v23 ∧ p' = { p with builtDate := value }
  | .validUntilDate => v = .v23 ∧ p' = { p with validUntilDate := value }
  | .packageAttributionText => v ≠ .v21 ∧ p' = { p with attributionTexts := p.attributionTexts ++ [value] }
  | .externalRef => ∃ x, extractPackageExternalReference value = .ok x ∧
      p' = { p with externalRefs := p.externalRefs ++ [x] }
  | .externalRefComment => ∃ n, ext = some n ∧ lastIdx p.externalRefs = some n ∧
      p' = { p with externalRefs := p.externalRefs.modify n fun x => { x with comment := value } }
  | _ => p' = p

section Package
variable {φ : Type} {v : Version} {tag : Tag} {value : Str} {ext : Option Nat} {p p' : Package φ}

local macro "component" H:ident : tactic => `(tactic| (
  unfold PkgStep at $H:ident
  split at $H:ident
  all_goals first
    | (subst $H:ident; simp_all; done)
    | (obtain ⟨x, h1⟩ := $H:ident; subst h1; simp_all; done)
    | (obtain ⟨x, h1, h2⟩ := $H:ident; subst h2; simp_all; done)
    | (obtain ⟨x, h1, h2, h3⟩ := $H:ident; subst h3; simp_all; done)))

theorem pkg_version (H : PkgStep v tag value ext p p') :
    p'.version = if tag = .packageVersion then value else p.version := by component H
theorem pkg_fileName (H : PkgStep v tag value ext p p') :
    p'.fileName = if tag = .packageFileName then value else p.fileName := by component H
theorem pkg_downloadLocation (H : PkgStep v tag value ext p p') :
    p'.downloadLocation = if tag = .packageDownloadLocation then value else p.downloadLocation := by component H
theorem pkg_homePage (H : PkgStep v tag value ext p p') :
    p'.homePage = if tag = .packageHomePage then value else p.homePage := by component H
theorem pkg_sourceInfo (H : PkgStep v tag value ext p p') :
    p'.sourceInfo = if tag = .packageSourceInfo then value else p.sourceInfo := by component H
theorem pkg_licenseConcluded (H : PkgStep v tag value ext p p') :
    p'.licenseConcluded = if tag = .packageLicenseConcluded then value else p.licenseConcluded := by component H
theorem pkg_licenseInfoFromFiles (H : PkgStep v tag value ext p p') :
    p'.licenseInfoFromFiles = p.licenseInfoFromFiles ++ (if tag = .packageLicenseInfoFromFiles then [value] else []) := by component H
theorem pkg_licenseDeclared (H : PkgStep v tag value ext p p') :
    p'.licenseDeclared = if tag = .packageLicenseDeclared then value else p.licenseDeclared := by component H
theorem pkg_licenseComments (H : PkgStep v tag value ext p p') :
    p'.licenseComments = if tag = .packageLicenseComments then value else p.licenseComments := by component H
theorem pkg_copyrightText (H : PkgStep v tag value ext p p') :
    p'.copyrightText = if tag = .packageCopyrightText then value else p.copyrightText := by component H
theorem pkg_summary (H : PkgStep v tag value ext p p') :
    p'.summary = if tag = .packageSummary then value else p.summary := by component H
theorem pkg_description (H : PkgStep v tag value ext p p') :
    p'.description = if tag = .packageDescription then value else p.description := by component H
theorem pkg_comment (H : PkgStep v tag value ext p p') :
    p'.comment = if tag = .packageComment then value else p.comment := by component H
theorem pkg_attributionTexts (H : PkgStep v tag value ext p p') :
    p'.attributionTexts = p.attributionTexts ++ (if tag = .packageAttributionText then [value] else []) := by component H
theorem pkg_primaryPurpose (H : PkgStep v tag value ext p p') :
    p'.primaryPurpose = if tag = .primaryPackagePurpose then value else p.primaryPurpose := by component H
theorem pkg_releaseDate (H : PkgStep v tag value ext p p') :
    p'.releaseDate = if tag = .releaseDate then value else p.releaseDate := by component H
theorem pkg_builtDate (H : PkgStep v tag value ext p p') :
    p'.builtDate = if tag = .builtDate then value else p.builtDate := by component H
theorem pkg_validUntilDate (H : PkgStep v tag value ext p p') :
    p'.validUntilDate = if tag = .validUntilDate then value else p.validUntilDate := by component H
theorem pkg_name (H : PkgStep v tag value ext p p') : p'.name = p.name := by component H
theorem pkg_files (H : PkgStep v tag value ext p p') : p'.files = p.files := by component H
theorem pkg_isUnpackaged (H : PkgStep v tag value ext p p') : p'.isUnpackaged = p.isUnpackaged := by component H
theorem pkg_annotations (H : PkgStep v tag value ext p p') : p'.annotations = p.annotations := by component H
theorem pkg_spdxId (H : PkgStep v tag value ext p p') :
    if tag = .spdxID then extractElementID value = .ok p'.spdxId else p'.spdxId = p.spdxId := by component H
theorem pkg_supplier (H : PkgStep v tag value ext p p') :
    if tag = .packageSupplier then ∃ x, parseSupplier value = .ok x ∧ p'.supplier = some x
    else p'.supplier = p.supplier := by component H
theorem pkg_originator (H : PkgStep v tag value ext p p') :
    if tag = .packageOriginator then ∃ x, parseOriginator value = .ok x ∧ p'.originator = some x
    else p'.originator = p.originator := by component H
theorem pkg_analyzedGiven (H : PkgStep v tag value ext p p') :
    p'.filesAnalyzedTagPresent = (if tag = .filesAnalyzed then true else p.filesAnalyzedTagPresent) := by component H
theorem pkg_analyzed (H : PkgStep v tag value ext p p') :
    p'.filesAnalyzed = (if tag = .filesAnalyzed then (if value = g!"false" then false
      else if value = g!"true" then true else p.filesAnalyzed) else p.filesAnalyzed) := by component H
theorem pkg_verificationCode (H : PkgStep v tag value ext p p') :
    p'.verificationCode = if tag = .packageVerificationCode then some (extractCodeAndExcludes value)
      else p.verificationCode := by component H
theorem pkg_checksums (H : PkgStep v tag value ext p p') :
    if tag = .packageChecksum then ∃ c, parseChecksum v value = .ok c ∧ p'.checksums = p.checksums ++ [c]
    else p'.checksums = p.checksums := by component H
theorem pkg_externalRefs (H : PkgStep v tag value ext p p') :
    (tag = .externalRef ∧ ∃ x, extractPackageExternalReference value = .ok x ∧ p'.externalRefs = p.externalRefs ++ [x]) ∨
    (tag = .externalRefComment ∧ ∃ n, ext = some n ∧ lastIdx p.externalRefs = some n ∧
      p'.externalRefs = p.externalRefs.modify n fun x => { x with comment := value }) ∨
    (tag ≠ .externalRef ∧ tag ≠ .externalRefComment ∧ p'.externalRefs = p.externalRefs) := by component H

theorem lastReads_snoc {α : Type} {t : Str} {T : Tag} (hT : ∀ t', Tag.ofStr t' = T ↔ t' = t) {ps : List TVPair} {q : TVPair}
    {u u' : Prop} {r : Str → α → Prop} {x x' : α} (h : LastReads t ps u r x)
    (h1 : Tag.ofStr q.tag = T → r q.value x') (h2 : Tag.ofStr q.tag ≠ T → (u → u') ∧ x' = x) :
    LastReads t (ps ++ [q]) u' r x' := by
  unfold LastReads at h ⊢
  rw [values_snoc, lastValue_snoc]
  by_cases hq : q.tag = t
  · rw [if_neg (by simp [hq]), if_pos hq]
    exact h1 ((hT _).2 hq)
  · obtain ⟨hu, rfl⟩ := h2 (fun hh => hq ((hT _).1 hh))
    rw [if_neg hq, if_neg hq, List.append_nil]
    split at h
    · rename_i hv; rw [if_pos hv]; exact hu h
    · rename_i hv; rw [if_neg hv]; exact h

theorem pointwise_values {β : Type} {t : Str} {T : Tag} (hT : ∀ t', Tag.ofStr t' = T ↔ t' = t) {ps : List TVPair} {q : TVPair}
    {R : Str → β → Prop} {l l' : List β} (h : Pointwise R (values t ps) l)
    (h1 : Tag.ofStr q.tag = T → ∃ y, R q.value y ∧ l' = l ++ [y]) (h2 : Tag.ofStr q.tag ≠ T → l' = l) :
    Pointwise R (values t (ps ++ [q])) l' := by
  rw [values_snoc]
  by_cases hq : q.tag = t
  · obtain ⟨y, hy, rfl⟩ := h1 ((hT _).2 hq)
    rw [if_pos hq]; exact h.snoc hy
  · rw [h2 (fun hh => hq ((hT _).1 hh)), if_neg hq, List.append_nil]; exact h

/-- A pair of a package section. -/
theorem packageFields_step {name : Str} {ps : List TVPair} {q : TVPair} (h : PackageFields v name ps p)
    (H : PkgStep v (Tag.ofStr q.tag) q.value ext p p') : PackageFields v name (ps ++ [q]) p' where
  name := (pkg_name H).trans h.name
  id := lastReads_snoc tag_spdxID h.id
    (fun ht => by have := pkg_spdxId H; rw [if_pos ht] at this; exact idReads_iff.1 this)
    (fun ht => by have := pkg_spdxId H; rw [if_neg ht] at this; rw [this]; exact ⟨fun e => e, rfl⟩)
  supplier := lastReads_snoc tag_packageSupplier h.supplier
    (fun ht => by
      have := pkg_supplier H; rw [if_pos ht] at this
      obtain ⟨x, hx, e⟩ := this
      exact ⟨x, e, supplierReads_of hx⟩)
    (fun ht => by have := pkg_supplier H; rw [if_neg ht] at this; rw [this]; exact ⟨fun e => e, rfl⟩)
  originator := lastReads_snoc tag_packageOriginator h.originator
    (fun ht => by
      have := pkg_originator H; rw [if_pos ht] at this
      obtain ⟨x, hx, e⟩ := this
      exact ⟨x, e, originatorReads_of hx⟩)
    (fun ht => by have := pkg_originator H; rw [if_neg ht] at this; rw [this]; exact ⟨fun e => e, rfl⟩)
  code := lastReads_snoc tag_packageVerificationCode h.code
    (fun ht => by rw [pkg_verificationCode H, if_pos ht]; exact ⟨_, rfl, codeReads_of _⟩)
    (fun ht => by rw [pkg_verificationCode H, if_neg ht]; exact ⟨fun e => e, rfl⟩)
  analyzedGiven := by
    rw [pkg_analyzedGiven H, values_filesAnalyzed]
    split
    · simp
    · rw [List.append_nil]; exact h.analyzedGiven
  analyzed := by
    rw [pkg_analyzed H, values_filesAnalyzed]
    have := h.analyzed
    by_cases ht : Tag.ofStr q.tag = .filesAnalyzed
    · rw [if_pos ht, if_pos ht, List.filter_append]
      by_cases h1 : q.value = g!"false"
      · simp [h1]
      · by_cases h2 : q.value = g!"true"
        · simp [h1, h2]
        · simp [h1, h2]; simpa using this
    · rw [if_neg ht, if_neg ht, List.append_nil]; exact this
  checksums := pointwise_values tag_packageChecksum h.checksums
    (fun ht => by
      have := pkg_checksums H; rw [if_pos ht] at this
      obtain ⟨x, hx, e⟩ := this
      exact ⟨x, checksumReads_of hx, e⟩)
    (fun ht => by have := pkg_checksums H; rwa [if_neg ht] at this)
  externalRefs := by
    rw [groups_snoc]
    rcases pkg_externalRefs H with ⟨ht, x, hx, e⟩ | ⟨ht, n, -, hn, e⟩ | ⟨n1, n2, e⟩
    · rw [e, if_pos ((tag_externalRef _).1 ht)]
      exact h.externalRefs.snoc (externalRefReads_of hx)
    · have ht' := (tag_externalRefComment _).1 ht
      rw [e, modify_lastIdx hn, if_neg (by simp [ht'])]
      refine h.externalRefs.modLast ?_
      rintro g r ⟨hr, -⟩
      exact ⟨hr, by rw [lastValue_snoc, if_pos ht']⟩
    · rw [ne_eq, tag_externalRef] at n1
      rw [ne_eq, tag_externalRefComment] at n2
      rw [e, if_neg n1]
      refine h.externalRefs.same ?_
      rintro g r ⟨hr, hc⟩
      exact ⟨hr, by rw [lastValue_snoc, if_neg n2]; exact hc⟩
  packaged := (pkg_isUnpackaged H).trans h.packaged
  annotations := (pkg_annotations H).trans h.annotations
  version := by rw [pkg_version H, last_packageVersion, h.version]
  fileName := by rw [pkg_fileName H, last_packageFileName, h.fileName]
  downloadLocation := by rw [pkg_downloadLocation H, last_packageDownloadLocation, h.downloadLocation]
  homePage := by rw [pkg_homePage H, last_packageHomePage, h.homePage]
  sourceInfo := by rw [pkg_sourceInfo H, last_packageSourceInfo, h.sourceInfo]
  licenseConcluded := by rw [pkg_licenseConcluded H, last_packageLicenseConcluded, h.licenseConcluded]
  licenseDeclared := by rw [pkg_licenseDeclared H, last_packageLicenseDeclared, h.licenseDeclared]
  licenseComments := by rw [pkg_licenseComments H, last_packageLicenseComments, h.licenseComments]
  copyright := by rw [pkg_copyrightText H, last_packageCopyrightText, h.copyright]
  summary := by rw [pkg_summary H, last_packageSummary, h.summary]
  description := by rw [pkg_description H, last_packageDescription, h.description]
  comment := by rw [pkg_comment H, last_packageComment, h.comment]
  purpose := by rw [pkg_primaryPurpose H, last_primaryPackagePurpose, h.purpose]
  releaseDate := by rw [pkg_releaseDate H, last_releaseDate, h.releaseDate]
  builtDate := by rw [pkg_builtDate H, last_builtDate, h.builtDate]
  validUntil := by rw [pkg_validUntilDate H, last_validUntilDate, h.validUntil]
  licenseInfo := by rw [pkg_licenseInfoFromFiles H, values_packageLicenseInfoFromFiles, h.licenseInfo]
  attributions := by rw [pkg_attributionTexts H, values_packageAttributionText, h.attributions]

end Package

/-! ## Files -/

/-- What a pair does to the file whose section it is in; `aop` is the artifact that may get more. -/
def FileStep {σ : Type} (v : Version) (tag : Tag) (value : Str) (aop : Option Nat) (f f' : File σ) : Prop :=
  match tag with
  | .spdxID => ∃ e, extractElementID value = .ok e ∧ f' = { f with spdxId := e }
  | .fileType => f' = { f with types := f.types ++ [value] }
  | .fileChecksum => ∃ c, parseChecksum v value = .ok c ∧ f' = { f with checksums := f.checksums ++ [c] }
  | .licenseConcluded => f' = { f with licenseConcluded := value }
  | .licenseInfoInFile => f' = { f with licenseInfoInFiles := f.licenseInfoInFiles ++ [value] }
  | .licenseComments => f' = { f with licenseComments := value }
  | .fileCopyrightText => f' = { f with copyrightText := value }
  | .artifactOfProjectName => f' = { f with artifactOfProjects := f.artifactOfProjects ++ [{ name := value }] }
  | .artifactOfProjectHomePage => ∃ n, aop = some n ∧ lastIdx f.artifactOfProjects = some n ∧
      f' = { f with artifactOfProjects := f.artifactOfProjects.modify n fun a => { a with homePage := value } }
  | .artifactOfProjectURI => ∃ n, aop = some n ∧ lastIdx f.artifactOfProjects = some n ∧
      f' = { f with artifactOfProjects := f.artifactOfProjects.modify n fun a => { a with uri := value } }
  | .fileComment => f' = { f with comment := value }
  | .fileNotice => f' = { f with notice := value }
  | .fileContributor => f' = { f with contributors := f.contributors ++ [value] }
  | .fileDependency => f' = { f with dependencies := f.dependencies ++ [value] }
  | .fileAttributionText => v ≠ .v21 ∧ f' = { f with attributionTexts := f.attributionTexts ++ [value] }
  | _ => f' = f

section File
variable {σ : Type} {v : Version} {tag : Tag} {value : Str} {aop : Option Nat} {f f' : File σ}

local macro "component" H:ident : tactic => `(tactic| (
  unfold FileStep at $H:ident
  split at $H:ident
  all_goals first
    | (subst $H:ident; simp_all; done)
    | (obtain ⟨x, h1⟩ := $H:ident; subst h1; simp_all; done)
    | (obtain ⟨x, h1, h2⟩ := $H:ident; subst h2; simp_all; done)
    | (obtain ⟨x, h1, h2, h3⟩ := $H:ident; subst h3; simp_all; done)))

theorem file_licenseConcluded (H : FileStep v tag value aop f f') :
    f'.licenseConcluded = if tag = .licenseConcluded then value else f.licenseConcluded := by component H
theorem file_licenseComments (H : FileStep v tag value aop f f') :
    f'.licenseComments = if tag = .licenseComments then value else f.licenseComments := by component H
theorem file_copyrightText (H : FileStep v tag value aop f f') :
    f'.copyrightText = if tag = .fileCopyrightText then value else f.copyrightText := by component H
theorem file_comment (H : FileStep v tag value aop f f') :
    f'.comment = if tag = .fileComment then value else f.comment := by component H
theorem file_notice (H : FileStep v tag value aop f f') :
    f'.notice = if tag = .fileNotice then value else f.notice := by component H
theorem file_types (H : FileStep v tag value aop f f') :
    f'.types = f.types ++ (if tag = .fileType then [value] else []) := by component H
theorem file_licenseInfoInFiles (H : FileStep v tag value aop f f') :
    f'.licenseInfoInFiles = f.licenseInfoInFiles ++ (if tag = .licenseInfoInFile then [value] else []) := by component H
theorem file_contributors (H : FileStep v tag value aop f f') :
    f'.contributors = f.contributors ++ (if tag = .fileContributor then [value] else []) := by component H
theorem file_attributionTexts (H : FileStep v tag value aop f f') :
    f'.attributionTexts = f.attributionTexts ++ (if tag = .fileAttributionText then [value] else []) := by component H
theorem file_dependencies (H : FileStep v tag value aop f f') :
    f'.dependencies = f.dependencies ++ (if tag = .fileDependency then [value] else []) := by component H
theorem file_name (H : FileStep v tag value aop f f') : f'.name = f.name := by component H
theorem file_snippets (H : FileStep v tag value aop f f') : f'.snippets = f.snippets := by component H
theorem file_annotations (H : FileStep v tag value aop f f') : f'.annotations = f.annotations := by component H
theorem file_spdxId (H : FileStep v tag value aop f f') :
    if tag = .spdxID then extractElementID value = .ok f'.spdxId else f'.spdxId = f.spdxId := by component H
theorem file_checksums (H : FileStep v tag value aop f f') :
    if tag = .fileChecksum then ∃ c, parseChecksum v value = .ok c ∧ f'.checksums = f.checksums ++ [c]
    else f'.checksums = f.checksums := by component H
theorem file_artifacts (H : FileStep v tag value aop f f') :
    (tag = .artifactOfProjectName ∧ f'.artifactOfProjects = f.artifactOfProjects ++ [{ name := value }]) ∨
    (tag = .artifactOfProjectHomePage ∧ ∃ n, aop = some n ∧ lastIdx f.artifactOfProjects = some n ∧
      f'.artifactOfProjects = f.artifactOfProjects.modify n fun a => { a with homePage := value }) ∨
    (tag = .artifactOfProjectURI ∧ ∃ n, aop = some n ∧ lastIdx f.artifactOfProjects = some n ∧
      f'.artifactOfProjects = f.artifactOfProjects.modify n fun a => { a with uri := value }) ∨
    (tag ≠ .artifactOfProjectName ∧ tag ≠ .artifactOfProjectHomePage ∧ tag ≠ .artifactOfProjectURI ∧
      f'.artifactOfProjects = f.artifactOfProjects) := by component H

theorem modLast_map {α β : Type} {g : α → β} {f : α → α} {f' : β → β} (h : ∀ x, g (f x) = f' (g x)) (l : List α) :
    (modLast f l).map g = modLast f' (l.map g) := by
  induction l with
  | nil => rfl
  | cons a l ih =>
    cases l with
    | nil => simp [modLast, h]
    | cons b l => simp only [modLast, List.map_cons] at ih ⊢; rw [ih]

/-- A pair of a file section. -/
theorem fileFields_step {name : Str} {ps : List TVPair} {q : TVPair} (h : FileFields v name ps f)
    (H : FileStep v (Tag.ofStr q.tag) q.value aop f f') : FileFields v name (ps ++ [q]) f' where
  name := (file_name H).trans h.name
  id := lastReads_snoc tag_spdxID h.id
    (fun ht => by have := file_spdxId H; rw [if_pos ht] at this; exact idReads_iff.1 this)
    (fun ht => by have := file_spdxId H; rw [if_neg ht] at this; rw [this]; exact ⟨fun e => e, rfl⟩)
  checksums := pointwise_values tag_fileChecksum h.checksums
    (fun ht => by
      have := file_checksums H; rw [if_pos ht] at this
      obtain ⟨x, hx, e⟩ := this
      exact ⟨x, checksumReads_of hx, e⟩)
    (fun ht => by have := file_checksums H; rwa [if_neg ht] at this)
  artifacts := by
    rw [groups_snoc]
    rcases file_artifacts H with ⟨ht, e⟩ | ⟨ht, n, -, hn, e⟩ | ⟨ht, n, -, hn, e⟩ | ⟨n1, n2, n3, e⟩
    · rw [e, if_pos ((tag_artifactOfProjectName _).1 ht), h.artifacts]; simp [artifactOf, lastValue, values]
    · have ht' := (tag_artifactOfProjectHomePage _).1 ht
      rw [e, modify_lastIdx hn, if_neg (by simp [ht']), h.artifacts]
      exact (modLast_map (fun g => by simp [artifactOf, lastValue_snoc, ht']) _).symm
    · have ht' := (tag_artifactOfProjectURI _).1 ht
      rw [e, modify_lastIdx hn, if_neg (by simp [ht']), h.artifacts]
      exact (modLast_map (fun g => by simp [artifactOf, lastValue_snoc, ht']) _).symm
    · rw [ne_eq, tag_artifactOfProjectName] at n1
      rw [ne_eq, tag_artifactOfProjectHomePage] at n2
      rw [ne_eq, tag_artifactOfProjectURI] at n3
      rw [e, if_neg n1, h.artifacts]
      rw [modLast_map (f' := id) (fun g => by simp [artifactOf, lastValue_snoc, n2, n3]), modLast_id id (fun _ => rfl)]
  annotations := (file_annotations H).trans h.annotations
  licenseConcluded := by rw [file_licenseConcluded H, last_licenseConcluded, h.licenseConcluded]
  licenseComments := by rw [file_licenseComments H, last_licenseComments, h.licenseComments]
  copyright := by rw [file_copyrightText H, last_fileCopyrightText, h.copyright]
  comment := by rw [file_comment H, last_fileComment, h.comment]
  notice := by rw [file_notice H, last_fileNotice, h.notice]
  types := by rw [file_types H, values_fileType, h.types]
  licenseInfo := by rw [file_licenseInfoInFiles H, values_licenseInfoInFile, h.licenseInfo]
  contributors := by rw [file_contributors H, values_fileContributor, h.contributors]
  attributions := by rw [file_attributionTexts H, values_fileAttributionText, h.attributions]
  dependencies := by rw [file_dependencies H, values_fileDependency, h.dependencies]

end File

/-! ## Snippets -/

/-- What a pair does to the snippet whose section it is in. -/
def SnipStep (v : Version) (tag : Tag) (value : Str) (x x' : Snippet) : Prop :=
  match tag with
  | .snippetFromFileSPDXID => ∃ d, extractDocElementID value = .ok d ∧ x' = { x with fromFile := d.elementRefID }
  | .snippetByteRange => ∃ r : Int × Int, parseRange value = .ok r ∧ x' = { x with ranges := x.ranges ++
      [{ startPointer := { offset := r.1 }, endPointer := { offset := r.2 } }] }
  | .snippetLineRange => ∃ r : Int × Int, parseRange value = .ok r ∧ x' = { x with ranges := x.ranges ++
      [{ startPointer := { lineNumber := r.1 }, endPointer := { lineNumber := r.2 } }] }
  | .snippetLicenseConcluded => x' = { x with licenseConcluded := value }
  | .licenseInfoInSnippet => x' = { x with licenseInfo := x.licenseInfo ++ [value] }
  | .snippetLicenseComments => x' = { x with licenseComments := value }
  | .snippetCopyrightText => x' = { x with copyrightText := value }
  | .snippetComment => x' = { x with comment := value }
  | .snippetName => x' = { x with name := value }
  | .snippetAttributionText => v ≠ .v21 ∧ x' = { x with attributionTexts := x.attributionTexts ++ [value] }
  | _ => x' = x

section Snippet
variable {v : Version} {tag : Tag} {value : Str} {x x' : Snippet}

local macro "component" H:ident : tactic => `(tactic| (
  unfold SnipStep at $H:ident
  split at $H:ident
  all_goals first
    | (subst $H:ident; simp_all; done)
    | (obtain ⟨y, h1⟩ := $H:ident; subst h1; simp_all; done)
    | (obtain ⟨y, h1, h2⟩ := $H:ident; subst h2; simp_all; done)))

theorem snip_licenseConcluded (H : SnipStep v tag value x x') :
    x'.licenseConcluded = if tag = .snippetLicenseConcluded then value else x.licenseConcluded := by component H
theorem snip_licenseComments (H : SnipStep v tag value x x') :
    x'.licenseComments = if tag = .snippetLicenseComments then value else x.licenseComments := by component H
theorem snip_copyrightText (H : SnipStep v tag value x x') :
    x'.copyrightText = if tag = .snippetCopyrightText then value else x.copyrightText := by component H
theorem snip_comment (H : SnipStep v tag value x x') :
    x'.comment = if tag = .snippetComment then value else x.comment := by component H
theorem snip_name (H : SnipStep v tag value x x') :
    x'.name = if tag = .snippetName then value else x.name := by component H
theorem snip_licenseInfo (H : SnipStep v tag value x x') :
    x'.licenseInfo = x.licenseInfo ++ (if tag = .licenseInfoInSnippet then [value] else []) := by component H
theorem snip_attributionTexts (H : SnipStep v tag value x x') :
    x'.attributionTexts = x.attributionTexts ++ (if tag = .snippetAttributionText then [value] else []) := by component H
theorem snip_spdxId (H : SnipStep v tag value x x') : x'.spdxId = x.spdxId := by component H
theorem snip_fromFile (H : SnipStep v tag value x x') :
    if tag = .snippetFromFileSPDXID then ∃ d, extractDocElementID value = .ok d ∧ x'.fromFile = d.elementRefID
    else x'.fromFile = x.fromFile := by component H
theorem snipStep_ranges (H : SnipStep v tag value x x') :
    if tag = .snippetByteRange ∨ tag = .snippetLineRange then ∃ r : Int × Int, parseRange value = .ok r ∧ x'.ranges = x.ranges ++
      [if tag = .snippetByteRange then { startPointer := { offset := r.1 }, endPointer := { offset := r.2 } }
       else { startPointer := { lineNumber := r.1 }, endPointer := { lineNumber := r.2 } }]
    else x'.ranges = x.ranges := by component H

/-- A pair of a snippet section. -/
theorem snippetSays_step {id : Str} {ps : List TVPair} {q : TVPair} (h : SnippetSectionSays ⟨id, ps⟩ x)
    (H : SnipStep v (Tag.ofStr q.tag) q.value x x') : SnippetSectionSays ⟨id, ps ++ [q]⟩ x' where
  id := by rw [snip_spdxId H]; exact h.id
  fromFile := lastReads_snoc tag_snippetFromFileSPDXID h.fromFile
    (fun ht => by
      have := snip_fromFile H; rw [if_pos ht] at this
      obtain ⟨d, hd, e⟩ := this
      exact ⟨d, refReads_of hd, e⟩)
    (fun ht => by have := snip_fromFile H; rw [if_neg ht] at this; rw [this]; exact ⟨fun e => e, rfl⟩)
  ranges := by
    have := snipStep_ranges H
    simp only [tag_snippetByteRange, tag_snippetLineRange] at this
    simp only [List.filter_append, List.filter_cons, List.filter_nil]
    by_cases hq : q.tag = g!"SnippetByteRange" ∨ q.tag = g!"SnippetLineRange"
    · rw [if_pos hq] at this
      obtain ⟨⟨i, j⟩, hr, e⟩ := this
      rw [e, if_pos (by simpa using hq)]
      obtain ⟨a, b, hx, h1, h2⟩ := parseRange_iff.1 hr
      exact h.ranges.snoc ⟨a, b, i, j, colonPair_of hx, h1, h2, rfl⟩
    · rw [if_neg hq] at this
      rw [this, if_neg (by simpa using hq), List.append_nil]; exact h.ranges
  licenseConcluded := by rw [snip_licenseConcluded H, last_snippetLicenseConcluded, h.licenseConcluded]
  licenseComments := by rw [snip_licenseComments H, last_snippetLicenseComments, h.licenseComments]
  copyright := by rw [snip_copyrightText H, last_snippetCopyrightText, h.copyright]
  comment := by rw [snip_comment H, last_snippetComment, h.comment]
  name := by rw [snip_name H, last_snippetName, h.name]
  licenseInfo := by rw [snip_licenseInfo H, values_licenseInfoInSnippet, h.licenseInfo]
  attributions := by rw [snip_attributionTexts H, values_snippetAttributionText, h.attributions]

end Snippet
end Verif
