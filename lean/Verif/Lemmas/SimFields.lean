import Verif.Lemmas.CleanItems
import Verif.Lemmas.Outline

set_option linter.unusedSimpArgs false

/-!
# Parsing the fields of one element

The parser reads the fields the writer printed for a snippet, a file or a package and ends up with
the same element.
-/

namespace Verif
open Spec

attribute [ext] Snippet File Package

/-- Parsing `ps` turns a state that stands for `a` into one that stands for `f a`. -/
def FSteps {α : Type} (v : Version) (At : α → Parser → Prop) (ps : List TVPair) (f : α → α) : Prop :=
  ∀ a s, At a s → ∃ s', parsePairs v s ps = .ok s' ∧ At (f a) s'

section
variable {α : Type} {v : Version} {At : α → Parser → Prop}

theorem FSteps.nil : FSteps v At [] (fun a => a) := fun _ s h => ⟨s, rfl, h⟩

theorem FSteps.append {ps qs : List TVPair} {f g : α → α} (h1 : FSteps v At ps f) (h2 : FSteps v At qs g) :
    FSteps v At (ps ++ qs) (fun a => g (f a)) := by
  intro a s h
  obtain ⟨s1, e1, a1⟩ := h1 a s h
  obtain ⟨s2, e2, a2⟩ := h2 _ s1 a1
  exact ⟨s2, by rw [parsePairs_append, e1]; exact e2, a2⟩

theorem FSteps.items {is js : List Item} {f g : α → α} (h1 : FSteps v At (pairsOf is) f)
    (h2 : FSteps v At (pairsOf js) g) : FSteps v At (pairsOf (is ++ js)) (fun a => g (f a)) := by
  rw [pairsOf_append]; exact h1.append h2

theorem FSteps.congr {ps : List TVPair} {f g : α → α} (h : FSteps v At ps f) (e : ∀ a, g a = f a) :
    FSteps v At ps g := by
  have : g = f := funext e
  rw [this]; exact h

/-- A single pair. -/
theorem FSteps.single {p : TVPair} {f : α → α}
    (h : ∀ a s, At a s → ∃ s', parsePair v s p = .ok s' ∧ At (f a) s') : FSteps v At [p] f := by
  intro a s hs
  obtain ⟨s', e, h'⟩ := h a s hs
  exact ⟨s', by simp only [parsePairs, e], h'⟩

theorem FSteps.blank : FSteps v At (pairsOf [.line []]) (fun a => a) := FSteps.nil

theorem FSteps.skip {is : List Item} (h : pairsOf is = []) : FSteps v At (pairsOf is) (fun a => a) := by
  rw [h]; exact .nil

theorem FSteps.opt {t x : Str} {g : α → α} (h0 : x = [] → ∀ a, g a = a)
    (h : x ≠ [] → FSteps v At [⟨t, x⟩] g) : FSteps v At (pairsOf (opt t x)) g := by
  unfold Verif.opt
  split
  · rename_i hx; exact FSteps.nil.congr (h0 hx)
  · rename_i hx; exact h hx

theorem FSteps.optText {t x : Str} {g : α → α} (h0 : x = [] → ∀ a, g a = a)
    (h : x ≠ [] → FSteps v At [⟨t, x⟩] g) : FSteps v At (pairsOf (optText t x)) g := by
  unfold Verif.optText
  split
  · rename_i hx; exact FSteps.nil.congr (h0 hx)
  · rename_i hx; exact h hx

theorem FSteps.list {β : Type} {l : List β} {it : β → List Item} {F : β → α → α}
    (h : ∀ b ∈ l, FSteps v At (pairsOf (it b)) (F b)) :
    FSteps v At (pairsOf (l.flatMap it)) (fun a => l.foldl (fun a b => F b a) a) := by
  induction l with
  | nil => exact FSteps.nil
  | cons b l ih =>
    rw [List.flatMap_cons]
    exact (h b (by simp)).items (ih fun b hb => h b (by simp [hb]))

end

/-- The value if there is one, else the old one. -/
def pick (x old : Str) : Str := if x = [] then old else x

theorem pick_of_ne {x : Str} (h : x ≠ []) (old : Str) : pick x old = x := by simp [pick, h]
theorem pick_nil (x : Str) : pick x [] = x := by unfold pick; split <;> simp_all

theorem each_flatMap (t : Str) (l : List Str) : each t l = l.flatMap fun x => [.field t x] := by
  simp [each, List.flatMap_singleton']
  induction l <;> simp_all
theorem eachText_flatMap (t : Str) (l : List Str) : eachText t l = l.flatMap fun x => [.text t x] := by
  simp only [eachText]
  induction l <;> simp_all
theorem eachChecksum_flatMap (t : Str) (l : List Checksum) :
    eachChecksum t l = l.flatMap fun c => [.field t (pairValue c.algorithm c.value)] := by
  simp only [eachChecksum]
  induction l <;> simp_all

/-! ## Snippets -/

/-- The parser is in the snippet section, its last snippet being `x`. -/
def AtSnip (s0 : Parser) (S : List Snippet) (x : Snippet) (s : Parser) : Prop :=
  s = { s0 with st := .snippet, snippet := some S.length, snips := S ++ [x] }

theorem snip_step {v : Version} {s0 : Parser} {S : List Snippet} {t x : Str} {tag : Tag} {f : Snippet → Snippet}
    (ht : Tag.ofStr t = tag) (h : ∀ s, parseFromSnippet v s tag x = s.modSnip f) :
    FSteps v (AtSnip s0 S) [⟨t, x⟩] f := by
  apply FSteps.single
  rintro a s rfl
  refine ⟨_, ?_, rfl⟩
  simp only [parsePair, ht, h, Parser.modSnip, modify_last]

/-- Optional one-line or text field of a snippet. -/
macro "snip_opt" t:term : tactic => `(tactic|
  (first | apply FSteps.opt | apply FSteps.optText
   · rintro hx a; rw [hx]; rfl
   · intro hx
     refine (snip_step (tag := $t) (by decide +kernel) (fun _ => rfl)).congr ?_
     intro a; rw [pick_of_ne hx]))

theorem snip_ranges {v : Version} {s0 : Parser} {S : List Snippet} {l : List SnippetRange}
    (h : ∀ r ∈ l, RepRange r) :
    FSteps v (AtSnip s0 S) (pairsOf (l.flatMap renderRange)) (fun x => { x with ranges := x.ranges ++ l }) := by
  refine (FSteps.list (F := fun r x => { x with ranges := x.ranges ++ [r] }) ?_).congr ?_
  · intro r hr
    rcases h r hr with ⟨h1, h2, h3⟩ | ⟨h1, h2, h3⟩
    · have e : renderRange r = [.field g!"SnippetByteRange"
          (itoa r.startPointer.offset ++ g!":" ++ itoa r.endPointer.offset)] := by
        have e1 : r.startPointer.lineNumber = 0 := by rw [h3]
        simp [renderRange, h1.1, h2.1, e1]
      rw [e]
      refine snip_step (tag := .snippetByteRange) (by decide +kernel) ?_
      intro s
      simp only [parseFromSnippet, parseRange_itoa h1 h2, Res.bind_ok]
      rw [← h3]
    · have e : renderRange r = [.field g!"SnippetLineRange"
          (itoa r.startPointer.lineNumber ++ g!":" ++ itoa r.endPointer.lineNumber)] := by
        have e1 : r.startPointer.offset = 0 := by rw [h3]
        simp [renderRange, h1.1, h2.1, e1]
      rw [e]
      refine snip_step (tag := .snippetLineRange) (by decide +kernel) ?_
      intro s
      simp only [parseFromSnippet, parseRange_itoa h1 h2, Res.bind_ok]
      rw [← h3]
  · intro a
    clear h
    induction l generalizing a with
    | nil => simp
    | cons r l ih => simp only [List.foldl_cons]; rw [← ih]; simp

/-- What the writer prints for a snippet after its identifier. -/
def snippetRest (v : Version) (x : Snippet) : List Item :=
      [.field g!"SnippetFromFileSPDXID" (renderElementID x.fromFile)] ++
      x.ranges.flatMap renderRange ++
      opt g!"SnippetLicenseConcluded" x.licenseConcluded ++
      each g!"LicenseInfoInSnippet" x.licenseInfo ++
      optText g!"SnippetLicenseComments" x.licenseComments ++
      optText g!"SnippetCopyrightText" x.copyrightText ++
      optText g!"SnippetComment" x.comment ++
      opt g!"SnippetName" x.name ++
      (if v = .v21 then [] else eachText g!"SnippetAttributionText" x.attributionTexts) ++
      [.line []]

theorem snip_fields {v : Version} {s0 : Parser} {S : List Snippet} {x : Snippet} (h : RepSnippet v x) (s : Parser)
    (hs : AtSnip s0 S { spdxId := x.spdxId } s) :
    ∃ s', parsePairs v s (pairsOf (snippetRest v x)) = .ok s' ∧ AtSnip s0 S x s' := by
  have h1 : FSteps v (AtSnip s0 S) (pairsOf [.field g!"SnippetFromFileSPDXID" (renderElementID x.fromFile)])
      (fun a => { a with fromFile := x.fromFile }) := by
    refine snip_step (tag := .snippetFromFileSPDXID) (by decide +kernel) ?_
    intro s
    have : extractDocElementID (renderElementID x.fromFile) = .ok { elementRefID := x.fromFile } :=
      extractDocElementID_eq_ok.2 ⟨rfl, h.fromFile.1.1, h.fromFile.2, by simp, by simp [renderDocElementID, renderElementID]⟩
    simp only [parseFromSnippet, this, Res.bind_ok]
  have h2 := snip_ranges (v := v) (s0 := s0) (S := S) h.ranges
  have h3 : FSteps v (AtSnip s0 S) (pairsOf (opt g!"SnippetLicenseConcluded" x.licenseConcluded))
      (fun a => { a with licenseConcluded := pick x.licenseConcluded a.licenseConcluded }) := by
    snip_opt .snippetLicenseConcluded
  have h4 : FSteps v (AtSnip s0 S) (pairsOf (each g!"LicenseInfoInSnippet" x.licenseInfo))
      (fun a => { a with licenseInfo := a.licenseInfo ++ x.licenseInfo }) := by
    rw [each_flatMap]
    refine (FSteps.list (F := fun r x => { x with licenseInfo := x.licenseInfo ++ [r] }) ?_).congr ?_
    · intro r _
      exact snip_step (tag := .licenseInfoInSnippet) (by decide +kernel) (fun _ => rfl)
    · generalize x.licenseInfo = l
      intro a
      induction l generalizing a with
      | nil => simp
      | cons r l ih => simp only [List.foldl_cons]; rw [← ih]; simp
  have h5 : FSteps v (AtSnip s0 S) (pairsOf (optText g!"SnippetLicenseComments" x.licenseComments))
      (fun a => { a with licenseComments := pick x.licenseComments a.licenseComments }) := by
    snip_opt .snippetLicenseComments
  have h6 : FSteps v (AtSnip s0 S) (pairsOf (optText g!"SnippetCopyrightText" x.copyrightText))
      (fun a => { a with copyrightText := pick x.copyrightText a.copyrightText }) := by
    snip_opt .snippetCopyrightText
  have h7 : FSteps v (AtSnip s0 S) (pairsOf (optText g!"SnippetComment" x.comment))
      (fun a => { a with comment := pick x.comment a.comment }) := by
    snip_opt .snippetComment
  have h8 : FSteps v (AtSnip s0 S) (pairsOf (opt g!"SnippetName" x.name))
      (fun a => { a with name := pick x.name a.name }) := by
    snip_opt .snippetName
  have h9 : FSteps v (AtSnip s0 S) (pairsOf
      (if v = .v21 then [] else eachText g!"SnippetAttributionText" x.attributionTexts))
      (fun a => { a with attributionTexts := a.attributionTexts ++ x.attributionTexts }) := by
    split
    · rename_i hv
      refine FSteps.nil.congr ?_
      intro a; rw [h.noAttribution21 hv]; simp
    · rename_i hv
      rw [eachText_flatMap]
      refine (FSteps.list (F := fun r x => { x with attributionTexts := x.attributionTexts ++ [r] }) ?_).congr ?_
      · intro r _
        exact snip_step (tag := .snippetAttributionText) (by decide +kernel)
          (fun _ => by simp only [parseFromSnippet, if_neg hv])
      · generalize x.attributionTexts = l
        intro a
        induction l generalizing a with
        | nil => simp
        | cons r l ih => simp only [List.foldl_cons]; rw [← ih]; simp
  have hall := ((((((((h1.items h2).items h3).items h4).items h5).items h6).items h7).items h8).items h9).items
    FSteps.blank
  obtain ⟨s', e, a⟩ := hall _ s hs
  refine ⟨s', e, ?_⟩
  have hx : ∀ y, y = x → AtSnip s0 S y s' → AtSnip s0 S x s' := by rintro y rfl h; exact h
  refine hx _ ?_ a
  ext1 <;> first | rfl | exact pick_nil _ | exact List.nil_append _

theorem renderSnippet_eq (v : Version) (x : Snippet) :
    renderSnippet v x = optId g!"SnippetSPDXID" x.spdxId ++ snippetRest v x := by
  simp only [renderSnippet, snippetRest, List.append_assoc]

/-! ## Files -/

/-- The parser is in the file section, its last file being `f`. -/
def AtFile (s0 : Parser) (F : List (File Nat)) (f : File Nat) (s : Parser) : Prop :=
  ∃ e, s = { s0 with st := .file, file := some F.length, files := F ++ [f], fileAOP := e }

theorem file_step {v : Version} {s0 : Parser} {F : List (File Nat)} {t x : Str} {tag : Tag} {g : File Nat → File Nat}
    (ht : Tag.ofStr t = tag) (h : ∀ s, parseFromFile v s tag x = ({ s with fileAOP := none } : Parser).modFile g) :
    FSteps v (AtFile s0 F) [⟨t, x⟩] g := by
  apply FSteps.single
  rintro a s ⟨e, rfl⟩
  refine ⟨_, ?_, ⟨none, rfl⟩⟩
  simp only [parsePair, ht, h, Parser.modFile, modify_last]

/-- Optional one-line or text field of a file. -/
macro "file_opt" t:term : tactic => `(tactic|
  (first | apply FSteps.opt | apply FSteps.optText
   · rintro hx a; rw [hx]; rfl
   · intro hx
     refine (file_step (tag := $t) (by decide +kernel) (fun _ => rfl)).congr ?_
     intro a; rw [pick_of_ne hx]))

/-- Folding an append of one element. -/
macro "fold_append" l:term : tactic => `(tactic|
  (generalize $l = l
   intro a
   induction l generalizing a with
   | nil => simp
   | cons r l ih => simp only [List.foldl_cons]; rw [← ih]; simp))

/-- The last artifact of the current file. -/
def AtArt (s0 : Parser) (F : List (File Nat)) (f : File Nat) (a : ArtifactOfProject) (s : Parser) : Prop :=
  s = { s0 with st := .file, file := some F.length,
                files := F ++ [{ f with artifactOfProjects := f.artifactOfProjects ++ [a] }],
                fileAOP := some f.artifactOfProjects.length }

theorem art_fields {v : Version} {s0 : Parser} {F : List (File Nat)} {a : ArtifactOfProject} :
    FSteps v (AtFile s0 F) (pairsOf (renderArtifact a))
      (fun f => { f with artifactOfProjects := f.artifactOfProjects ++ [a] }) := by
  rintro f s ⟨e, rfl⟩
  have h1 : ∃ s', parsePairs v { s0 with st := .file, file := some F.length, files := F ++ [f], fileAOP := e }
      (pairsOf [.field g!"ArtifactOfProjectName" a.name]) = .ok s' ∧ AtArt s0 F f { name := a.name } s' := by
    refine ⟨_, ?_, rfl⟩
    have ht : Tag.ofStr g!"ArtifactOfProjectName" = .artifactOfProjectName := by decide +kernel
    show parsePairs v _ [⟨g!"ArtifactOfProjectName", a.name⟩] = _
    simp [parsePairs, parsePair, ht, parseFromFile, Parser.modFile, modify_last]
  have h2 : FSteps v (AtArt s0 F f) (pairsOf (opt g!"ArtifactOfProjectHomePage" a.homePage))
      (fun x => { x with homePage := pick a.homePage x.homePage }) := by
    apply FSteps.opt
    · rintro hx a; rw [hx]; rfl
    · intro hx
      apply FSteps.single
      rintro x s rfl
      refine ⟨_, ?_, rfl⟩
      have ht : Tag.ofStr g!"ArtifactOfProjectHomePage" = .artifactOfProjectHomePage := by decide +kernel
      simp [parsePair, ht, parseFromFile, Parser.modFile, modify_last, pick_of_ne hx]
  have h3 : FSteps v (AtArt s0 F f) (pairsOf (opt g!"ArtifactOfProjectURI" a.uri))
      (fun x => { x with uri := pick a.uri x.uri }) := by
    apply FSteps.opt
    · rintro hx a; rw [hx]; rfl
    · intro hx
      apply FSteps.single
      rintro x s rfl
      refine ⟨_, ?_, rfl⟩
      have ht : Tag.ofStr g!"ArtifactOfProjectURI" = .artifactOfProjectURI := by decide +kernel
      simp [parsePair, ht, parseFromFile, Parser.modFile, modify_last, pick_of_ne hx]
  obtain ⟨s1, e1, a1⟩ := h1
  obtain ⟨s2, e2, a2⟩ := (h2.items h3) _ s1 a1
  refine ⟨s2, ?_, ?_⟩
  · unfold renderArtifact
    rw [List.append_assoc, pairsOf_append, parsePairs_append, e1]; exact e2
  · rw [a2]
    refine ⟨some f.artifactOfProjects.length, ?_⟩
    simp only [pick_nil]

/-- What the writer prints for a file after its identifier. -/
def fileRest (v : Version) (x : FileV) : List Item :=
      each g!"FileType" x.types ++
      eachChecksum g!"FileChecksum" x.checksums ++
      opt g!"LicenseConcluded" x.licenseConcluded ++
      each g!"LicenseInfoInFile" x.licenseInfoInFiles ++
      optText g!"LicenseComments" x.licenseComments ++
      optText g!"FileCopyrightText" x.copyrightText ++
      x.artifactOfProjects.flatMap renderArtifact ++
      optText g!"FileComment" x.comment ++
      optText g!"FileNotice" x.notice ++
      each g!"FileContributor" x.contributors ++
      (if v = .v21 then [] else eachText g!"FileAttributionText" x.attributionTexts) ++
      each g!"FileDependency" x.dependencies ++
      [.line []]

theorem file_fields {v : Version} {s0 : Parser} {F : List (File Nat)} {x : FileV} (h : RepFile v x) (s : Parser)
    (hs : AtFile s0 F { name := x.name, spdxId := x.spdxId } s) :
    ∃ s', parsePairs v s (pairsOf (fileRest v x)) = .ok s' ∧ AtFile s0 F { x with snippets := [] } s' := by
  have h1 : FSteps v (AtFile s0 F) (pairsOf (each g!"FileType" x.types))
      (fun a => { a with types := a.types ++ x.types }) := by
    rw [each_flatMap]
    refine (FSteps.list (F := fun r a => { a with types := a.types ++ [r] }) ?_).congr ?_
    · intro r _
      exact file_step (tag := .fileType) (by decide +kernel) (fun _ => rfl)
    · fold_append x.types
  have h2 : FSteps v (AtFile s0 F) (pairsOf (eachChecksum g!"FileChecksum" x.checksums))
      (fun a => { a with checksums := a.checksums ++ x.checksums }) := by
    rw [eachChecksum_flatMap]
    refine (FSteps.list (F := fun r a => { a with checksums := a.checksums ++ [r] }) ?_).congr ?_
    · intro r hr
      refine file_step (tag := .fileChecksum) (by decide +kernel) (fun s => ?_)
      simp [parseFromFile, parseChecksum_text (h.checksums r hr)]
    · fold_append x.checksums
  have h3 : FSteps v (AtFile s0 F) (pairsOf (opt g!"LicenseConcluded" x.licenseConcluded))
      (fun a => { a with licenseConcluded := pick x.licenseConcluded a.licenseConcluded }) := by
    file_opt .licenseConcluded
  have h4 : FSteps v (AtFile s0 F) (pairsOf (each g!"LicenseInfoInFile" x.licenseInfoInFiles))
      (fun a => { a with licenseInfoInFiles := a.licenseInfoInFiles ++ x.licenseInfoInFiles }) := by
    rw [each_flatMap]
    refine (FSteps.list (F := fun r a => { a with licenseInfoInFiles := a.licenseInfoInFiles ++ [r] }) ?_).congr ?_
    · intro r _
      exact file_step (tag := .licenseInfoInFile) (by decide +kernel) (fun _ => rfl)
    · fold_append x.licenseInfoInFiles
  have h5 : FSteps v (AtFile s0 F) (pairsOf (optText g!"LicenseComments" x.licenseComments))
      (fun a => { a with licenseComments := pick x.licenseComments a.licenseComments }) := by
    file_opt .licenseComments
  have h6 : FSteps v (AtFile s0 F) (pairsOf (optText g!"FileCopyrightText" x.copyrightText))
      (fun a => { a with copyrightText := pick x.copyrightText a.copyrightText }) := by
    file_opt .fileCopyrightText
  have h7 : FSteps v (AtFile s0 F) (pairsOf (x.artifactOfProjects.flatMap renderArtifact))
      (fun a => { a with artifactOfProjects := a.artifactOfProjects ++ x.artifactOfProjects }) := by
    refine (FSteps.list (F := fun r a => { a with artifactOfProjects := a.artifactOfProjects ++ [r] })
      (fun _ _ => art_fields)).congr ?_
    fold_append x.artifactOfProjects
  have h8 : FSteps v (AtFile s0 F) (pairsOf (optText g!"FileComment" x.comment))
      (fun a => { a with comment := pick x.comment a.comment }) := by
    file_opt .fileComment
  have h9 : FSteps v (AtFile s0 F) (pairsOf (optText g!"FileNotice" x.notice))
      (fun a => { a with notice := pick x.notice a.notice }) := by
    file_opt .fileNotice
  have h10 : FSteps v (AtFile s0 F) (pairsOf (each g!"FileContributor" x.contributors))
      (fun a => { a with contributors := a.contributors ++ x.contributors }) := by
    rw [each_flatMap]
    refine (FSteps.list (F := fun r a => { a with contributors := a.contributors ++ [r] }) ?_).congr ?_
    · intro r _
      exact file_step (tag := .fileContributor) (by decide +kernel) (fun _ => rfl)
    · fold_append x.contributors
  have h11 : FSteps v (AtFile s0 F) (pairsOf
      (if v = .v21 then [] else eachText g!"FileAttributionText" x.attributionTexts))
      (fun a => { a with attributionTexts := a.attributionTexts ++ x.attributionTexts }) := by
    split
    · rename_i hv
      refine FSteps.nil.congr ?_
      intro a; rw [h.noAttribution21 hv]; simp
    · rename_i hv
      rw [eachText_flatMap]
      refine (FSteps.list (F := fun r a => { a with attributionTexts := a.attributionTexts ++ [r] }) ?_).congr ?_
      · intro r _
        exact file_step (tag := .fileAttributionText) (by decide +kernel)
          (fun _ => by simp [parseFromFile, if_neg hv])
      · fold_append x.attributionTexts
  have h12 : FSteps v (AtFile s0 F) (pairsOf (each g!"FileDependency" x.dependencies))
      (fun a => { a with dependencies := a.dependencies ++ x.dependencies }) := by
    rw [each_flatMap]
    refine (FSteps.list (F := fun r a => { a with dependencies := a.dependencies ++ [r] }) ?_).congr ?_
    · intro r _
      exact file_step (tag := .fileDependency) (by decide +kernel) (fun _ => rfl)
    · fold_append x.dependencies
  have hall := (((((((((((h1.items h2).items h3).items h4).items h5).items h6).items h7).items h8).items h9).items
    h10).items h11).items h12).items FSteps.blank
  obtain ⟨s', e, a⟩ := hall _ s hs
  refine ⟨s', e, ?_⟩
  have hx : ∀ y z, y = z → AtFile s0 F y s' → AtFile s0 F z s' := by rintro y _ rfl h; exact h
  refine hx _ _ ?_ a
  ext1 <;> first | rfl | exact pick_nil _ | exact List.nil_append _ | exact h.noAnnotations.symm

theorem renderFileFields_eq (v : Version) (x : FileV) :
    renderFileFields v x = opt g!"FileName" x.name ++ (optId g!"SPDXID" x.spdxId ++ fileRest v x) := by
  simp only [renderFileFields, fileRest, List.append_assoc]

/-! ## Packages -/

/-- The parser is in the package section, its last package being `p`. -/
def AtPkg (s0 : Parser) (P : List (Package Nat)) (p : Package Nat) (s : Parser) : Prop :=
  ∃ e, s = { s0 with st := .package, pkg := some P.length, pkgs := P ++ [p], pkgExtRef := e }

theorem pkg_step {v : Version} {s0 : Parser} {P : List (Package Nat)} {t x : Str} {tag : Tag}
    {g : Package Nat → Package Nat} (ht : Tag.ofStr t = tag)
    (h : ∀ s, parseFromPackage v s tag x = ({ s with pkgExtRef := none } : Parser).modPkg g) :
    FSteps v (AtPkg s0 P) [⟨t, x⟩] g := by
  apply FSteps.single
  rintro a s ⟨e, rfl⟩
  refine ⟨_, ?_, ⟨none, rfl⟩⟩
  simp only [parsePair, ht, h, Parser.modPkg, modify_last]

/-- Optional one-line or text field of a package. -/
macro "pkg_opt" t:term : tactic => `(tactic|
  (first | apply FSteps.opt | apply FSteps.optText
   · rintro hx a; rw [hx]; rfl
   · intro hx
     refine (pkg_step (tag := $t) (by decide +kernel) (fun _ => rfl)).congr ?_
     intro a; rw [pick_of_ne hx]))

theorem ext_ref_fields {v : Version} {s0 : Parser} {P : List (Package Nat)} {r : PackageExternalRef}
    (h : RepRef3 r) :
    FSteps v (AtPkg s0 P) (pairsOf (renderExternalRef r))
      (fun p => { p with externalRefs := p.externalRefs ++ [r] }) := by
  rintro p s ⟨e, rfl⟩
  have ht : Tag.ofStr g!"ExternalRef" = .externalRef := by decide +kernel
  have h1 : parsePairs v { s0 with st := .package, pkg := some P.length, pkgs := P ++ [p], pkgExtRef := e }
      (pairsOf [.field g!"ExternalRef" (r.category ++ g!" " ++ r.refType ++ g!" " ++ r.locator)]) =
      .ok { s0 with st := .package, pkg := some P.length,
                    pkgs := P ++ [{ p with externalRefs := p.externalRefs ++ [{ r with comment := [] }] }],
                    pkgExtRef := some p.externalRefs.length } := by
    show parsePairs v _ [⟨g!"ExternalRef", r.category ++ g!" " ++ r.refType ++ g!" " ++ r.locator⟩] = _
    have hv := extractRef3_text h
    generalize r.category ++ g!" " ++ r.refType ++ g!" " ++ r.locator = val at hv ⊢
    simp [parsePairs, parsePair, ht, parseFromPackage, hv, Parser.modPkg, modify_last]
  unfold renderExternalRef
  rw [pairsOf_append]
  rw [parsePairs_append, h1]
  simp only [Res.bind_ok]
  unfold optText
  split
  · rename_i hc
    refine ⟨_, rfl, ⟨some p.externalRefs.length, ?_⟩⟩
    rw [← hc]
  · have ht2 : Tag.ofStr g!"ExternalRefComment" = .externalRefComment := by decide +kernel
    refine ⟨_, ?_, ⟨none, rfl⟩⟩
    show parsePairs v _ [⟨g!"ExternalRefComment", r.comment⟩] = _
    simp [parsePairs, parsePair, ht2, parseFromPackage, Parser.modPkg, modify_last]

/-- What the writer prints for a package after its identifier. -/
def packageRest (v : Version) (x : PackageV) : List Item :=
      opt g!"PackageVersion" x.version ++
      opt g!"PackageFileName" x.fileName ++
      renderSupplier x.supplier ++
      renderOriginator x.originator ++
      opt g!"PackageDownloadLocation" x.downloadLocation ++
      (if v = .v23 then
        opt g!"PrimaryPackagePurpose" x.primaryPurpose ++
        opt g!"ReleaseDate" x.releaseDate ++
        opt g!"BuiltDate" x.builtDate ++
        opt g!"ValidUntilDate" x.validUntilDate
       else []) ++
      renderFilesAnalyzed x.filesAnalyzed x.filesAnalyzedTagPresent ++
      renderVerificationCode x.filesAnalyzed x.verificationCode ++
      eachChecksum g!"PackageChecksum" x.checksums ++
      opt g!"PackageHomePage" x.homePage ++
      optText g!"PackageSourceInfo" x.sourceInfo ++
      opt g!"PackageLicenseConcluded" x.licenseConcluded ++
      (if x.filesAnalyzed then each g!"PackageLicenseInfoFromFiles" x.licenseInfoFromFiles else []) ++
      opt g!"PackageLicenseDeclared" x.licenseDeclared ++
      optText g!"PackageLicenseComments" x.licenseComments ++
      optText g!"PackageCopyrightText" x.copyrightText ++
      optText g!"PackageSummary" x.summary ++
      optText g!"PackageDescription" x.description ++
      optText g!"PackageComment" x.comment ++
      x.externalRefs.flatMap renderExternalRef ++
      (if v = .v21 then [] else eachText g!"PackageAttributionText" x.attributionTexts) ++
      [.line []]

theorem pkg_fields {v : Version} {s0 : Parser} {P : List (Package Nat)} {x : PackageV} (h : RepPackage v x) (s : Parser)
    (hs : AtPkg s0 P { name := x.name, spdxId := x.spdxId, filesAnalyzed := true } s) :
    ∃ s', parsePairs v s (pairsOf (packageRest v x)) = .ok s' ∧ AtPkg s0 P { x with files := [] } s' := by
  have h1 : FSteps v (AtPkg s0 P) (pairsOf (opt g!"PackageVersion" x.version))
      (fun a => { a with version := pick x.version a.version }) := by
    pkg_opt .packageVersion
  have h2 : FSteps v (AtPkg s0 P) (pairsOf (opt g!"PackageFileName" x.fileName))
      (fun a => { a with fileName := pick x.fileName a.fileName }) := by
    pkg_opt .packageFileName
  have h3 : FSteps v (AtPkg s0 P) (pairsOf (renderSupplier x.supplier))
      (fun a => { a with supplier := x.supplier.or a.supplier }) := by
    have hr := h.supplier
    cases hx : x.supplier with
    | none => exact FSteps.nil
    | some y =>
      have hy := hr y (by simp [hx])
      obtain ⟨t, e, hp⟩ : ∃ t, renderSupplier (some y) = [.field g!"PackageSupplier" t] ∧ parseSupplier t = .ok y := by
        have := parseSupplier_text hy
        unfold renderSupplier
        rcases hy with ⟨hk, hn⟩ | ⟨hk, hn⟩
        · have hk' : y.supplierType ≠ [] := (partyKind_line1 hk).1.1.1
          rw [if_neg hk'] at this
          exact ⟨_, by simp only [if_neg hn.1, if_neg hk'], this⟩
        · rw [if_pos hk] at this
          refine ⟨_, ?_, this⟩
          simp [hk, hn]
      rw [e]
      refine pkg_step (tag := .packageSupplier) (by decide +kernel) (fun s => ?_)
      simp [parseFromPackage, hp]
  have h4 : FSteps v (AtPkg s0 P) (pairsOf (renderOriginator x.originator))
      (fun a => { a with originator := x.originator.or a.originator }) := by
    have hr := h.originator
    cases hx : x.originator with
    | none => exact FSteps.nil
    | some y =>
      have hy := hr y (by simp [hx])
      obtain ⟨t, e, hp⟩ : ∃ t, renderOriginator (some y) = [.field g!"PackageOriginator" t] ∧ parseOriginator t = .ok y := by
        have := parseOriginator_text hy
        unfold renderOriginator
        rcases hy with ⟨hk, hn⟩ | ⟨hk, hn⟩
        · have hk' : y.originatorType ≠ [] := (partyKind_line1 hk).1.1.1
          rw [if_neg hk'] at this
          exact ⟨_, by simp only [if_neg hn.1, if_neg hk'], this⟩
        · rw [if_pos hk] at this
          refine ⟨_, ?_, this⟩
          simp [hk, hn]
      rw [e]
      refine pkg_step (tag := .packageOriginator) (by decide +kernel) (fun s => ?_)
      simp [parseFromPackage, hp]
  have h5 : FSteps v (AtPkg s0 P) (pairsOf (opt g!"PackageDownloadLocation" x.downloadLocation))
      (fun a => { a with downloadLocation := pick x.downloadLocation a.downloadLocation }) := by
    pkg_opt .packageDownloadLocation
  have h6 : FSteps v (AtPkg s0 P) (pairsOf (if v = .v23 then
        opt g!"PrimaryPackagePurpose" x.primaryPurpose ++
        opt g!"ReleaseDate" x.releaseDate ++
        opt g!"BuiltDate" x.builtDate ++
        opt g!"ValidUntilDate" x.validUntilDate
       else []))
      (fun a => { a with
        primaryPurpose := pick x.primaryPurpose a.primaryPurpose, releaseDate := pick x.releaseDate a.releaseDate,
        builtDate := pick x.builtDate a.builtDate, validUntilDate := pick x.validUntilDate a.validUntilDate }) := by
    split
    · rename_i hv
      subst hv
      have a1 : FSteps .v23 (AtPkg s0 P) (pairsOf (opt g!"PrimaryPackagePurpose" x.primaryPurpose))
          (fun a => { a with primaryPurpose := pick x.primaryPurpose a.primaryPurpose }) := by
        pkg_opt .primaryPackagePurpose
      have a2 : FSteps .v23 (AtPkg s0 P) (pairsOf (opt g!"ReleaseDate" x.releaseDate))
          (fun a => { a with releaseDate := pick x.releaseDate a.releaseDate }) := by
        pkg_opt .releaseDate
      have a3 : FSteps .v23 (AtPkg s0 P) (pairsOf (opt g!"BuiltDate" x.builtDate))
          (fun a => { a with builtDate := pick x.builtDate a.builtDate }) := by
        pkg_opt .builtDate
      have a4 : FSteps .v23 (AtPkg s0 P) (pairsOf (opt g!"ValidUntilDate" x.validUntilDate))
          (fun a => { a with validUntilDate := pick x.validUntilDate a.validUntilDate }) := by
        pkg_opt .validUntilDate
      exact ((a1.items a2).items a3).items a4
    · rename_i hv
      obtain ⟨b1, b2, b3, b4⟩ := h.only23 hv
      rw [b1, b2, b3, b4]
      exact FSteps.nil
  have h7 : FSteps v (AtPkg s0 P) (pairsOf (renderFilesAnalyzed x.filesAnalyzed x.filesAnalyzedTagPresent))
      (fun a => { a with
        filesAnalyzed := if x.filesAnalyzed && !x.filesAnalyzedTagPresent then a.filesAnalyzed else x.filesAnalyzed,
        filesAnalyzedTagPresent := if x.filesAnalyzed && !x.filesAnalyzedTagPresent then a.filesAnalyzedTagPresent
          else true }) := by
    cases h1 : x.filesAnalyzed
    · exact pkg_step (tag := .filesAnalyzed) (by decide +kernel) (fun _ => rfl)
    · cases h2 : x.filesAnalyzedTagPresent
      · exact FSteps.nil
      · exact pkg_step (tag := .filesAnalyzed) (by decide +kernel) (fun _ => rfl)
  have h8 : FSteps v (AtPkg s0 P) (pairsOf (renderVerificationCode x.filesAnalyzed x.verificationCode))
      (fun a => { a with verificationCode := x.verificationCode.or a.verificationCode }) := by
    have hr := h.verificationCode
    cases hx : x.verificationCode with
    | none => exact FSteps.nil
    | some y =>
      obtain ⟨ha, hy⟩ := hr y (by simp [hx])
      have e : renderVerificationCode x.filesAnalyzed (some y) =
          [.field g!"PackageVerificationCode" (verificationValue y)] := by
        simp [renderVerificationCode, ha, hy.1.1]
      rw [e]
      refine pkg_step (tag := .packageVerificationCode) (by decide +kernel) (fun s => ?_)
      simp [parseFromPackage, extractCode_text hy]
  have h9 : FSteps v (AtPkg s0 P) (pairsOf (eachChecksum g!"PackageChecksum" x.checksums))
      (fun a => { a with checksums := a.checksums ++ x.checksums }) := by
    rw [eachChecksum_flatMap]
    refine (FSteps.list (F := fun r a => { a with checksums := a.checksums ++ [r] }) ?_).congr ?_
    · intro r hr
      refine pkg_step (tag := .packageChecksum) (by decide +kernel) (fun s => ?_)
      simp [parseFromPackage, parseChecksum_text (h.checksums r hr)]
    · fold_append x.checksums
  have h10 : FSteps v (AtPkg s0 P) (pairsOf (opt g!"PackageHomePage" x.homePage))
      (fun a => { a with homePage := pick x.homePage a.homePage }) := by
    pkg_opt .packageHomePage
  have h11 : FSteps v (AtPkg s0 P) (pairsOf (optText g!"PackageSourceInfo" x.sourceInfo))
      (fun a => { a with sourceInfo := pick x.sourceInfo a.sourceInfo }) := by
    pkg_opt .packageSourceInfo
  have h12 : FSteps v (AtPkg s0 P) (pairsOf (opt g!"PackageLicenseConcluded" x.licenseConcluded))
      (fun a => { a with licenseConcluded := pick x.licenseConcluded a.licenseConcluded }) := by
    pkg_opt .packageLicenseConcluded
  have h13 : FSteps v (AtPkg s0 P) (pairsOf
      (if x.filesAnalyzed then each g!"PackageLicenseInfoFromFiles" x.licenseInfoFromFiles else []))
      (fun a => { a with licenseInfoFromFiles := a.licenseInfoFromFiles ++ x.licenseInfoFromFiles }) := by
    split
    · rw [each_flatMap]
      refine (FSteps.list (F := fun r a => { a with licenseInfoFromFiles := a.licenseInfoFromFiles ++ [r] }) ?_).congr ?_
      · intro r _
        exact pkg_step (tag := .packageLicenseInfoFromFiles) (by decide +kernel) (fun _ => rfl)
      · fold_append x.licenseInfoFromFiles
    · rename_i hf
      refine FSteps.nil.congr ?_
      intro a; rw [h.noLicenseInfo (by simpa using hf)]; simp
  have h14 : FSteps v (AtPkg s0 P) (pairsOf (opt g!"PackageLicenseDeclared" x.licenseDeclared))
      (fun a => { a with licenseDeclared := pick x.licenseDeclared a.licenseDeclared }) := by
    pkg_opt .packageLicenseDeclared
  have h15 : FSteps v (AtPkg s0 P) (pairsOf (optText g!"PackageLicenseComments" x.licenseComments))
      (fun a => { a with licenseComments := pick x.licenseComments a.licenseComments }) := by
    pkg_opt .packageLicenseComments
  have h16 : FSteps v (AtPkg s0 P) (pairsOf (optText g!"PackageCopyrightText" x.copyrightText))
      (fun a => { a with copyrightText := pick x.copyrightText a.copyrightText }) := by
    pkg_opt .packageCopyrightText
  have h17 : FSteps v (AtPkg s0 P) (pairsOf (optText g!"PackageSummary" x.summary))
      (fun a => { a with summary := pick x.summary a.summary }) := by
    pkg_opt .packageSummary
  have h18 : FSteps v (AtPkg s0 P) (pairsOf (optText g!"PackageDescription" x.description))
      (fun a => { a with description := pick x.description a.description }) := by
    pkg_opt .packageDescription
  have h19 : FSteps v (AtPkg s0 P) (pairsOf (optText g!"PackageComment" x.comment))
      (fun a => { a with comment := pick x.comment a.comment }) := by
    pkg_opt .packageComment
  have h20 : FSteps v (AtPkg s0 P) (pairsOf (x.externalRefs.flatMap renderExternalRef))
      (fun a => { a with externalRefs := a.externalRefs ++ x.externalRefs }) := by
    refine (FSteps.list (F := fun r a => { a with externalRefs := a.externalRefs ++ [r] })
      (fun r hr => ext_ref_fields (h.externalRefs r hr))).congr ?_
    fold_append x.externalRefs
  have h21 : FSteps v (AtPkg s0 P) (pairsOf
      (if v = .v21 then [] else eachText g!"PackageAttributionText" x.attributionTexts))
      (fun a => { a with attributionTexts := a.attributionTexts ++ x.attributionTexts }) := by
    split
    · rename_i hv
      refine FSteps.nil.congr ?_
      intro a; rw [h.noAttribution21 hv]; simp
    · rename_i hv
      rw [eachText_flatMap]
      refine (FSteps.list (F := fun r a => { a with attributionTexts := a.attributionTexts ++ [r] }) ?_).congr ?_
      · intro r _
        exact pkg_step (tag := .packageAttributionText) (by decide +kernel)
          (fun _ => by simp [parseFromPackage, if_neg hv])
      · fold_append x.attributionTexts
  have hall := ((((((((((((((((((((h1.items h2).items h3).items h4).items h5).items h6).items h7).items h8).items
    h9).items h10).items h11).items h12).items h13).items h14).items h15).items h16).items h17).items h18).items
    h19).items h20).items h21).items FSteps.blank
  obtain ⟨s', e, a⟩ := hall _ s hs
  refine ⟨s', e, ?_⟩
  have hx : ∀ y z, y = z → AtPkg s0 P y s' → AtPkg s0 P z s' := by rintro y _ rfl h; exact h
  refine hx _ _ ?_ a
  have hfa := h.filesAnalyzed
  ext1 <;>
  first
  | rfl
  | exact pick_nil _
  | exact List.nil_append _
  | exact h.noAnnotations.symm
  | exact h.packaged.symm
  | exact Option.or_none
  | skip
  · show (if x.filesAnalyzed && !x.filesAnalyzedTagPresent then true else x.filesAnalyzed) = x.filesAnalyzed
    cases x.filesAnalyzed <;> simp
  · show (if x.filesAnalyzed && !x.filesAnalyzedTagPresent then false else true) = x.filesAnalyzedTagPresent
    cases h1 : x.filesAnalyzed <;> cases h2 : x.filesAnalyzedTagPresent <;> simp_all

theorem renderPackageFields_eq (v : Version) (x : PackageV) :
    renderPackageFields v x = opt g!"PackageName" x.name ++ (optId g!"SPDXID" x.spdxId ++ packageRest v x) := by
  unfold renderPackageFields packageRest
  rw [← List.append_assoc, ← List.append_assoc]
  simp only [List.append_assoc]

end Verif
