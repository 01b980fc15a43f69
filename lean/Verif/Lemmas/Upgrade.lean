import Verif.Spec.Upgrade
import Verif.Lemmas.ConvertSteps
import Verif.Lemmas.Transfer
import Verif.Lemmas.SimDoc

/-!
# Lemmas: documents in another version
-/

namespace Verif
open Spec

/-! ## What can be represented in one version can be represented in another -/

theorem older_cases (v w : Version) : older v w = v ∨ older v w = w := by cases v <;> cases w <;> simp [older]

theorem algorithms_newer {v w : Version} (h : older v w = v) {a : Str} (ha : a ∈ algorithmsOf v) : a ∈ algorithmsOf w := by
  cases v <;> cases w <;> first | exact absurd h (by decide) | skip
  all_goals simp only [algorithmsOf, reduceCtorEq, if_false, if_true, List.mem_append, List.append_nil] at ha ⊢
  all_goals first
    | exact ha
    | exact .inl ha
    | exact .inl (.inl ha)
    | exact ha.elim (fun h => .inl (.inl h)) (fun h => .inl (.inr h))

theorem repSnippet_in {v w : Version} {s : Snippet} (h : RepSnippet v s) : RepSnippet w (snippetIn (older v w) s) := by
  by_cases ho : older v w = .v21
  · rw [ho]
    exact { h with
      attributionTexts := by simp [snippetIn]
      noAttribution21 := fun _ => by simp [snippetIn] }
  · have : snippetIn (older v w) s = s := by simp [snippetIn, ho]
    rw [this]
    exact { h with noAttribution21 := fun hw => absurd (by subst hw; cases v <;> rfl) ho }

theorem repFile_in {v w : Version} {f : FileV} (h : RepFile v f) (hc : ∀ c ∈ f.checksums, c.algorithm ∈ algorithmsOf w) :
    RepFile w (fileIn (older v w) f) := by
  have hid : ∀ s : Snippet, (snippetIn (older v w) s).spdxId = s.spdxId := fun s => by unfold snippetIn; split <;> rfl
  exact { h with
    checksums := fun c h' => ⟨hc c h', (h.checksums c h').2⟩
    attributionTexts := by
      simp only [fileIn]
      split
      · simp
      · exact h.attributionTexts
    noAttribution21 := fun hw => by
      have : older v w = .v21 := by subst hw; cases v <;> rfl
      simp [fileIn, this]
    snippets := by
      intro x hx
      simp only [fileIn, List.mem_map] at hx
      obtain ⟨y, hy, rfl⟩ := hx
      exact ⟨by rw [hid]; exact (h.snippets y hy).1, repSnippet_in (h.snippets y hy).2⟩
    snippetKeys := by
      simp only [fileIn, List.map_map]
      exact h.snippetKeys }

theorem repPackage_in {v w : Version} {p : PackageV} (h : RepPackage v p) (hc : ∀ c ∈ p.checksums, c.algorithm ∈ algorithmsOf w)
    (hf : ∀ f ∈ p.files, ∀ c ∈ f.checksums, c.algorithm ∈ algorithmsOf w) : RepPackage w (packageIn (older v w) p) := by
  have key : ∀ s : Str, OneLine s → OneLine (if older v w = .v23 then s else []) := fun s hs => by
    split
    · exact hs
    · decide
  exact { h with
    packaged := by simp [packageIn, h.packaged]
    checksums := fun c h' => ⟨hc c h', (h.checksums c h').2⟩
    attributionTexts := by
      simp only [packageIn]
      split
      · simp
      · exact h.attributionTexts
    noAttribution21 := fun hw => by
      have : older v w = .v21 := by subst hw; cases v <;> rfl
      simp [packageIn, this]
    primaryPurpose := key _ h.primaryPurpose
    releaseDate := key _ h.releaseDate
    builtDate := key _ h.builtDate
    validUntilDate := key _ h.validUntilDate
    only23 := fun hw => by
      have : older v w ≠ .v23 := by cases v <;> cases w <;> simp_all [older]
      simp [packageIn, this]
    files := by
      intro f h'
      simp only [packageIn, List.mem_map] at h'
      obtain ⟨g, hg, rfl⟩ := h'
      exact repFile_in (h.files g hg) (hf g hg) }

theorem mem_checksumsOf {d : Doc} {c : Checksum} : c ∈ checksumsOf d ↔
    (∃ p ∈ d.packages, c ∈ p.checksums ∨ ∃ f ∈ p.files, c ∈ f.checksums) ∨ ∃ f ∈ d.files, c ∈ f.checksums := by
  simp [checksumsOf]

/-- What can be said in version `w` can be written in version `w`. -/
theorem representable_in {v w : Version} {d : Doc} (h : Representable v d) (hs : SayableIn w d) : Representable w (inVersion v w d) :=
  { h with
    spdxVersion := by show OneLine (versionName w); cases w <;> decide
    packages := by
      intro p hp
      simp only [inVersion, restated, documentIn, List.mem_map] at hp
      obtain ⟨q, hq, rfl⟩ := hp
      exact repPackage_in (h.packages q hq) (fun c hc => hs.algorithms c (mem_checksumsOf.2 (.inl ⟨q, hq, .inl hc⟩)))
        fun f hf c hc => hs.algorithms c (mem_checksumsOf.2 (.inl ⟨q, hq, .inr ⟨f, hf, hc⟩⟩))
    files := by
      intro f hf
      simp only [inVersion, restated, documentIn, List.mem_map] at hf
      obtain ⟨g, hg, rfl⟩ := hf
      exact repFile_in (h.files g hg) fun c hc => hs.algorithms c (mem_checksumsOf.2 (.inr ⟨g, hg, hc⟩))
    relationships := by
      intro r hr
      have := h.relationships r hr
      exact { this with
        refB := by
          rcases this.refB with hb | ⟨-, hb⟩
          · exact .inl hb
          · exact .inr ⟨fun hw => hs.ends hw r hr hb, hb⟩ }
    noSnippets := by simp [inVersion, restated, documentIn, h.noSnippets] }

theorem snippetIn_own {v : Version} {s : Snippet} (h : RepSnippet v s) : snippetIn v s = s := by
  unfold snippetIn
  split
  · rename_i hv
    have := h.noAttribution21 hv
    cases s
    simp_all
  · rfl

theorem fileIn_own {v : Version} {f : FileV} (h : RepFile v f) : fileIn v f = f := by
  have h1 : (f.snippets.map fun e => (e.1, snippetIn v e.2)) = f.snippets := by
    rw [List.map_congr_left (g := id) (fun e he => by rw [snippetIn_own (h.snippets e he).2]; rfl), List.map_id]
  have h2 : (if v = .v21 then [] else f.attributionTexts) = f.attributionTexts := by
    split
    · exact (h.noAttribution21 ‹_›).symm
    · rfl
  unfold fileIn
  rw [h1, h2]

theorem packageIn_own {v : Version} {p : PackageV} (h : RepPackage v p) : packageIn v p = p := by
  have h1 : p.files.map (fileIn v) = p.files := by
    rw [List.map_congr_left (g := id) (fun f hf => by rw [fileIn_own (h.files f hf)]; rfl), List.map_id]
  have h2 : (if v = .v21 then [] else p.attributionTexts) = p.attributionTexts := by
    split
    · exact (h.noAttribution21 ‹_›).symm
    · rfl
  have h3 : (if v = .v21 then false else p.isUnpackaged) = p.isUnpackaged := by
    split
    · exact h.packaged.symm
    · rfl
  unfold packageIn
  rw [h1, h2, h3]
  by_cases hv : v = .v23
  · simp [hv]
  · obtain ⟨a, b, c, d⟩ := h.only23 hv
    cases p
    simp_all

/-- A document of a version has no fields that the version does not have. -/
theorem documentIn_own {v : Version} {d : Doc} (h : Representable v d) : documentIn v d = d := by
  have h1 : d.packages.map (packageIn v) = d.packages := by
    rw [List.map_congr_left (g := id) (fun f hf => by rw [packageIn_own (h.packages f hf)]; rfl), List.map_id]
  have h2 : d.files.map (fileIn v) = d.files := by
    rw [List.map_congr_left (g := id) (fun f hf => by rw [fileIn_own (h.files f hf)]; rfl), List.map_id]
  have h3 : d.snippets.map (snippetIn v) = d.snippets := by rw [h.noSnippets]; rfl
  unfold documentIn
  rw [h1, h2, h3]

theorem plainCodes_own {v : Version} {d : Doc} (h : Representable v d) : plainCodes d = d := by
  have : ∀ p ∈ d.packages, plainCode p = p := by
    intro p hp
    unfold plainCode
    split
    · rename_i hc
      have := ((h.packages p hp).verificationCode {} hc).2.1.1
      exact absurd rfl this
    · rfl
  unfold plainCodes
  rw [List.map_congr_left (g := id) (fun p hp => this p hp), List.map_id]

/-- What a newer version has is said in it. -/
theorem sayable_newer {v w : Version} {d : Doc} (h : Representable v d) (ho : older v w = v) : SayableIn w d where
  algorithms := by
    intro c hc
    rcases mem_checksumsOf.1 hc with ⟨p, hp, hc | ⟨f, hf, hc⟩⟩ | ⟨f, hf, hc⟩
    · exact algorithms_newer ho ((h.packages p hp).checksums c hc).1
    · exact algorithms_newer ho (((h.packages p hp).files f hf).checksums c hc).1
    · exact algorithms_newer ho ((h.files f hf).checksums c hc).1
  ends := by
    intro hw r hr hb
    have hv : v = .v21 := by subst hw; cases v <;> simp_all [older]
    rcases (h.relationships r hr).refB with hb' | ⟨hb', -⟩
    · have := hb'.2.2
      rcases hb with e | e <;> rw [e] at this <;> exact absurd this (by decide)
    · exact hb' hv

theorem solidFile_of {v : Version} {f : FileV} (h : RepFile v f) (ha : ∀ a ∈ f.artifactOfProjects, a ≠ {}) : SolidFile f :=
  ⟨h.spdxId.1.1, ha, fun e he => (h.snippets e he).2.spdxId.1.1⟩

/-- In a document that can be represented nothing is entirely empty but artifacts. -/
theorem solid_of {v : Version} {d : Doc} (h : Representable v d) (ha : ArtifactsGiven d) : Verif.Solid d where
  creationInfo := by
    obtain ⟨c, e, hc⟩ := h.creationInfo
    rw [e]
    simpa using hc.notEmpty
  packages := by
    intro p hp
    have hr := h.packages p hp
    refine ⟨hr.spdxId.1.1, ?_, ?_, ?_⟩
    · intro e
      rcases hr.supplier _ e with ⟨-, h', -⟩ | ⟨-, h'⟩
      · exact h' rfl
      · exact absurd h' (by decide)
    · intro e
      rcases hr.originator _ e with ⟨-, h', -⟩ | ⟨-, h'⟩
      · exact h' rfl
      · exact absurd h' (by decide)
    · rintro r hr' rfl
      exact (hr.externalRefs _ hr').category.1 rfl
  files := by
    intro f hf
    have : RepFile v f := by
      rcases hf with hf | ⟨p, hp, hf⟩
      · exact h.files f hf
      · exact (h.packages p hp).files f hf
    exact solidFile_of this (ha f hf)
  otherLicenses := by
    rintro l hl rfl
    exact (h.otherLicenses _ hl).licenseIdentifier.1 rfl
  relationships := by
    rintro r hr rfl
    exact (h.relationships _ hr).relationship.1 rfl
  annotations := by
    rintro a ha rfl
    exact (h.annotations _ ha).annotator.2.1 rfl
  reviews := by
    rintro a ha rfl
    exact (h.reviews _ ha).reviewer.2.1 rfl

/-! ## The writer does not distinguish no verification code from an empty one -/

/-- A sorting routine that leaves sorted lists as they are. -/
def lazySorter (so : Sorter) : Sorter where
  run := fun k l => if l.Pairwise (fun a b => strLe (k a) (k b) = true) then l else so.run k l
  perm := by
    intro α k l
    split
    · exact .refl _
    · exact so.perm k l
  sorted := by
    intro α k l
    split
    · assumption
    · exact so.sorted k l

theorem lazy_sorted (so : Sorter) {α : Type} {k : α → Str} {l : List α} (h : SortedBy k l) : (lazySorter so).run k l = l := by
  simp only [lazySorter]
  exact if_pos h

theorem renderPackageFields_plain (v : Version) (p : PackageV) : renderPackageFields v (plainCode p) = renderPackageFields v p := by
  have : renderVerificationCode p.filesAnalyzed (if p.verificationCode = some {} then none else p.verificationCode) =
      renderVerificationCode p.filesAnalyzed p.verificationCode := by
    split
    · rename_i h
      rw [h]
      simp [renderVerificationCode]
    · rfl
  unfold renderPackageFields
  simp only [plainCode, this]
  rfl

theorem renderFile_sorter (v : Version) (so so' : Sorter) (f : FileV) : renderFile v so f = renderFile v so' f := by
  have e2 : snippetsInOrder so f = snippetsInOrder so' f := by
    unfold snippetsInOrder
    rw [sort_keys_eq so so' (.refl _)]
  unfold renderFile
  rw [e2]

theorem renderPackageGroup_plain (w : Version) (so : Sorter) (p : PackageV)
    (h : ((lazySorter so).run (·.spdxId) (so.run (·.spdxId) p.files)).flatMap (renderFile w (lazySorter so)) =
      (so.run (·.spdxId) p.files).flatMap (renderFile w so)) :
    renderPackageGroup w (lazySorter so) (plainCode (sortPackageFiles so p)) = renderPackageGroup w so p := by
  have h2 := renderPackageFields_plain w (sortPackageFiles so p)
  have h3 : renderPackageFields w (sortPackageFiles so p) = renderPackageFields w p := by
    unfold renderPackageFields sortPackageFiles
    rfl
  have h4 : (sortPackageFiles (lazySorter so) (plainCode (sortPackageFiles so p))).files =
      (lazySorter so).run (·.spdxId) (so.run (·.spdxId) p.files) := rfl
  have h5 : (sortPackageFiles so p).files = so.run (·.spdxId) p.files := rfl
  have h6 : (plainCode (sortPackageFiles so p)).name = p.name := rfl
  unfold renderPackageGroup renderPackage
  rw [h2, h3, h4, h5, h6, h]

/-- Writing a document is writing, with all its lists sorted already, the document without empty verification codes. -/
theorem write_plain (w : Version) (so : Sorter) (d : Doc) :
    writeTagValue w so d = writeTagValue w (lazySorter so) (plainCodes (sortDocument so d)) := by
  have hb : ∀ ci, renderBody w so d ci = renderBody w (lazySorter so) (plainCodes (sortDocument so d)) ci := by
    intro ci
    have e1 : renderHeader (lazySorter so) (plainCodes (sortDocument so d)) = renderHeader so d := by
      unfold renderHeader
      rw [lazy_sorted so (l := (plainCodes (sortDocument so d)).externalDocumentRefs) (so.sorted _ _)]
      rfl
    have e2 : heading (plainCodes (sortDocument so d)).files g!"##### Unpackaged files" = heading d.files g!"##### Unpackaged files" := by
      unfold heading
      have : so.run (fun f : FileV => f.spdxId) d.files = [] ↔ d.files = [] := by
        have hp := so.perm (fun f : FileV => f.spdxId) d.files
        constructor
        · intro h
          rw [h] at hp
          exact hp.nil_eq.symm
        · intro h
          rw [h] at hp ⊢
          exact hp.eq_nil
      simp only [plainCodes, sortDocument, this]
    have hfiles : ∀ l : List FileV, ((lazySorter so).run (·.spdxId) (so.run (·.spdxId) l)).flatMap (renderFile w (lazySorter so)) =
        (so.run (·.spdxId) l).flatMap (renderFile w so) := by
      intro l
      rw [lazy_sorted so (so.sorted _ _), (funext fun f => renderFile_sorter w (lazySorter so) so f : renderFile w (lazySorter so) = renderFile w so)]
    have e3 := hfiles d.files
    have e4 : ((lazySorter so).run (·.spdxId) (plainCodes (sortDocument so d)).packages).flatMap (renderPackageGroup w (lazySorter so)) =
        (so.run (·.spdxId) d.packages).flatMap (renderPackageGroup w so) := by
      have hg : (fun p => renderPackageGroup w (lazySorter so) (plainCode (sortPackageFiles so p))) = renderPackageGroup w so :=
        funext fun p => renderPackageGroup_plain w so p (hfiles p.files)
      have hl : (plainCodes (sortDocument so d)).packages = ((so.run (·.spdxId) d.packages).map (sortPackageFiles so)).map plainCode := rfl
      have hs : SortedBy (·.spdxId) (((so.run (·.spdxId) d.packages).map (sortPackageFiles so)).map plainCode) := by
        have : SortedBy (·.spdxId) (so.run (·.spdxId) d.packages) := so.sorted _ _
        exact sortedBy_map (sortedBy_map this (fun _ => rfl)) (fun _ => rfl)
      rw [hl, lazy_sorted so hs, List.flatMap_map, List.flatMap_map, hg]
    have e5 : renderTail (plainCodes (sortDocument so d)) = renderTail d := rfl
    have e6 : (plainCodes (sortDocument so d)).files = so.run (·.spdxId) d.files := rfl
    unfold renderBody
    rw [e1, e2, e4, e5, e6, e3]
  cases h : d.creationInfo with
  | none => simp [writeTagValue, renderDocument, plainCodes, sortDocument, h]
  | some ci => simp [writeTagValue, renderDocument, plainCodes, sortDocument, h, hb ci]

theorem sorted_same (so : Sorter) (d : Doc) : SameDoc (plainCodes d) (plainCodes (sortDocument so d)) where
  rest := rfl
  refs := (so.perm _ _).symm
  files := ⟨_, (so.perm _ _).symm, Pointwise.refl SameFile.refl _⟩
  packages := by
    refine ⟨(so.run (·.spdxId) d.packages).map plainCode, ((so.perm _ _).symm.map _), ?_⟩
    simp only [plainCodes, sortDocument, List.map_map]
    generalize so.run (·.spdxId) d.packages = l
    induction l with
    | nil => exact .nil
    | cons p l ih =>
      exact .cons ⟨rfl, _, (so.perm _ _).symm, Pointwise.refl SameFile.refl _⟩ ih

/-- What is written for `e` is written, by some sorting routine, for the same document without empty verification codes. -/
theorem write_as_plain (w : Version) (so : Sorter) (e : Doc) :
    ∃ so' e', SameDoc (plainCodes e) e' ∧ writeTagValue w so e = writeTagValue w so' e' :=
  ⟨_, _, sorted_same so e, write_plain w so e⟩

end Verif
