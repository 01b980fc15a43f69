import Verif.Lemmas.Upgrade
import Verif.Props.C62_Convert
import Verif.Props.C67_LoadSave
import Verif.Props.C72_Sharing

/-!
# C78: saving a document in another version

`SayableIn`, `ArtifactsGiven`, `inVersion`, `resave`, `resaveAll` and `OnlyVersion` are in `Spec/Upgrade`.
-/

namespace Verif
open Spec

/-- What the conversion gives for a document of the tag-value format. -/
theorem converted_plain (lib : Copier) {v : Version} (w : Version) {d : Doc} (hd : Representable v d)
    (hv : d.spdxVersion = versionName v) (ha : ArtifactsGiven d) :
    ∃ e, convertWith lib true v w d = .ok e ∧ plainCodes e = inVersion v w d := by
  obtain ⟨e, h1, -, h3, h4⟩ := convertWith_ok lib v w d (solid_of hd ha)
  refine ⟨e, h1, ?_⟩
  by_cases hvw : v = w
  · subst hvw
    have : older v v = v := by cases v <;> rfl
    rw [h3 rfl, plainCodes_own hd, inVersion, this, documentIn_own hd, ← hv]
    rfl
  · rw [(h4 hvw).2.1, plain_in, plainCodes_own hd]
    rfl

/-- Writing the converted document. -/
theorem written_plain {w : Version} (so : Sorter) {e x : Doc} (hx : Representable w x) (he : plainCodes e = x) :
    ∃ so' e' saved, SameDoc x e' ∧ Representable w e' ∧ writeTagValue w so e = .ok saved ∧ writeTagValue w so' e' = .ok saved := by
  obtain ⟨so', e', h1, h2⟩ := write_as_plain w so e
  rw [he] at h1
  have hr := representable_same h1 hx
  obtain ⟨saved, hw⟩ := C12_representable_is_written w so' e' hr
  exact ⟨so', e', saved, h1, hr, h2.trans hw, hw⟩

/-- **C78.** A document of one version can be saved as a text of another version that can say what it says, and the text is read
as the document in that version: nothing is lost but what one of the two versions has no field for. -/
theorem C78_saved_as (lib : Copier) (so : Sorter) (v w : Version) (d : Doc) (hd : Representable v d)
    (hv : d.spdxVersion = versionName v) (ha : ArtifactsGiven d) (hs : SayableIn w d) :
    ∃ e saved, convertWith lib true v w d = .ok e ∧ writeTagValue w so e = .ok saved ∧
      (LinesFit saved → ∃ d', (readTagValues saved >>= parseTagValues w) = .ok (some d') ∧ SameDoc (inVersion v w d) d' ∧
        InOrder d') := by
  obtain ⟨e, h1, h2⟩ := converted_plain lib w hd hv ha
  obtain ⟨so', e', saved, g1, g2, g3, g4⟩ := written_plain so (representable_in hd hs) h2
  refine ⟨e, saved, h1, g3, fun fit => ?_⟩
  obtain ⟨d', k1, k2, k3⟩ := C12_write_then_read w so' e' saved g2 g4 fit
  exact ⟨d', k1, sameDoc_trans g1 k2, k3⟩

/-- A text that is loaded as `d` by the functions that look at the version. -/
def LoadsAs (v : Version) (text : Str) (d : Doc) : Prop :=
  ∃ tvs, readTagValues text = .ok tvs ∧ FirstVersion tvs (versionName v) ∧ parseTagValues v tvs = .ok (some d)

theorem loadsAs_of {v : Version} {text : Str} {tvs : List TVPair} {d : Doc} (pairs : PairsOf text tvs) (only : OnlyVersion v tvs)
    (loaded : (readTagValues text >>= parseTagValues v) = .ok (some d)) : LoadsAs v text d ∧ d.spdxVersion = versionName v := by
  rw [pairs_iff.2 pairs, Res.bind_ok] at loaded
  obtain ⟨named, only⟩ := only
  refine ⟨⟨tvs, pairs_iff.2 pairs, ?_, loaded⟩, ?_⟩
  · clear pairs loaded
    induction tvs with
    | nil => cases named
    | cons p ps ih =>
      by_cases hp : p.tag = g!"SPDXVersion"
      · exact ⟨[], ps, by rw [← only p (by simp) hp, ← hp]; rfl, by simp⟩
      · rcases List.mem_cons.1 named with e | h
        · exact absurd (e ▸ rfl) hp
        · obtain ⟨a, b, e, h2⟩ := ih h fun q hq => only q (by simp [hq])
          exact ⟨p :: a, b, by rw [e]; rfl, by
            intro q hq
            rcases List.mem_cons.1 hq with rfl | hq
            · exact hp
            · exact h2 q hq⟩
  · have hm : values g!"SPDXVersion" tvs ≠ [] := List.ne_nil_of_mem (mem_values.2 ⟨_, named, rfl, rfl⟩)
    obtain ⟨p, hp, ht, e⟩ := mem_values.1 (lastValue_mem hm)
    rw [(documentSays loaded).version, ← e]
    exact only p hp ht

theorem loadsAs_read (lib : Copier) {v w : Version} {text : Str} {d e : Doc} (h : LoadsAs v text d) (hs : Verif.Solid d)
    (he : convertWith lib true v w d = .ok e) : readTagValueInto (structCopied lib) true w text = .ok e := by
  obtain ⟨tvs, h1, h2, h3⟩ := h
  have hv := stated_iff.2 ⟨_, h2, versionName_names v⟩
  have hne : tvs ≠ [] := by
    rintro rfl
    obtain ⟨b, a, hh, -⟩ := h2
    simp at hh
  simp only [readTagValueInto, Bool.not_true, Bool.false_eq_true, if_false, h1, Res.bind_ok, hne, hv, h3,
    convertDocument_with lib true v w d hs, he]

/-- What is written for a representable document that states its version. -/
theorem loadsAs_written {v : Version} {so : Sorter} {d : Doc} {text : Str} (hd : Representable v d) (hv : d.spdxVersion = versionName v)
    (hw : writeTagValue v so d = .ok text) (fit : LinesFit text) : ∃ d', LoadsAs v text d' ∧ SameDoc d d' := by
  obtain ⟨e, h1, h2, -⟩ := C12_write_then_read v so d text hd hw fit
  obtain ⟨ci, hc, hci⟩ := hd.creationInfo
  simp only [writeTagValue, renderDocument, hc, Res.bind_ok, Res.ok.injEq] at hw
  subst hw
  have hr := read_items _ (fun i hi => ⟨shaped_body v so d ci i hi, clean_body so hd hci i hi⟩) fit
  rw [hr, Res.bind_ok] at h1
  obtain ⟨r, hp⟩ := pairs_begin v so d ci (by rw [hv]; cases v <;> simp [versionName])
  exact ⟨e, ⟨_, hr, ⟨[], r, by rw [hp, hv]; rfl, by simp⟩, h1⟩, h2⟩

theorem artifacts_same {d e : Doc} (h : SameDoc d e) (ha : ArtifactsGiven d) : ArtifactsGiven e := by
  have hf : ∀ f g : FileV, SameFile f g → (∀ a ∈ f.artifactOfProjects, a ≠ {}) → ∀ a ∈ g.artifactOfProjects, a ≠ {} := by
    intro f g h hf
    rw [h.1]
    exact hf
  have hp : ∀ p q : PackageV, SamePackage p q → (∀ f ∈ p.files, ∀ a ∈ f.artifactOfProjects, a ≠ {}) →
      ∀ f ∈ q.files, ∀ a ∈ f.artifactOfProjects, a ≠ {} := fun p q h => UpToOrder.all hf h.2
  rintro f (h1 | ⟨p, h1, h2⟩)
  · exact UpToOrder.all hf h.files (fun f hf => ha f (.inl hf)) f h1
  · exact UpToOrder.all hp h.packages (fun p hp f hf => ha f (.inr ⟨p, hp, hf⟩)) p h1 f h2

/-- **C78.** A savable text of one version is read into a variable of another version and saved, and what is saved is read as what
the text said, in the other version. -/
theorem C78_text (lib : Copier) (so : Sorter) (v w : Version) (text : Str) (tvs : List TVPair) (d : Doc) (pairs : PairsOf text tvs)
    (savable : SavableText tvs) (only : OnlyVersion v tvs) (loaded : (readTagValues text >>= parseTagValues v) = .ok (some d))
    (ha : ArtifactsGiven d) (hs : SayableIn w d) :
    ∃ saved, resave lib ⟨w, so⟩ text = .ok saved ∧
      (LinesFit saved → ∃ d', readTagValueInto (structCopied lib) true w saved = .ok d' ∧ SameDoc (inVersion v w d) d') := by
  obtain ⟨hl, hv⟩ := loadsAs_of pairs only loaded
  rw [pairs_iff.2 pairs, Res.bind_ok] at loaded
  have hd := C67_representable v tvs d savable loaded
  obtain ⟨e, h1, h2⟩ := converted_plain lib w hd hv ha
  obtain ⟨so', e', saved, g1, g2, g3, g4⟩ := written_plain so (representable_in hd hs) h2
  refine ⟨saved, by simp only [resave, loadsAs_read lib hl (solid_of hd ha) h1, Res.bind_ok, g3], fun fit => ?_⟩
  have hv' : e'.spdxVersion = versionName w := by rw [g1.rest]; rfl
  obtain ⟨d', k1, k2⟩ := loadsAs_written g2 hv' g4 fit
  have ha' : ArtifactsGiven d' := by
    refine artifacts_same (sameDoc_trans g1 k2) ?_
    rintro f (hf | ⟨p, hp, hf⟩)
    · simp only [inVersion, restated, documentIn, List.mem_map] at hf
      obtain ⟨g, hg, rfl⟩ := hf
      exact ha g (.inl hg)
    · simp only [inVersion, restated, documentIn, List.mem_map] at hp
      obtain ⟨q, hq, rfl⟩ := hp
      simp only [packageIn, List.mem_map] at hf
      obtain ⟨g, hg, rfl⟩ := hf
      exact ha g (.inr ⟨q, hq, hg⟩)
  have hr' := representable_same k2 g2
  obtain ⟨m0, m1, -, m3, -⟩ := convertWith_ok lib w w d' (solid_of hr' ha')
  have hk := loadsAs_read lib k1 (solid_of hr' ha') m1
  rw [m3 rfl] at hk
  exact ⟨d', hk, sameDoc_trans g1 k2⟩

/-- **C78.** Into a newer version nothing is lost: what is saved is read as what the text said, but for the stated version. -/
theorem C78_upgrade (lib : Copier) (so : Sorter) (v w : Version) (newer : older v w = v) (text : Str) (tvs : List TVPair) (d : Doc)
    (pairs : PairsOf text tvs) (savable : SavableText tvs) (only : OnlyVersion v tvs)
    (loaded : (readTagValues text >>= parseTagValues v) = .ok (some d)) (ha : ArtifactsGiven d) :
    ∃ saved, resave lib ⟨w, so⟩ text = .ok saved ∧
      (LinesFit saved → ∃ d', readTagValueInto (structCopied lib) true w saved = .ok d' ∧
        SameDoc (restated (versionName w) d) d') := by
  have hd := C67_representable v tvs d savable (by rw [pairs_iff.2 pairs, Res.bind_ok] at loaded; exact loaded)
  obtain ⟨saved, h1, h2⟩ := C78_text lib so v w text tvs d pairs savable only loaded ha (sayable_newer hd newer)
  rw [inVersion, newer, documentIn_own hd] at h2
  exact ⟨saved, h1, h2⟩

/-- Between two versions that are not older than `v`, a document of version `v` only gets a new stated version. -/
theorem inVersion_kept {v u w : Version} {y : Doc} (hy : Representable v y) (hu : older v u = v) (hw : older v w = v) :
    inVersion u w (restated (versionName u) y) = restated (versionName w) y := by
  have h1 : older v (older u w) = v := by rcases older_cases u w with e | e <;> rw [e] <;> assumption
  have h2 : documentIn (older u w) y = y := by
    have := documentIn_in v (older u w) y
    rwa [documentIn_own hy, h1, documentIn_own hy] at this
  have h3 : documentIn (older u w) (restated (versionName u) y) = restated (versionName u) (documentIn (older u w) y) := rfl
  rw [inVersion, h3, h2]
  rfl

theorem restated_same {d e : Doc} (s : Str) (h : SameDoc d e) : SameDoc (restated s d) (restated s e) where
  rest := by have := h.rest; cases d; cases e; simp_all [restated]
  refs := h.refs
  files := h.files
  packages := h.packages

theorem restated_distinct {d : Doc} (s : Str) (h : DistinctIds d) : DistinctIds (restated s d) :=
  ⟨h.refs, h.files, h.packages, h.packageFiles, h.snippets⟩

/-- One stop on the way. -/
theorem resave_step (lib : Copier) {v u w : Version} (so so' : Sorter) {d x : Doc} {text : Str} (hd : Representable v d)
    (hv : d.spdxVersion = versionName v) (ha : ArtifactsGiven d) (distinct : DistinctIds d)
    (hu : older v u = v) (hw : older v w = v) (hl : LoadsAs u text x) (hx : SameDoc (restated (versionName u) d) x) :
    resave lib ⟨w, so⟩ text = writeTagValue w so' (restated (versionName w) d) ∧
      ∃ saved, resave lib ⟨w, so⟩ text = .ok saved ∧
        (LinesFit saved → ∃ x', LoadsAs w saved x' ∧ SameDoc (restated (versionName w) d) x') := by
  have hd0 : restated (versionName v) d = d := by rw [← hv]; rfl
  have hy : SameDoc d (restated (versionName v) x) := by
    have := restated_same (versionName v) hx
    rwa [show restated (versionName v) (restated (versionName u) d) = d from hd0] at this
  have hry := representable_same hy hd
  have hxv : x.spdxVersion = versionName u := by rw [hx.rest]; rfl
  have hxe : x = restated (versionName u) (restated (versionName v) x) := by rw [← hxv]; rfl
  have hrd : ∀ {u : Version}, older v u = v → Representable u (restated (versionName u) d) := by
    intro u hu
    have := representable_in hd (sayable_newer hd hu)
    rwa [inVersion, hu, documentIn_own hd] at this
  have hrx := representable_same hx (hrd hu)
  have hax : ArtifactsGiven x := artifacts_same hx ha
  obtain ⟨e, h1, h2⟩ := converted_plain lib w hrx hxv hax
  have h3 : inVersion u w x = restated (versionName w) (restated (versionName v) x) := by
    rw [hxe]; exact inVersion_kept hry hu hw
  have h4 : SameDoc (restated (versionName w) d) (inVersion u w x) := by
    rw [h3]; exact restated_same _ hy
  rw [h3] at h2 h4
  obtain ⟨so1, e', saved, g1, g2, g3, g4⟩ := written_plain so (representable_same h4 (hrd hw)) h2
  have hres : resave lib ⟨w, so⟩ text = .ok saved := by
    simp only [resave, loadsAs_read lib hl (solid_of hrx hax) h1, Res.bind_ok, g3]
  have hsame := sameDoc_trans h4 g1
  have hv' : e'.spdxVersion = versionName w := by rw [hsame.rest]; rfl
  refine ⟨?_, saved, hres, fun fit => ?_⟩
  · rw [hres, ← g4]
    exact (C13_output_independent_of_order w so' so1 _ e' hsame (restated_distinct _ distinct)).symm
  · obtain ⟨x', k1, k2⟩ := loadsAs_written g2 hv' g4 fit
    exact ⟨x', k1, sameDoc_trans hsame k2⟩

/-- **C78.** However many programs read a text into variables of versions not older than its own and save it, what the last one
saves is what saving the loaded document in that version gives at once. -/
theorem C78_way (lib : Copier) (v w : Version) (so so' : Sorter) (stops : List Stop) (text : Str) (tvs : List TVPair) (d : Doc)
    (pairs : PairsOf text tvs) (savable : SavableText tvs) (only : OnlyVersion v tvs)
    (loaded : (readTagValues text >>= parseTagValues v) = .ok (some d)) (ha : ArtifactsGiven d) (distinct : DistinctIds d)
    (newer : ∀ s ∈ stops, older v s.version = v) (last : older v w = v)
    (fit : ∀ u so t, writeTagValue u so (restated (versionName u) d) = .ok t → LinesFit t) :
    resaveAll lib (stops ++ [⟨w, so⟩]) text = writeTagValue w so' (restated (versionName w) d) := by
  obtain ⟨hl, hv⟩ := loadsAs_of pairs only loaded
  have hd := C67_representable v tvs d savable (by rw [pairs_iff.2 pairs, Res.bind_ok] at loaded; exact loaded)
  have hd0 : restated (versionName v) d = d := by rw [← hv]; rfl
  have key : ∀ (stops : List Stop), (∀ s ∈ stops, older v s.version = v) → ∀ (u : Version) (text : Str) (x : Doc), older v u = v →
      LoadsAs u text x → SameDoc (restated (versionName u) d) x →
      resaveAll lib (stops ++ [⟨w, so⟩]) text = writeTagValue w so' (restated (versionName w) d) := by
    intro stops
    induction stops with
    | nil =>
      intro _ u text x hu hl hx
      obtain ⟨h1, saved, h2, -⟩ := resave_step lib so so' hd hv ha distinct hu last hl hx
      rw [← h1]
      simp only [List.nil_append, resaveAll, h2, Res.bind_ok]
    | cons s stops ih =>
      intro hn u text x hu hl hx
      have hs := hn s (by simp)
      obtain ⟨h1, saved, h2, h3⟩ := resave_step lib s.sorter so' hd hv ha distinct hu hs hl hx
      obtain ⟨x', h4, h5⟩ := h3 (fit s.version so' saved (by rw [← h1]; exact h2))
      have := ih (fun t ht => hn t (by simp [ht])) s.version saved x' hs h4 h5
      rw [← this]
      have h2' : resave lib s text = .ok saved := h2
      simp only [List.cons_append, resaveAll, h2', Res.bind_ok]
  have hvv : older v v = v := by cases v <;> rfl
  exact key stops newer v text d hvv hl (by rw [hd0]; exact sameDoc_refl d)

/-! ## A text that meets the conditions -/

/-- The text of C67 in version 2.1, with a project that a file is an artifact of. -/
def text78 : Str := g!"# a text\nSPDXVersion: SPDX-2.1\nDataLicense:CC0-1.0\nSPDXID: SPDXRef-DOCUMENT\nExternalDocumentRef: DocumentRef-z  http://z SHA1: 12\nExternalDocumentRef:DocumentRef-a http://a SHA1:34\nDocumentComment: <text>one\n two</text>\nCreator:  Tool:t\nFileName: loose\nSPDXID: SPDXRef-l\nArtifactOfProjectName: project\n\nPackageName: p\nSPDXID: SPDXRef-p\nPackageVersion: <text>1</text>\nPackageVerificationCode: d6a7(excludes: ./p.spdx)\nPackageChecksum: MD5: 98\nPackageSupplier: Organization: o\nExternalRef: SECURITY cpe23Type cpe:2.3:a\nExternalRefComment: c\nFileName: g\nSPDXID: SPDXRef-g\nSnippetSPDXID: SPDXRef-s\nSnippetFromFileSPDXID: SPDXRef-g\nSnippetByteRange: 1:+20\nFileName: f\nSPDXID: SPDXRef-f\nRelationship: SPDXRef-DOCUMENT  DESCRIBES DocumentRef-a:SPDXRef-p\nPackageName: b\nSPDXID: SPDXRef-b\nFilesAnalyzed: false\nLicenseID: LicenseRef-1\nExtractedText: <text>x\n\ny</text>\nReviewer: Person: r\nAnnotator: Person: a\nSPDXREF: SPDXRef-p\n"

/-- Its pairs. -/
def pairs78 : List TVPair := match readTagValues text78 with
  | .ok tvs => tvs
  | _ => []

/-- What it is loaded as. -/
def doc78 : Doc := match readTagValues text78 >>= parseTagValues .v21 with
  | .ok (some d) => d
  | _ => {}

theorem savable78 : SavableText pairs78 := by
  refine ⟨?_, by decide +kernel, by decide +kernel, by decide +kernel⟩
  have h1 : ∀ p ∈ pairs78, GoodValue p.value ∧ (p.tag ∉ textTags → '\n' ∉ p.value) := by decide +kernel
  have h2 : ∀ p ∈ pairs78, (p.tag ∈ [g!"PackageName", g!"FileName", g!"LicenseID"] → p.value ≠ []) ∧
    (p.tag ∈ [g!"SPDXID", g!"SnippetSPDXID", g!"SnippetFromFileSPDXID", g!"SPDXREF"] → ∀ c ∈ p.value, isSpace c = false) := by
    decide +kernel
  have h3 : ∀ p ∈ pairs78, p.tag ∈ [g!"Relationship", g!"ExternalRef", g!"ExternalDocumentRef"] →
    ∀ c ∈ p.value, isSpace c = true → c = ' ' := by decide +kernel
  have h4 : ∀ p ∈ pairs78, p.tag ∈ [g!"Creator", g!"Annotator", g!"Reviewer", g!"PackageSupplier", g!"PackageOriginator",
    g!"PackageChecksum", g!"FileChecksum"] → p.value.getLast? ≠ some ':' := by decide +kernel
  have h5 : ∀ p ∈ pairs78, (p.tag = g!"PackageVerificationCode" → (extractCodeAndExcludes p.value).value ≠ []) := by
    decide +kernel
  have h6 : ∀ p ∈ pairs78, p.tag = g!"ExternalDocumentRef" →
    ∀ w ∈ wordsOf p.value, w.count ':' ≤ 1 ∨ w.getLast? ≠ some ':' := by decide +kernel
  have h7 : ∀ p ∈ pairs78, p.tag = g!"SnippetByteRange" ∨ p.tag = g!"SnippetLineRange" →
    ∀ x ∈ (match cut g!":" p.value with | some (a, b) => [trimSpace a, trimSpace b] | none => []), atoi x ≠ some 0 := by
    decide +kernel
  intro p hp
  exact savablePair_of (h1 p hp).1 (h1 p hp).2 (h2 p hp).1 (h2 p hp).2 (h3 p hp) (h4 p hp) (h5 p hp) (h6 p hp) (h7 p hp)

theorem distinct78 : DistinctIds doc78 :=
  ⟨by decide +kernel, by decide +kernel, by decide +kernel, by decide +kernel, by decide +kernel⟩

/-- The sample meets the hypotheses; after passing through 2.3 and 2.2 it is saved in 2.1 as it would have been at once, and
that is not the text it was. -/
theorem C78_sample : PairsOf text78 pairs78 ∧ SavableText pairs78 ∧ OnlyVersion .v21 pairs78 ∧
    (readTagValues text78 >>= parseTagValues .v21) = .ok (some doc78) ∧ ArtifactsGiven doc78 ∧ DistinctIds doc78 ∧
    (∀ w, older .v21 w = .v21) ∧ (∀ w, SayableIn w doc78) ∧
    (∀ u so t, writeTagValue u so (restated (versionName u) doc78) = .ok t → LinesFit t) ∧
    doc78.packages.map (·.spdxId) = [g!"p", g!"b"] ∧ (allFiles doc78).map (·.spdxId) = [g!"l", g!"g", g!"f"] ∧
    (allFiles doc78).map (·.artifactOfProjects.length) = [1, 0, 0] ∧
    (∀ lib so, ∃ saved, saved ≠ text78 ∧ resaveAll lib [⟨.v23, so⟩, ⟨.v22, so⟩, ⟨.v21, so⟩] text78 = .ok saved ∧
      resaveAll lib [⟨.v21, so⟩] text78 = .ok saved) := by
  have h1 : PairsOf text78 pairs78 := pairs_iff.1 (by decide +kernel)
  have h2 := savable78
  have h3 : OnlyVersion .v21 pairs78 := ⟨by decide +kernel, by decide +kernel⟩
  have h4 : (readTagValues text78 >>= parseTagValues .v21) = .ok (some doc78) := by decide +kernel
  have h5 : ArtifactsGiven doc78 := by
    have : (∀ f ∈ doc78.files, ∀ a ∈ f.artifactOfProjects, a ≠ {}) ∧
      ∀ p ∈ doc78.packages, ∀ f ∈ p.files, ∀ a ∈ f.artifactOfProjects, a ≠ {} := by decide +kernel
    rintro f (hf | ⟨p, hp, hf⟩)
    · exact this.1 f hf
    · exact this.2 p hp f hf
  have h6 : ∀ w, older .v21 w = .v21 := fun w => by cases w <;> rfl
  have hr := C67_representable .v21 pairs78 doc78 h2 (by rw [pairs_iff.2 h1, Res.bind_ok] at h4; exact h4)
  have h7 : ∀ u so t, writeTagValue u so (restated (versionName u) doc78) = .ok t → LinesFit t := by
    intro u so t ht
    rw [C13_output_independent_of_order u so insertionSorter _ _ (sameDoc_refl _) (restated_distinct _ distinct78)] at ht
    have : ∀ u : Version, (match writeTagValue u insertionSorter (restated (versionName u) doc78) with
        | .ok t => decide (LinesFit t)
        | _ => true) = true := by
      intro u
      cases u <;> decide +kernel
    have := this u
    rw [ht] at this
    exact of_decide_eq_true this
  refine ⟨h1, h2, h3, h4, h5, distinct78, h6, fun w => sayable_newer hr (h6 w), h7, by decide +kernel, by decide +kernel,
    by decide +kernel, fun lib so => ?_⟩
  obtain ⟨saved, hw, hne⟩ : ∃ saved, writeTagValue .v21 insertionSorter (restated (versionName .v21) doc78) = .ok saved ∧ saved ≠ text78 := by
    have h : (match writeTagValue .v21 insertionSorter (restated (versionName .v21) doc78) with
      | .ok saved => decide (saved ≠ text78)
      | _ => false) = true := by decide +kernel
    split at h
    · exact ⟨_, by assumption, of_decide_eq_true h⟩
    · simp at h
  have way := C78_way lib .v21 .v21 so insertionSorter
  refine ⟨saved, hne, ?_, ?_⟩
  · rw [← hw]
    exact way [⟨.v23, so⟩, ⟨.v22, so⟩] text78 pairs78 doc78 h1 h2 h3 h4 h5 distinct78 (fun s _ => h6 _) (h6 _) h7
  · rw [← hw]
    exact way [] text78 pairs78 doc78 h1 h2 h3 h4 h5 distinct78 (fun s _ => h6 _) (h6 _) h7

/-! ## What the conditions rule out -/

/-- Not every document can be saved in an older version: a checksum of an algorithm that came with 2.3 is written into a text of
version 2.2, and a reader of version 2.2 rejects the text. -/
theorem C78_algorithm_false : ∀ t, t = g!"SPDXVersion: SPDX-2.3\nCreator: Tool: t\nPackageName: p\nSPDXID: SPDXRef-p\nPackageChecksum: SHA3-256: 98\n" →
    (∃ saved, resave ⟨true, true⟩ ⟨.v22, insertionSorter⟩ t = .ok saved) ∧
    resaveAll ⟨true, true⟩ [⟨.v22, insertionSorter⟩, ⟨.v22, insertionSorter⟩] t = .err := by
  rintro t rfl
  exact ⟨⟨g!"SPDXVersion: SPDX-2.2\nCreator: Tool: t\n\n##### Package: p\n\nPackageName: p\nSPDXID: SPDXRef-p\nPackageChecksum: SHA3-256: 98\n\n",
    by decide +kernel⟩, by decide +kernel⟩

/-- A relationship with NONE is written into a text of version 2.1, and a reader of version 2.1 rejects the text. -/
theorem C78_none_false : ∀ t, t = g!"SPDXVersion: SPDX-2.3\nCreator: Tool: t\nRelationship: SPDXRef-DOCUMENT DEPENDS_ON NONE\n" →
    (∃ saved, resave ⟨true, true⟩ ⟨.v21, insertionSorter⟩ t = .ok saved) ∧
    resaveAll ⟨true, true⟩ [⟨.v21, insertionSorter⟩, ⟨.v21, insertionSorter⟩] t = .err := by
  rintro t rfl
  exact ⟨⟨g!"SPDXVersion: SPDX-2.1\nCreator: Tool: t\n\n##### Relationships\n\nRelationship: SPDXRef-DOCUMENT DEPENDS_ON NONE\n\n",
    by decide +kernel⟩, by decide +kernel⟩

/-- If the copying library treats a pointer to an empty struct as nil, a project about which nothing is said is lost on the way to a
newer version, though it is kept in its own. -/
theorem C78_artifact_false : ∀ t, t = g!"SPDXVersion: SPDX-2.1\nCreator: Tool: t\nFileName: f\nSPDXID: SPDXRef-f\nArtifactOfProjectName:\n" →
    resaveAll ⟨true, true⟩ [⟨.v23, insertionSorter⟩, ⟨.v21, insertionSorter⟩] t =
      .ok g!"SPDXVersion: SPDX-2.1\nCreator: Tool: t\n\n##### Unpackaged files\n\nFileName: f\nSPDXID: SPDXRef-f\n\n" ∧
    resaveAll ⟨true, true⟩ [⟨.v21, insertionSorter⟩] t =
      .ok g!"SPDXVersion: SPDX-2.1\nCreator: Tool: t\n\n##### Unpackaged files\n\nFileName: f\nSPDXID: SPDXRef-f\nArtifactOfProjectName: \n\n" := by
  rintro t rfl
  exact ⟨by decide +kernel, by decide +kernel⟩

/-- On the way through an older version attribution texts are lost. -/
theorem C78_older_false : ∀ t, t = g!"SPDXVersion: SPDX-2.2\nCreator: Tool: t\nFileName: f\nSPDXID: SPDXRef-f\nFileAttributionText: a\n" →
    resaveAll ⟨true, true⟩ [⟨.v21, insertionSorter⟩, ⟨.v22, insertionSorter⟩] t =
      .ok g!"SPDXVersion: SPDX-2.2\nCreator: Tool: t\n\n##### Unpackaged files\n\nFileName: f\nSPDXID: SPDXRef-f\n\n" ∧
    resaveAll ⟨true, true⟩ [⟨.v22, insertionSorter⟩] t =
      .ok g!"SPDXVersion: SPDX-2.2\nCreator: Tool: t\n\n##### Unpackaged files\n\nFileName: f\nSPDXID: SPDXRef-f\nFileAttributionText: a\n\n" := by
  rintro t rfl
  exact ⟨by decide +kernel, by decide +kernel⟩

end Verif
