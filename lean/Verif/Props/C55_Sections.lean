import Verif.Lemmas.SectionStep

/-!
# C55: packages, files and snippets are what their sections say
-/

namespace Verif
open Spec

/-- **C55.** The files and packages of a parsed document are, in order, what the file sections before the first
package section and the package sections of the text say (see `FileSectionSays` and `PackageSectionSays`): every
field of a package, of a file in it and of a snippet of a file is read from the pairs of its own section and of
no other.  A section is read once for each `SPDXID` in it. -/
theorem C55_sections (v : Version) (tvs : List TVPair) (d : Doc) (h : parseTagValues v tvs = .ok (some d))
    (hn : PackagesNamed tvs) :
    Pointwise (FileSectionSays v) (listed FileSec.pairs (sectionsOf tvs).files) d.files ∧
    Pointwise (PackageSectionSays v) (listed PackageSec.pairs (sectionsOf tvs).packages) d.packages := by
  unfold parseTagValues at h
  rw [bind_eq_ok] at h
  obtain ⟨s, hs, h⟩ := h
  split at h
  · simp at h
  split at h
  · simp at h
  split at h
  · simp at h
  rename_i hd0 hd
  split at h
  · rename_i doc hdoc
    simp only [Res.ok.injEq, Option.some.injEq] at h
    subst h
    obtain ⟨z, ht, hz⟩ := tree_text hs hn
    rw [finish_nil ht.tidy] at hz
    simp only [finish, List.nil_append, Prod.mk.injEq] at hz
    obtain ⟨ha, hb⟩ := ht.all
    have e1 : (seen s).docF = hd0.files := by simp [seen, hd]
    have e2 : (seen s).docP = hd0.packages := by simp [seen, hd]
    rw [hz.1, e1] at ha
    rw [hz.2.1, e2] at hb
    obtain ⟨fs, hfs, hf⟩ := mapM_pointwise ha
    obtain ⟨ps, hps, hp⟩ := mapM_pointwise hb
    have e3 : hd0.files.mapM (derefFileRef s) = some fs := hfs
    have e4 : hd0.packages.mapM (derefPackageRef s) = some ps := hps
    simp only [derefDoc, e3, e4, Option.bind_eq_bind, Option.bind_some, Option.pure_def, Option.some.injEq] at hdoc
    subst hdoc
    exact ⟨hf, hp⟩
  · simp at h

/-- **C55.** In a text that is parsed, every package and file section gives an identifier, and every snippet
section follows a file section. -/
theorem C55_complete (v : Version) (tvs : List TVPair) (d : Doc) (h : parseTagValues v tvs = .ok (some d))
    (hn : PackagesNamed tvs) : SectionsComplete (sectionsOf tvs) := by
  unfold parseTagValues at h
  rw [bind_eq_ok] at h
  obtain ⟨s, hs, h⟩ := h
  split at h
  · simp at h
  rename_i hf
  split at h
  · simp at h
  rename_i hp
  obtain ⟨z, ht, hz⟩ := tree_text hs hn
  rw [finish_nil ht.tidy] at hz
  simp only [finish, List.nil_append, Prod.mk.injEq] at hz
  have hw := ht.whole (ht.fileLacks.1 (by simpa using hf)) (ht.pkgLacks.1 (by simpa using hp))
  rw [hz.1, hz.2.1] at hw
  exact ⟨hw.files, fun p hm => (hw.packages p hm).1, fun p hm => (hw.packages p hm).2.2, hz.2.2.symm,
    fun p hm => (hw.packages p hm).2.1⟩

/-- A text with sections of every kind. -/
def sectionSample : List TVPair := [
  ⟨g!"SPDXVersion", g!"SPDX-2.3"⟩, ⟨g!"SPDXID", g!"SPDXRef-DOCUMENT"⟩, ⟨g!"Creator", g!"Tool: t"⟩,
  ⟨g!"FileName", g!"loose"⟩, ⟨g!"SPDXID", g!"SPDXRef-l"⟩, ⟨g!"FileChecksum", g!"SHA1: 00"⟩,
  ⟨g!"ArtifactOfProjectName", g!"x"⟩, ⟨g!"ArtifactOfProjectURI", g!"u"⟩, ⟨g!"ArtifactOfProjectName", g!"y"⟩,
  ⟨g!"PackageName", g!"p"⟩, ⟨g!"PackageVersion", g!"0"⟩, ⟨g!"SPDXID", g!"SPDXRef-p"⟩, ⟨g!"PackageVersion", g!"1"⟩,
  ⟨g!"PackageSupplier", g!"Organization: o"⟩, ⟨g!"PackageVerificationCode", g!"ab (excludes: z)"⟩,
  ⟨g!"ExternalRef", g!"SECURITY cpe c"⟩, ⟨g!"ExternalRefComment", g!"why"⟩, ⟨g!"FilesAnalyzed", g!"false"⟩,
  ⟨g!"FileName", g!"f"⟩, ⟨g!"SPDXID", g!"SPDXRef-f"⟩, ⟨g!"LicenseInfoInFile", g!"MIT"⟩,
  ⟨g!"Relationship", g!"SPDXRef-f OTHER NONE"⟩, ⟨g!"LicenseInfoInFile", g!"GPL-2.0"⟩,
  ⟨g!"SnippetSPDXID", g!"SPDXRef-s"⟩, ⟨g!"SnippetFromFileSPDXID", g!"SPDXRef-f"⟩, ⟨g!"SnippetByteRange", g!"1:20"⟩,
  ⟨g!"SnippetSPDXID", g!"SPDXRef-t"⟩, ⟨g!"SnippetName", g!"second"⟩,
  ⟨g!"FileName", g!"g"⟩, ⟨g!"SPDXID", g!"SPDXRef-g"⟩, ⟨g!"SPDXID", g!"SPDXRef-h"⟩,
  ⟨g!"PackageName", g!"q"⟩, ⟨g!"SPDXID", g!"SPDXRef-q"⟩,
  ⟨g!"LicenseID", g!"LicenseRef-1"⟩, ⟨g!"ExtractedText", g!"e"⟩ ]

set_option synthInstance.maxSize 1000 in
set_option synthInstance.maxHeartbeats 200000 in
/-- It parses, its packages have names, and its objects are the ones a reader expects. -/
theorem C55_sample : PackagesNamed sectionSample ∧ ∃ d, parseTagValues .v23 sectionSample = .ok (some d) ∧
    d.files.map (fun f => (f.name, f.spdxId, f.checksums.map (·.value))) = [(g!"loose", g!"l", [g!"00"])] ∧
    d.files.map (fun f => f.artifactOfProjects.map fun a => (a.name, a.uri)) = [[(g!"x", g!"u"), (g!"y", [])]] ∧
    d.packages.map (fun p => (p.name, p.version, p.filesAnalyzed)) = [(g!"p", g!"1", false), (g!"q", [], true)] ∧
    d.packages.map (fun p => p.verificationCode.map fun c => (c.value, c.excludedFiles)) = [some (g!"ab", [g!"z"]), none] ∧
    d.packages.map (fun p => p.externalRefs.map fun r => (r.locator, r.comment)) = [[(g!"c", g!"why")], []] ∧
    d.packages.map (fun p => p.files.map fun f => (f.name, f.spdxId, f.licenseInfoInFiles)) =
      [[(g!"f", g!"f", [g!"MIT", g!"GPL-2.0"]), (g!"g", g!"h", []), (g!"g", g!"h", [])], []] ∧
    d.packages.map (fun p => p.files.map fun f => f.snippets.map fun x => (x.1, x.2.name, x.2.ranges.map fun r => r.endPointer.offset)) =
      [[[(g!"s", [], [20]), (g!"t", g!"second", [])], [], []], []] := by
  refine ⟨by decide, ?_⟩
  have h : (match parseTagValues .v23 sectionSample with
    | .ok (some d) => decide (
    d.files.map (fun f => (f.name, f.spdxId, f.checksums.map (·.value))) = [(g!"loose", g!"l", [g!"00"])] ∧
    d.files.map (fun f => f.artifactOfProjects.map fun a => (a.name, a.uri)) = [[(g!"x", g!"u"), (g!"y", [])]] ∧
    d.packages.map (fun p => (p.name, p.version, p.filesAnalyzed)) = [(g!"p", g!"1", false), (g!"q", [], true)] ∧
    d.packages.map (fun p => p.verificationCode.map fun c => (c.value, c.excludedFiles)) = [some (g!"ab", [g!"z"]), none] ∧
    d.packages.map (fun p => p.externalRefs.map fun r => (r.locator, r.comment)) = [[(g!"c", g!"why")], []] ∧
    d.packages.map (fun p => p.files.map fun f => (f.name, f.spdxId, f.licenseInfoInFiles)) =
      [[(g!"f", g!"f", [g!"MIT", g!"GPL-2.0"]), (g!"g", g!"h", []), (g!"g", g!"h", [])], []] ∧
    d.packages.map (fun p => p.files.map fun f => f.snippets.map fun x => (x.1, x.2.name, x.2.ranges.map fun r => r.endPointer.offset)) =
      [[[(g!"s", [], [20]), (g!"t", g!"second", [])], [], []], []])
    | _ => false) = true := by decide +kernel
  split at h
  · rename_i d hd; exact ⟨d, hd, of_decide_eq_true h⟩
  · simp at h

/-- The sections of the sample. -/
example : (sectionsOf sectionSample).files.map (fun f => (f.name, f.pairs.length)) = [(g!"loose", 5)] ∧
    (sectionsOf sectionSample).packages.map (fun p => (p.name, p.pairs.length, p.files.map fun f => (f.name, f.snippets.map (·.id)))) =
      [(g!"p", 8, [(g!"f", [g!"SPDXRef-s", g!"SPDXRef-t"]), (g!"g", [])]), (g!"q", 1, [])] := by decide +kernel

/-- Without names the packages are not those of the sections: a package section with an empty name is merged
with the next one. -/
theorem C55_unnamed_false : ∃ tvs d, parseTagValues .v23 tvs = .ok (some d) ∧
    ¬ Pointwise (PackageSectionSays .v23) (listed PackageSec.pairs (sectionsOf tvs).packages) d.packages := by
  have h : (match parseTagValues .v23 [⟨g!"PackageName", []⟩, ⟨g!"SPDXID", g!"SPDXRef-p"⟩, ⟨g!"PackageName", g!"q"⟩] with
    | .ok (some d) => decide (d.packages.map (fun p => p.name) = [g!"q"])
    | _ => false) = true := by decide +kernel
  split at h
  · rename_i d hd
    refine ⟨_, d, hd, ?_⟩
    intro hp
    have hs : listed PackageSec.pairs (sectionsOf [⟨g!"PackageName", []⟩, ⟨g!"SPDXID", g!"SPDXRef-p"⟩, ⟨g!"PackageName", g!"q"⟩]).packages =
        [⟨[], [⟨g!"SPDXID", g!"SPDXRef-p"⟩], [], []⟩] := by decide +kernel
    rw [hs] at hp
    have hq := of_decide_eq_true h
    generalize d.packages = l at hp hq
    cases hp with
    | cons h1 h2 =>
      have := h1.fields.name
      simp only [List.map_cons, List.cons.injEq] at hq
      rw [this] at hq
      simp at hq
  · simp at h

end Verif
