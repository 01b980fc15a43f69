import Verif.Lemmas.Outline

/-!
# C11: files belong to the package whose section they appear in
-/

namespace Verif
open Spec

/-- **C11.** The packages and files of a parsed document are exactly the sections of the text, in the
order of the text: file sections before every package are the document's own files, every other file
section belongs to the nearest package section before it, and each section gives one object, with the
name and the identifier written in that section. -/
theorem C11_objects_follow_sections (v : Version) (tvs : List TVPair) (d : Doc)
    (h : parseTagValues v tvs = .ok (some d)) (hnames : PackagesNamed tvs) (hids : IdsNotRepeated tvs) :
    d.files.map fileEntry = looseFiles tvs ∧ d.packages.map packageEntry = packagesWithFiles tvs := by
  have hfold := (foldl_outStep tvs).1
  unfold parseTagValues at h
  rw [bind_eq_ok] at h
  obtain ⟨s, hs, h⟩ := h
  have hf := follows_pairs follows_init hs hnames (by rw [hfold]; exact hids)
  rw [hfold] at hf
  split at h
  · simp at h
  · rename_i h1
    split at h
    · simp at h
    · rename_i h2
      split at h
      · simp at h
      · rename_i d' hd
        split at h
        · rename_i doc hdoc
          simp only [Res.ok.injEq, Option.some.injEq] at h
          subst h
          exact follows_result hf (by simpa using h1) (by simpa using h2) hd hdoc
        · simp at h

/-- Two loose files, two packages with two and one files. -/
def outlineSample : List TVPair := [
  ⟨g!"SPDXID", g!"SPDXRef-DOCUMENT"⟩, ⟨g!"DocumentName", g!"d"⟩,
  ⟨g!"FileName", g!"l1"⟩, ⟨g!"SPDXID", g!"SPDXRef-L1"⟩,
  ⟨g!"FileName", g!"l2"⟩, ⟨g!"FileComment", g!"c"⟩, ⟨g!"SPDXID", g!"SPDXRef-L2"⟩,
  ⟨g!"PackageName", g!"p"⟩, ⟨g!"SPDXID", g!"SPDXRef-P"⟩,
  ⟨g!"FileName", g!"f1"⟩, ⟨g!"SPDXID", g!"SPDXRef-F1"⟩, ⟨g!"SnippetSPDXID", g!"SPDXRef-S"⟩,
  ⟨g!"FileName", g!"f2"⟩, ⟨g!"SPDXID", g!"SPDXRef-F2"⟩,
  ⟨g!"PackageName", g!"q"⟩, ⟨g!"SPDXID", g!"SPDXRef-Q"⟩,
  ⟨g!"FileName", g!"f3"⟩, ⟨g!"SPDXID", g!"SPDXRef-F3"⟩,
  ⟨g!"LicenseID", g!"LicenseRef-1"⟩ ]

/-- The sample parses, meets the hypotheses, and its outline is what one reads in it. -/
theorem C11_sample : (∃ d, parseTagValues .v22 outlineSample = .ok (some d)) ∧
    PackagesNamed outlineSample ∧ IdsNotRepeated outlineSample ∧
    looseFiles outlineSample = [(g!"l1", [g!"SPDXRef-L1"]), (g!"l2", [g!"SPDXRef-L2"])] ∧
    packagesWithFiles outlineSample =
      [((g!"p", [g!"SPDXRef-P"]), [(g!"f1", [g!"SPDXRef-F1"]), (g!"f2", [g!"SPDXRef-F2"])]),
       ((g!"q", [g!"SPDXRef-Q"]), [(g!"f3", [g!"SPDXRef-F3"])])] := by
  refine ⟨?_, by decide +kernel, by decide +kernel, by decide +kernel, by decide +kernel⟩
  have h : (match parseTagValues .v22 outlineSample with
    | .ok (some _) => true
    | _ => false) = true := by decide +kernel
  split at h
  · rename_i d hd; exact ⟨d, hd⟩
  · simp at h

/-- **C11, first condition needed.** After a package section with an empty name the next package section
overwrites it: two sections, one object (listed twice, since both sections register it). -/
theorem C11_unnamed_package_false : ∃ tvs d, parseTagValues .v23 tvs = .ok (some d) ∧ IdsNotRepeated tvs ∧
    (packagesWithFiles tvs).map (fun g => g.1.1) = [g!"", g!"b"] ∧
    d.packages.map (fun p => (p.name, p.spdxId)) = [(g!"b", g!"B"), (g!"b", g!"B")] :=
  ⟨[⟨g!"PackageName", g!""⟩, ⟨g!"SPDXID", g!"SPDXRef-A"⟩, ⟨g!"PackageName", g!"b"⟩, ⟨g!"SPDXID", g!"SPDXRef-B"⟩],
   { creationInfo := some {},
     packages := [{ name := g!"b", spdxId := g!"B", filesAnalyzed := true },
                  { name := g!"b", spdxId := g!"B", filesAnalyzed := true }] },
   by decide +kernel⟩

/-- **C11, second condition needed.** A second `SPDXID` in a file section lists the file a second
time. -/
theorem C11_repeated_id_false : ∃ tvs d, parseTagValues .v23 tvs = .ok (some d) ∧ PackagesNamed tvs ∧
    (looseFiles tvs).length = 1 ∧ d.files.map (fun f => (f.name, f.spdxId)) = [(g!"f", g!"B"), (g!"f", g!"B")] :=
  ⟨[⟨g!"FileName", g!"f"⟩, ⟨g!"SPDXID", g!"SPDXRef-A"⟩, ⟨g!"SPDXID", g!"SPDXRef-B"⟩],
   { creationInfo := some {}, files := [{ name := g!"f", spdxId := g!"B" }, { name := g!"f", spdxId := g!"B" }] },
   by decide +kernel⟩

end Verif
