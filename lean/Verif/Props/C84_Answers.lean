import Verif.Lemmas.Answers
import Verif.Props.C62_Convert
import Verif.Props.C65_Transfer

/-!
# C84: what the tools say of a document does not depend on how it is stored
-/

namespace Verif
open Spec

theorem gist_in (v : Version) (d : Doc) : gist (documentIn v d) = gist d := by
  simp only [gist, documentIn, List.map_map]
  congr 1
  refine List.map_congr_left fun p _ => ?_
  simp only [gistPackage, packageIn, Function.comp_apply, List.map_map]
  rfl

theorem gist_plain (d : Doc) : gist (plainCodes d) = gist d := by
  simp only [gist, plainCodes, List.map_map]
  rfl

theorem gist_converted {a b : Version} {d d' : Doc} (h : ConvertedDoc a b d d') : gist d = gist d' := by
  by_cases e : a = b
  · rw [h.1 e]
  · obtain ⟨-, h⟩ := h.2 e
    rw [← gist_plain d', h]
    show _ = gist (plainCodes (documentIn (older a b) d))
    rw [gist_plain, gist_in]

theorem gist_kept (v : Version) (d : Doc) : gist d = gist (keptDoc v d) := by
  simp only [gist, keptDoc, List.map_map]
  congr 1
  refine List.map_congr_left fun p _ => ?_
  simp only [gistPackage, keptPackage, Function.comp_apply, List.map_map]
  rfl

/-- **C84.** Converting a document to any other version changes no answer. -/
theorem C84_version (lib : Copier) (a b : Version) (d d' : Doc) (h : Solid d) (converted : convertWith lib true a b d = .ok d') :
    SameAnswers d d' := by
  obtain ⟨e, h1, -, h2⟩ := C62_converted lib a b d h
  cases converted.symm.trans h1
  exact sameAnswers_of_gist (gist_converted h2)

/-- **C84.** Reading a text of one version into a variable of another gives the same answers as reading it into its own. -/
theorem C84_read_tagvalue (lib : Copier) (v w : Version) (text : Str) (tvs : List TVPair) (name : Str) (d : Doc)
    (h1 : readTagValues text = .ok tvs) (h2 : FirstVersion tvs name) (h3 : VersionNamed name v)
    (h4 : parseTagValues v tvs = .ok (some d)) (hs : Solid d) :
    ∃ d', readTagValueInto (structCopied lib) true w text = .ok d' ∧ SameAnswers d d' := by
  obtain ⟨d', g1, g2⟩ := C62_read_tagvalue lib v w text tvs name d h1 h2 h3 h4 hs
  exact ⟨d', g1, sameAnswers_of_gist (gist_converted g2)⟩

/-- **C84.** So does reading an object of one version into a variable of another. -/
theorem C84_read_json (so : Sorter) (lib : Copier) (v w : Version) (es : List (Str × Json)) (d : Doc)
    (ht : tidy (.obj es) = true) (h1 : StatesVersion es v) (h2 : DocumentIs v es d) (hs : Solid d) :
    ∃ d', readJsonInto so (structCopied lib) true w (.obj es) = .ok d' ∧ SameAnswers d d' := by
  obtain ⟨d', g1, g2⟩ := C62_read_json so lib v w es d ht h1 h2 hs
  exact ⟨d', g1, sameAnswers_of_gist (gist_converted g2)⟩

/-- **C84.** Saving a document as JSON and loading it changes no answer, although not all of it is kept. -/
theorem C84_json (so so' : Sorter) (copy : Version → Version → Doc → Doc) (float : Str → Bool)
    (hf : ∀ n, IsInt64 n → float (itoa n) = true) (odd : Str → Res Doc) (v : Version) (html : Bool) (indent : Str) (hi : Blank indent)
    (d : Doc) (hd : JsonDocument html d) (hv : d.spdxVersion = versionName v) :
    ∃ s d', writeJsonText so v html indent d = .ok s ∧ readJsonText so' copy float odd true v s = .ok d' ∧ SameAnswers d d' := by
  obtain ⟨s, h1, h2⟩ := C58_round_trip so so' copy float hf odd v html indent hi d hd hv
  exact ⟨s, _, h1, h2, sameAnswers_of_gist (gist_kept v d)⟩

/-- **C84.** Nor does saving it as YAML, if the YAML library keeps the written value. -/
theorem C84_yaml (y : Yaml) (so so' : Sorter) (copy : Version → Version → Doc → Doc) (v : Version) (d : Doc)
    (hd : JsonDocument true d) (hv : d.spdxVersion = versionName v) (hy : ∀ j, writeJson so v true d = .ok j → YamlKeeps y j) :
    ∃ s d', writeYamlText y so v d = .ok s ∧ readYamlText y so' copy true v s = .ok d' ∧ SameAnswers d d' := by
  obtain ⟨s, h1, h2⟩ := C60_round_trip y so so' copy v d hd hv hy
  exact ⟨s, _, h1, h2, sameAnswers_of_gist (gist_kept v d)⟩

/-- **C84.** Saving it as tag-value may change the order of packages and files, and no answer that does not depend on it. -/
theorem C84_tagvalue (copy : Version → Version → Doc → Doc) (so : Sorter) (v : Version) (d : Doc) (hd : Representable v d)
    (hv : d.spdxVersion = versionName v) (fit : ∀ text, writeTagValue v so d = .ok text → LinesFit text) :
    ∃ text e, writeTagValue v so d = .ok text ∧ readTagValueInto copy true v text = .ok e ∧ LikeAnswers d e := by
  obtain ⟨text, e, h1, h2, h3⟩ := C65_tagvalue copy so v d hd hv fit
  exact ⟨text, e, h1, h2, likeAnswers_of h3⟩

theorem pointwise_comp {α β γ : Type} {R : α → β → Prop} {S : β → γ → Prop} {T : α → γ → Prop} (hT : ∀ a b c, R a b → S b c → T a c)
    {l : List α} {m : List β} (h : Pointwise R l m) : ∀ {n : List γ}, Pointwise S m n → Pointwise T l n := by
  induction h with
  | nil => intro n hn; cases hn; exact .nil
  | cons h _ ih => intro n hn; cases hn with | cons g gs => exact .cons (hT _ _ _ h g) (ih gs)

theorem like_then_same {d e f : Doc} (h : LikeAnswers d e) (g : SameAnswers e f) : LikeAnswers d f where
  valid := h.valid.trans g.valid
  described := fun so so' => (h.described so so').trans (g.described so')
  packages := by
    obtain ⟨l, h1, h2⟩ := h.packages
    refine ⟨l, h1, pointwise_comp (fun p q r a b => ⟨a.1.trans b.1, fun co => ?_, fun so so' sha1 exclude => ?_⟩) h2 g.packages⟩
    · obtain ⟨co', e⟩ := a.2.1 co
      exact ⟨co', e.trans (b.2.1 co')⟩
    · exact (a.2.2 so so' sha1 exclude).trans (b.2.2 so' sha1 exclude)
  compare := fun hd so po f =>
    ⟨(h.compare hd so po f).1.trans (g.compare so po f).1, (h.compare hd so po f).2.trans (g.compare so po f).2⟩

/-- **C84.** A document that was saved as tag-value, loaded, saved as JSON and loaded again: the same. -/
theorem C84_tagvalue_to_json (w : Surroundings) (hf : ∀ n, IsInt64 n → w.float (itoa n) = true) (v : Version) (html : Bool)
    (indent : Str) (hi : Blank indent) (d : Doc) (hd : Representable v d) (hj : JsonDocument html d)
    (hv : d.spdxVersion = versionName v) (fit : ∀ text, writeTagValue v w.so d = .ok text → LinesFit text) :
    ∃ e, passAlong w v d [.tagValue, .json html indent] = .ok e ∧ LikeAnswers d e := by
  obtain ⟨e, h1, h2⟩ := C65_tagvalue_to_json w hf v html indent hi d hd hj hv fit
  exact ⟨_, h2, like_then_same (likeAnswers_of h1) (sameAnswers_of_gist (gist_kept v e))⟩

/-- **C84.** A document that all formats can carry, passed on in any of them in any order, any number of times: the same. -/
theorem C84_pass_along (w : Surroundings) (hf : ∀ n, IsInt64 n → w.float (itoa n) = true) (v : Version) (d : Doc)
    (hd : Portable v d) (hy : ∀ e j, writeJson w.so v true e = .ok j → YamlKeeps w.y j) (fs : List Format)
    (hi : ∀ html indent, .json html indent ∈ fs → Blank indent) :
    ∃ e, passAlong w v d fs = .ok e ∧ LikeAnswers d e := by
  obtain ⟨e, h1, h2, -⟩ := C65_pass_along w hf v d hd hy fs hi
  exact ⟨e, h1, likeAnswers_of h2⟩

/-! ## Documents -/

/-- A document that uses every section meets the hypotheses of `C84_tagvalue`, one with files and a relationship those of the other
theorems; its file names are distinct, it is valid, and there is something to say of it. -/
theorem C84_sample : Solid doc62 ∧ Representable .v22 C12_sample ∧ DistinctFileNames C12_sample ∧ Portable .v22 doc65 ∧ DistinctFileNames doc65 ∧
    validateDocument (doc65.packages.map some) (doc65.files.map some) (doc65.relationships.map some) = .ok () ∧
    getDescribedPackageIDs insertionSorter (doc65.packages.map some) (doc65.relationships.map some) = .ok [g!"p"] ∧
    diffProgram insertionSorter C75_order doc65 doc65 = .ok
      g!"================================\nPackage p (p)\n  Files in first only: 0\n  Files in second only: 0\n  Files in both with different licenses: 0\n  Files in both with same licenses: 1\n" :=
  ⟨doc62_solid, C12_sample_ok, ⟨by decide +kernel, by decide +kernel⟩, C65_sample.1, ⟨by decide +kernel, by decide +kernel⟩, by decide +kernel, by decide +kernel,
    by decide +kernel⟩

/-! ## Answers that depend on the order -/

/-- A document with described packages `b` and `a`, of which `b` was analyzed. -/
def doc84 (twice : Bool) : Doc :=
  { spdxVersion := g!"SPDX-2.3", spdxId := g!"DOCUMENT", creationInfo := some { created := g!"2020" },
    packages := [{ name := g!"B", spdxId := g!"b", filesAnalyzed := true, filesAnalyzedTagPresent := true,
                   files := [{ name := g!"f", spdxId := g!"y", licenseConcluded := g!"MIT" },
                             { name := if twice then g!"f" else g!"g", spdxId := g!"x", licenseConcluded := g!"BSD" }] },
                 { name := g!"A", spdxId := g!"a", filesAnalyzedTagPresent := true }],
    relationships := [{ refA := { elementRefID := g!"DOCUMENT" }, refB := { elementRefID := g!"b" }, relationship := g!"DESCRIBES" },
                      { refA := { elementRefID := g!"DOCUMENT" }, refB := { elementRefID := g!"a" }, relationship := g!"DESCRIBES" }] }

/-- The document after it was saved as tag-value and loaded. -/
def trip84 (d : Doc) : Res Doc := writeTagValue .v23 insertionSorter d >>= readTagValueInto (fun _ _ d => d) true .v23

/-- **Saving a document as tag-value can make the program that reports licenses say less**: packages are saved in the order of
their identifiers, and the program stops at the first that was not analyzed. -/
theorem C84_report_false :
    reportProgram insertionSorter countSorter (doc84 false) = .ok
      g!"============================\nPackage b (B)\n  2  License found\n  0  License not found\n  2  TOTAL\n\n  1  MIT\n  1  BSD\n  2  TOTAL FOUND\nPackage a (A) had FilesAnalyzed: false\n" ∧
    (trip84 (doc84 false) >>= reportProgram insertionSorter countSorter) = .ok g!"Package a (A) had FilesAnalyzed: false\n" := by
  decide +kernel

/-- **If two files of a package have the same name, saving the document as tag-value can change its licenses for the program that
compares documents**: the last file of a name counts, and files are saved in the order of their identifiers. -/
theorem C84_compare_false :
    diffProgram insertionSorter C75_order (doc84 true) (doc84 true) = .ok
      g!"================================\nPackage a (A)\n  Files in first only: 0\n  Files in second only: 0\n  Files in both with different licenses: 0\n  Files in both with same licenses: 0\n================================\nPackage b (B)\n  Files in first only: 0\n  Files in second only: 0\n  Files in both with different licenses: 0\n  Files in both with same licenses: 1\n" ∧
    (trip84 (doc84 true) >>= diffProgram insertionSorter C75_order (doc84 true)) = .ok
      g!"================================\nPackage a (A)\n  Files in first only: 0\n  Files in second only: 0\n  Files in both with different licenses: 0\n  Files in both with same licenses: 0\n================================\nPackage b (B)\n  Files in first only: 0\n  Files in second only: 0\n  Files in both with different licenses: 1\n  Files in both with same licenses: 0\n" := by
  decide +kernel

end Verif
