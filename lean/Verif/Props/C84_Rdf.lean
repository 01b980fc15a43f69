import Verif.Props.C79_RdfToJson
import Verif.Props.C80_RdfToText
import Verif.Props.C81_OtherVersion
import Verif.Props.C84_Answers

/-!
# C84: documents that are read from RDF
-/

namespace Verif
open Spec Spec.Rdf

theorem gist_left_json (v : Version) (d : Doc) : gist d = gist (leftInJson v d) := by
  simp only [gist, leftInJson, List.map_map]
  congr 1
  refine List.map_congr_left fun p _ => ?_
  simp only [gistPackage, Function.comp_apply, List.map_map]
  rfl

theorem gist_left_text (d : Doc) : gist d = gist (leftInText d) := by
  simp only [gist, leftInText, List.map_map]
  congr 1
  refine List.map_congr_left fun p _ => ?_
  simp only [gistPackage, Function.comp_apply, List.map_map]
  rfl

theorem gist_inVersion (a b : Version) (d : Doc) : gist d = gist (inVersion a b d) := by
  show gist d = gist (documentIn (older a b) d)
  rw [gist_in]

theorem distinct_gist (d : Doc) : DistinctFileNames (gist d) ↔ DistinctFileNames d := by
  constructor
  · rintro ⟨h1, h2⟩
    refine ⟨by rw [← map_gist_ids]; exact h1, fun p hp => ?_⟩
    have := h2 (gistPackage p) (List.mem_map.2 ⟨p, hp, rfl⟩)
    rw [← map_gist_names]; exact this
  · rintro ⟨h1, h2⟩
    refine ⟨by rw [← map_gist_ids] at h1; exact h1, fun q hq => ?_⟩
    obtain ⟨p, hp, rfl⟩ := List.mem_map.1 hq
    have := h2 p hp
    rw [← map_gist_names] at this; exact this

/-- Answers that are kept, and then answers that are kept up to order. -/
theorem same_then_like {d d' e : Doc} (h : gist d = gist d') (h' : SameDoc d' e) : LikeAnswers d e := by
  have hs := sameAnswers_of_gist h
  have hl := likeAnswers_of h'
  refine ⟨hs.valid.trans hl.valid, fun so so' => (hs.described so).trans (hl.described so so'), ?_, fun hd so po f => ?_⟩
  · obtain ⟨l', q1, q2⟩ := hl.packages
    obtain ⟨l, r1, r2⟩ := Spec.Pointwise.perm_right hs.packages q1
    refine ⟨l, r1, pointwise_comp (fun p q r a b => ⟨a.1.trans b.1, fun co => ?_, fun so so' sha1 exclude => ?_⟩) r2 q2⟩
    · obtain ⟨co', e⟩ := b.2.1 co
      exact ⟨co', (a.2.1 co).trans e⟩
    · exact (a.2.2 so sha1 exclude).trans (b.2.2 so so' sha1 exclude)
  · have hd' : DistinctFileNames d' := (distinct_gist d').1 (h ▸ (distinct_gist d).2 hd)
    exact ⟨(hs.compare so po f).1.trans (hl.compare hd' so po f).1, (hs.compare so po f).2.trans (hl.compare hd' so po f).2⟩

section
variable (so so' : Sorter) (lib : Copier) (o : MapOrder) (g : Graph) (d : Doc) (v w : Version)

/-- **C84.** What the tools say of a document that is read from RDF into a variable of any version, they still say of it after
it was saved as JSON. -/
theorem C84_rdf_json (float : Str → Bool) (hf : ∀ n, IsInt64 n → float (itoa n) = true) (odd : Str → Res Doc) (html : Bool) (indent : Str)
    (hi : Blank indent) (h : readGraph o g = .ok d) (hv : Rdf.StatesVersion g v) (hs : SavableGraph html g) (h1 : OneRole g)
    (h2 : DistinctNames g) (solid : Verif.Solid d) :
    ∃ e saved e', readRdfInto (structCopied lib) true o w (some g) = .ok e ∧ writeJsonText so w html indent e = .ok saved ∧
      readJsonText so' (structCopied lib) float odd true w saved = .ok e' ∧ SameAnswers d e' := by
  obtain ⟨e, saved, e', k1, k2, k3, k4⟩ := C81_rdf_json so so' lib o g d v w float hf odd html indent hi h hv hs h1 h2 solid
  refine ⟨e, saved, e', k1, k2, k3, sameAnswers_of_gist ?_⟩
  rw [← gist_plain e', k4, ← gist_left_json, gist_plain, ← gist_inVersion]

/-- **C84.** Or as YAML, if the YAML library keeps the value. -/
theorem C84_rdf_yaml (y : Yaml) (h : readGraph o g = .ok d) (hv : Rdf.StatesVersion g v) (hs : SavableGraph true g) (h1 : OneRole g)
    (h2 : DistinctNames g) (solid : Verif.Solid d)
    (hy : ∀ e j, readRdfInto (structCopied lib) true o w (some g) = .ok e → writeJson so w true e = .ok j → YamlKeeps y j) :
    ∃ e saved e', readRdfInto (structCopied lib) true o w (some g) = .ok e ∧ writeYamlText y so w e = .ok saved ∧
      readYamlText y so' (structCopied lib) true w saved = .ok e' ∧ SameAnswers d e' := by
  obtain ⟨e, saved, e', k1, k2, k3, k4⟩ := C81_rdf_yaml so so' lib o g d v w y h hv hs h1 h2 solid hy
  refine ⟨e, saved, e', k1, k2, k3, sameAnswers_of_gist ?_⟩
  rw [← gist_plain e', k4, ← gist_left_json, gist_plain, ← gist_inVersion]

/-- **C84.** Or as tag-value, which may change the order of packages and files. -/
theorem C84_rdf_text (h : readGraph o g = .ok d) (hv : Rdf.StatesVersion g v) (hs : TextGraph g) (h1 : OneRole g) (h2 : DistinctNames g)
    (ha : ArtifactsGiven d) (hw : SayableIn w d) :
    ∃ e saved, readRdfInto (structCopied lib) true o w (some g) = .ok e ∧ writeTagValue w so e = .ok saved ∧
      (LinesFit saved → ∃ d', loadTagValue saved = .ok (w, some d') ∧ LikeAnswers d d') := by
  obtain ⟨e, saved, k1, k2, k3⟩ := C81_rdf_text so lib o g d v w h hv hs h1 h2 ha hw
  refine ⟨e, saved, k1, k2, fun fit => ?_⟩
  obtain ⟨d', q1, q2⟩ := k3 fit
  exact ⟨d', q1, same_then_like (by rw [← gist_left_text, ← gist_inVersion]) q2⟩

end

/-! ## Examples -/

/-- Non-vacuity: the graphs of `C79_sample` and `C80_sample`, which `C81_rdf_sample` shows to meet the other conditions, are read as
documents; the first is valid, and the packages it describes are not found (C94). -/
theorem C84_rdf_sample : (∃ d, readGraph .same rdfRich = .ok d ∧ Verif.Solid d) ∧ (∀ html, SavableGraph html rdfRich) ∧ TextGraph rdfText ∧
    (readGraph .same rdfRich).map (fun d => (validateDocument (d.packages.map some) (d.files.map some) (d.relationships.map some),
      getDescribedPackageIDs insertionSorter (d.packages.map some) (d.relationships.map some))) = .ok (.ok (), .err) :=
  ⟨C81_rdf_sample.1, rdfRich_savable, rdfText_textable, by decide +kernel⟩

end Verif
