import Verif.Lemmas.RdfTextable
import Verif.Props.C78_Upgrade
import Verif.Props.C79_RdfToJson
import Verif.Model.Reflect

/-!
# C80: a document from RDF saved as tag-value

The specification is in `Spec/RdfTextable`.
-/

namespace Verif
open Spec Spec.Rdf

theorem loadTagValue_of {v : Version} {text : Str} {d : Doc} (h : LoadsAs v text d) : loadTagValue text = .ok (v, some d) := by
  obtain ⟨tvs, h1, h2, h3⟩ := h
  have hv := stated_iff.2 ⟨_, h2, versionName_names v⟩
  have hne : tvs ≠ [] := by
    rintro rfl
    obtain ⟨b, a, hh, -⟩ := h2
    simp at hh
  simp only [loadTagValue, h1, Res.bind_ok, hne, if_false, hv, h3]
  rfl

/-- **C80.** A document that is read from an RDF graph whose values fit, in any order of its statements and of the reader's
maps, can be saved as tag-value; and what is saved is read, with the version it states, as the document, but for the
names of files in the ranges of snippets. -/
theorem C80_text (so : Sorter) (o : MapOrder) (g : Graph) (d : Doc) (v : Version) (h : readGraph o g = .ok d) (hv : Rdf.StatesVersion g v)
    (hs : TextGraph g) (h1 : OneRole g) (h2 : DistinctNames g) :
    ∃ text, writeTagValue v so d = .ok text ∧
      (LinesFit text → ∃ d', loadTagValue text = .ok (v, some d') ∧ SameDoc (leftInText d) d') := by
  obtain ⟨hne, hl, hd⟩ := rdf_version h hv h1 h2
  have hr : Representable v (leftInText d) := rdf_representable hs hl hne h1 h2 (by rw [hd]; cases v <;> decide)
  obtain ⟨text, hw⟩ := C12_representable_is_written v so _ hr
  refine ⟨text, by rw [← writeTagValue_left v so (rdf_sameIds hl h1 h2)]; exact hw, fun fit => ?_⟩
  obtain ⟨d', k1, k2⟩ := loadsAs_written hr hd hw fit
  exact ⟨d', loadTagValue_of k1, k2⟩

theorem sort_one {α : Type} (so so' : Sorter) {k : α → Str} {l : List α} (h : ∀ a ∈ l, ∀ b ∈ l, k a = k b → a = b) :
    so.run k l = so'.run k l := by
  refine ((so.perm k l).trans (so'.perm k l).symm).eq_of_pairwise ?_ (so.sorted k l) (so'.sorted k l)
  intro x y hx hy h1 h2
  exact h x ((so.perm k l).mem_iff.1 hx) y ((so'.perm k l).mem_iff.1 hy) (strLe_antisymm h1 h2)

theorem renderFile_one (v : Version) (so so' : Sorter) (f : FileV) : renderFile v so f = renderFile v so' f := by
  have : snippetsInOrder so f = snippetsInOrder so' f := by
    unfold snippetsInOrder
    rw [sort_one so so' (k := id) fun _ _ _ _ e => e]
  unfold renderFile
  rw [this]

theorem renderPackage_one (v : Version) (so so' : Sorter) (p : PackageV) (h : ∀ a ∈ p.files, ∀ b ∈ p.files, a.spdxId = b.spdxId → a = b) :
    renderPackage v so p = renderPackage v so' p := by
  unfold renderPackage sortPackageFiles
  dsimp only
  rw [sort_one so so' h]
  rw [flatMap_congr fun f _ => renderFile_one v so so' f]

theorem writeTagValue_one (v : Version) (so so' : Sorter) {d : Doc} (h : SameIds d)
    (hx : ∀ a ∈ d.externalDocumentRefs, ∀ b ∈ d.externalDocumentRefs, a.documentRefID = b.documentRefID → a = b) :
    writeTagValue v so d = writeTagValue v so' d := by
  have e : ∀ ci, renderBody v so d ci = renderBody v so' d ci := by
    intro ci
    unfold renderBody renderHeader
    rw [sort_one so so' hx, sort_one so so' h.files, sort_one so so' h.packages, flatMap_congr fun f _ => renderFile_one v so so' f,
      flatMap_congr (l := so'.run (fun p : PackageV => p.spdxId) d.packages) (f := renderPackageGroup v so) (g := renderPackageGroup v so')]
    intro p hp
    unfold renderPackageGroup
    rw [renderPackage_one v so so' p (h.packageFiles p ((so'.perm _ _).mem_iff.1 hp))]
  unfold writeTagValue renderDocument
  cases d.creationInfo with
  | none => rfl
  | some ci => simp only [Res.bind_ok]; rw [e]

/-- **C80.** The text of a document that is read from RDF does not depend on how the writer sorts, although the same
package can be in the document several times, if different external documents have different names. -/
theorem C80_one_text (so so' : Sorter) (v w : Version) (o : MapOrder) (g : Graph) (d : Doc) (h : loadGraph v o g = .ok d) (h1 : OneRole g)
    (h2 : DistinctNames g)
    (hx : ∀ a ∈ d.externalDocumentRefs, ∀ b ∈ d.externalDocumentRefs, a.documentRefID = b.documentRefID → a = b) :
    writeTagValue w so d = writeTagValue w so' d := writeTagValue_one w so so' (rdf_sameIds h h1 h2) hx

/-! ## Examples and counterexamples -/

theorem lineAgent_of {x : Str} (h : '\n' ∉ x ∧ contains g!"<text>" x = false)
    (hn : (match Verif.cut g!":" x with | some (_, b) => decide (trimSpace b ≠ []) | none => true) = true) : LineAgent x := by
  refine ⟨h.1, h.2, ?_⟩
  rintro kind name ⟨a, b, rfl, hc, rfl, rfl⟩
  rw [show a ++ g!":" ++ b = a ++ ':' :: b by simp, show g!":" = [':'] from rfl, cut_single hc] at hn
  exact of_decide_eq_true hn

/-- A document with a package whose files were not analyzed, two files, an annotation, a relationship, a license and a
snippet. -/
def rdfText : Graph :=
  { rdfRich with
    triples := rdfRich.triples ++
      [valueTo (exId g!"p") (spdxTerm g!"filesAnalyzed") g!"false",
       linkTo (exId g!"p") (spdxTerm g!"licenseConcluded") (spdxTerm g!"noassertion")] }

theorem rdfText_roles : OneRole rdfText := oneRole_of (by decide +kernel) (by decide +kernel)
theorem rdfText_names : DistinctNames rdfText := distinctNames_of (by decide +kernel) (by decide +kernel)

instance (g : Graph) (n : RNode) (p : Pred) : Decidable (Given g n p) := by unfold Given; infer_instance

theorem rdfText_license : ∀ t ∈ rdfText.triples, t.pred ∈ licenseProps → ∀ l, Describes rdfText (fun _ => false) t.object l → OneLine l.text := by
  have h : ∀ t ∈ rdfText.triples, t.pred ∈ licenseProps → t.object.id = spdxTerm g!"noassertion" := by decide +kernel
  have hs : ∀ t ∈ rdfText.triples, t.subject.id ≠ spdxTerm g!"noassertion" := by decide +kernel
  intro t ht hp l hl
  have e := h t ht hp
  have no : ∀ c, ¬ ClassOf rdfText t.object.id c := by
    rintro c ⟨u, hu, -⟩
    have := List.mem_filter.1 (by rw [hu]; exact List.mem_singleton_self u : u ∈ rdfText.triples.filter _)
    refine hs u this.1 ?_
    simp only [Bool.and_eq_true, decide_eq_true_eq] at this
    rw [this.2.1, e]
  cases hl with
  | named _ hn =>
    cases hn with
    | special _ hx =>
      rw [e] at hx
      rcases hx with ⟨hx, rfl⟩ | ⟨-, rfl⟩ | ⟨-, -, -, hx, -⟩
      · decide
      · decide
      · exact absurd (by decide +kernel) hx
    | simple hc => exact absurd hc (no _)
    | extracted hc => exact absurd hc (no _)
    | listed hc => exact absurd hc (no _)
    | license hc => exact absurd hc (no _)
    | orLater hc => exact absurd hc (no _)
    | withException hc => exact absurd hc (no _)
    | exceptionAlone hc => exact absurd hc (no _)
  | all _ hi _ => cases hi with | all hc _ => exact absurd hc (no _)
  | any _ hi _ => cases hi with | any hc => exact absurd hc (no _)

theorem rdfText_textable : TextGraph rdfText := by
  have b1 : ∀ t ∈ rdfText.triples, (t.pred ∈ lineProps → OneLine t.object.id) ∧ (t.pred ∈ nameProps → Line1 t.object.id) ∧
      (t.pred ∈ textProps → GoodValue t.object.id) ∧ (t.pred ∈ wordProps → Word t.object.id) := by decide +kernel
  have b2 : ∀ t ∈ rdfText.triples, (t.pred ∉ [Pred.annotator, .creator] → Spec.Solid t.object.id) ∧ Spec.Solid t.subject.id := by decide +kernel
  have b3 : ∀ t ∈ rdfText.triples, ∀ p ∈ needed t.pred, Given rdfText t.object p := by decide +kernel
  have b4 : ∀ t ∈ rdfText.triples, t.pred ∈ [Pred.annotator, .creator] → ('\n' ∉ t.object.id ∧ contains g!"<text>" t.object.id = false) ∧
      (match Verif.cut g!":" t.object.id with | some (_, b) => decide (trimSpace b ≠ []) | none => true) = true := by decide +kernel
  have b5 : ∀ t ∈ rdfText.triples, t.pred ∉ [Pred.reviewer, .supplier, .originator, .packageVerificationCodeValue,
      .packageVerificationCodeExcludedFile, .packageVerificationCode, .licenseInfoFromFiles] := by decide +kernel
  have b6 : ∀ t ∈ rdfText.triples, t.pred ∈ [Pred.offset, .lineNumber] → atoi t.object.id ≠ some 0 := by decide +kernel
  have b7 : ∀ t ∈ rdfText.triples, t.pred ∈ [Pred.hasFile, .fileDependency, .snippetFromFile, .reference, .describesPackage, .relatedSpdxElement] →
      Spec.Solid t.object.id ∧ (t.object.id ∈ [exId g!"f", exId g!"h"] → Given rdfText t.object .fileName) ∧
      (t.object.id ∈ [exId g!"p"] → Given rdfText t.object .name ∧ Given rdfText t.object .filesAnalyzed) := by decide +kernel
  have b8 : ∀ t ∈ rdfText.triples, (t.pred ∈ [Pred.hasFile, .fileDependency, .snippetFromFile, .reference] → t.object.id ∈ [exId g!"f", exId g!"h"]) ∧
      (t.pred ∈ [Pred.describesPackage, .relatedSpdxElement] → t.object.id ∈ [exId g!"p"]) := by decide +kernel
  have b9 : ∀ t ∈ rdfText.triples, Cls.ofStr t.object.id = .file → t.subject.id ∈ [exId g!"f", exId g!"h"] := by decide +kernel
  have b10 : ∀ t ∈ rdfText.triples, Cls.ofStr t.object.id = .spdxDocument → t.subject.id = exId g!"DOCUMENT" ∧ Given rdfText t.subject .creationInfo := by
    decide +kernel
  have agent : ∀ t ∈ rdfText.triples, t.pred ∈ [Pred.annotator, .creator] → LineAgent t.object.id := fun t ht hp => lineAgent_of (b4 t ht hp).1 (b4 t ht hp).2
  have none : ∀ {t p}, t ∈ rdfText.triples → t.pred = p → p ∈ [Pred.reviewer, .supplier, .originator, .packageVerificationCodeValue,
      .packageVerificationCodeExcludedFile, .packageVerificationCode, .licenseInfoFromFiles] → False := fun {t p} ht e h => b5 t ht (e ▸ h)
  refine {
    line := fun t ht => (b1 t ht).1, name := fun t ht => (b1 t ht).2.1, text := fun t ht => (b1 t ht).2.2.1, word := fun t ht => (b1 t ht).2.2.2,
    solid := fun t ht hp => (b2 t ht).1 (fun h => ?_), license := rdfText_license, needs := b3, document := ?_,
    related := fun t ht _ => (b2 t ht).2, file := ?_, package := ?_, snippet := ?_, agent := ?_, reviewer := fun t ht hp => (none ht hp (by simp)).elim,
    party := ?_, number := fun t ht hp hn => b6 t ht hp (number_iff.1 hn), code := fun t ht hp => (none ht hp (by simp)).elim,
    excluded := fun t ht hp => none ht hp (by simp), analyzed := ?_ }
  · simp only [List.mem_cons, List.not_mem_nil, or_false] at h
    rcases h with h | h <;> rw [h] at hp <;> exact absurd hp (by decide)
  · rintro n ⟨_, t, ht, rfl, hp, hc⟩
    refine ⟨(b2 t ht).2, (b10 t ht hc).2, ?_⟩
    rw [(b10 t ht hc).1]
    intro a b e hna
    have h1 := cut_single (c := '#') (a := a) (b := b) hna
    rw [← e] at h1
    have h2 : Verif.cut ['#'] (exId g!"DOCUMENT") = some (g!"http://ex.org/d", g!"SPDXRef-DOCUMENT") := by decide +kernel
    rw [h2] at h1
    cases h1
    decide
  · rintro n hu ⟨t, ht, hp, rfl⟩
    refine ⟨(b7 t ht hp).1, (b7 t ht hp).2.1 ?_⟩
    rcases hu with ⟨u, hu, hq, e⟩ | ⟨u, hu, _, e, w, hw, hs, _, hc⟩
    · rw [← e]; exact (b8 u hu).1 hq
    · rw [← e, ← hs]; exact b9 w hw hc
  · rintro n hu ⟨t, ht, hp, rfl⟩
    refine ⟨(b7 t ht hp).1, (b7 t ht hp).2.2 ?_⟩
    rcases hu with ⟨u, hu, hq, e⟩ | ⟨u, hu, hq, e, _⟩
    · rw [← e]; exact (b8 u hu).2 (by simp at hq; simp [hq])
    · rw [← e]; exact (b8 u hu).2 (by simp [hq])
  · rintro n ⟨_, t, ht, rfl, _, _⟩
    exact (b2 t ht).2
  · intro t ht hp
    simp only [List.mem_cons, List.not_mem_nil, or_false] at hp
    rcases hp with h | h | h
    · exact agent t ht (by simp [h])
    · exact agent t ht (by simp [h])
    · exact (none ht h (by simp)).elim
  · intro t ht hp
    simp only [List.mem_cons, List.not_mem_nil, or_false] at hp
    rcases hp with h | h <;> exact (none ht h (by simp)).elim
  · intro t ht hp
    simp only [List.mem_cons, List.not_mem_nil, or_false] at hp
    rcases hp with h | h <;> exact (none ht h (by simp)).elim

/-- Non-vacuity: the graph with a package, files, a relationship, an annotation, a license and a snippet meets the
conditions. -/
theorem C80_sample : (∃ d, readGraph .same rdfText = .ok d) ∧ Rdf.StatesVersion rdfText .v23 ∧ TextGraph rdfText ∧ OneRole rdfText ∧
    DistinctNames rdfText := by
  have : (readGraph .same rdfText).map shownNames =
      .ok (g!"SPDXRef-DOCUMENT", g!"http://ex.org/d", g!"doc", some [{ creatorType := g!"Tool", creator := g!"x" }]) := by decide +kernel
  obtain ⟨d, h, _⟩ := ROut.map_ok this
  refine ⟨⟨d, h⟩, ⟨by decide +kernel, ?_⟩, rdfText_textable, rdfText_roles, rdfText_names⟩
  rintro n ⟨_, t, ht, rfl, hp, hc⟩
  have hd : ∀ t ∈ rdfText.triples, Cls.ofStr t.object.id = .spdxDocument → Given rdfText t.subject .specVersion := by decide +kernel
  exact hd t ht hc

/-- The lines of what is saved of a graph that start with a text. -/
def savedLines (start : Str) (g : Graph) : ROut (List Str) :=
  (readGraph .same g).map fun d => match writeTagValue .v23 insertionSorter d with
    | .ok text => (splitChar '\n' text).filter fun l => hasPrefix start l
    | _ => []

/-- C80: "the saved relationships refer to the saved document" is false: the document keeps the prefix in its identifier and
gets a second one in the text; the relationships refer to it with one prefix. -/
theorem C80_identifier_false : savedLines g!"SPDXID: " rdfText = .ok [g!"SPDXID: SPDXRef-SPDXRef-DOCUMENT", g!"SPDXID: SPDXRef-h",
      g!"SPDXID: SPDXRef-p", g!"SPDXID: SPDXRef-f", g!"SPDXID: SPDXRef-f", g!"SPDXID: SPDXRef-p", g!"SPDXID: SPDXRef-f", g!"SPDXID: SPDXRef-f"] ∧
    savedLines g!"Relationship: " rdfText = .ok [g!"Relationship: SPDXRef-DOCUMENT describes SPDXRef-p"] := by decide +kernel

/-- C80: "each element is saved once" is false: a package that is described and related is written twice, with its files each
time. -/
theorem C80_once_false : savedLines g!"PackageName: " rdfText = .ok [g!"PackageName: pkg", g!"PackageName: pkg"] ∧
    savedLines g!"FileName: ./f" rdfText = .ok [g!"FileName: ./f", g!"FileName: ./f", g!"FileName: ./f", g!"FileName: ./f"] := by
  decide +kernel

/-- C80: "whether the files of a package were analyzed is still known to be unsaid" is false: without a statement in the
graph the text says that they were not. -/
theorem C80_analyzed_false : (∀ t ∈ rdfRich.triples, t.pred ≠ .filesAnalyzed) ∧
    savedLines g!"FilesAnalyzed: " rdfRich = .ok [g!"FilesAnalyzed: false", g!"FilesAnalyzed: false"] := by decide +kernel

/-- C80: "the ranges of snippets keep their files" is false: the reader gives both ends of a range the file of the snippet,
the writer does not write them. -/
theorem C80_ranges_false : (readGraph .same rdfText).map (fun d =>
      (((allFiles d).flatMap fun f => f.snippets.flatMap fun e => e.2.ranges.map fun r => r.startPointer.fileSpdxId),
       (allFiles (leftInText d)).flatMap fun f => f.snippets.flatMap fun e => e.2.ranges.map fun r => r.startPointer.fileSpdxId)) =
    .ok ([g!"h"], [[]]) := by decide +kernel

end Verif
