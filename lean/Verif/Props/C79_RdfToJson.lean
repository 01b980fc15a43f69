import Verif.Lemmas.RdfSavable
import Verif.Props.C58_JsonText
import Verif.Props.C60_Yaml

/-!
# C79: a document from RDF saved as JSON or YAML

The specification is in `Spec/RdfSavable`.
-/

namespace Verif
open Spec Spec.Rdf

/-- The version the document states. -/
theorem rdf_version {o : MapOrder} {g : Graph} {d : Doc} {v : Version} (h : readGraph o g = .ok d) (hv : Rdf.StatesVersion g v) (h1 : OneRole g)
    (h2 : DistinctNames g) : v ≠ .v21 ∧ loadGraph v o g = .ok d ∧ d.spdxVersion = versionName v := by
  obtain ⟨w, ⟨a, t, b, e, _, hp, hw⟩, hl⟩ := (readGraph_ok o g d).1 h
  have ht := hv.1 t (by rw [e]; simp) hp
  have hwv : w = v ∧ v ≠ .v21 := by
    rw [ht] at hw
    cases v <;> rcases hw with ⟨rfl, e⟩ | ⟨rfl, e⟩ <;> first | exact ⟨rfl, by decide⟩ | exact absurd e (by decide)
  obtain ⟨rfl, hne⟩ := hwv
  refine ⟨hne, hl, ?_⟩
  obtain ⟨n, hn, _⟩ := C49_one_document w o g d hl h1 h2
  have D := C49_document w o g d hl h1 h2 n hn
  obtain ⟨m, hm, hx⟩ := lastOf_source D.version (vals_given (hv.2 n hn))
  obtain ⟨u, hu, hup, rfl⟩ := vals_of_source hm
  rw [hx]
  exact hv.1 u hu hup

/-- **C79.** A document that is read from a savable RDF graph, in any order of its statements, can be saved as JSON, with
or without HTML escaping and with any indentation; and what is saved is read as the document, less its reviews, the
snippets of its files, and the prefixes RDF leaves in identifiers of documents. -/
theorem C79_json (so so' : Sorter) (copy : Version → Version → Doc → Doc) (float : Str → Bool)
    (hf : ∀ n, IsInt64 n → float (itoa n) = true) (odd : Str → Res Doc) (o : MapOrder) (g : Graph) (d : Doc) (v : Version) (html : Bool)
    (indent : Str) (hi : Blank indent) (h : readGraph o g = .ok d) (hv : Rdf.StatesVersion g v) (hs : SavableGraph html g) (h1 : OneRole g)
    (h2 : DistinctNames g) :
    ∃ s, writeJsonText so v html indent d = .ok s ∧ readJsonText so' copy float odd true v s = .ok (leftInJson v d) := by
  obtain ⟨hne, hl, hd⟩ := rdf_version h hv h1 h2
  have hj := rdf_jsonDocument hs hl h1 h2
  obtain ⟨s, q1, q2⟩ := C58_round_trip so so' copy float hf odd v html indent hi (bareIds d) hj hd
  refine ⟨s, ?_, by rw [q2, rdf_keptDoc hl hne h1 h2]⟩
  unfold writeJsonText at q1 ⊢
  rw [← q1, writeJson_bare so v html hj.id.bare fun r hr => (hj.refs _ (List.mem_map.2 ⟨r, hr, rfl⟩)).bare]

/-- **C79.** The same for YAML, if the YAML library keeps the value. -/
theorem C79_yaml (y : Yaml) (so so' : Sorter) (copy : Version → Version → Doc → Doc) (o : MapOrder) (g : Graph) (d : Doc) (v : Version)
    (h : readGraph o g = .ok d) (hv : Rdf.StatesVersion g v) (hs : SavableGraph true g) (h1 : OneRole g) (h2 : DistinctNames g)
    (hy : ∀ j, writeJson so v true d = .ok j → YamlKeeps y j) :
    ∃ s, writeYamlText y so v d = .ok s ∧ readYamlText y so' copy true v s = .ok (leftInJson v d) := by
  obtain ⟨hne, hl, hd⟩ := rdf_version h hv h1 h2
  have hj := rdf_jsonDocument hs hl h1 h2
  have he : writeJson so v true (bareIds d) = writeJson so v true d :=
    writeJson_bare so v true hj.id.bare fun r hr => (hj.refs _ (List.mem_map.2 ⟨r, hr, rfl⟩)).bare
  obtain ⟨s, q1, q2⟩ := C60_round_trip y so so' copy v (bareIds d) hj hd (by rw [he]; exact hy)
  refine ⟨s, ?_, by rw [q2, rdf_keptDoc hl hne h1 h2]⟩
  unfold writeYamlText at q1 ⊢
  rw [← q1, he]

/-- **C79.** So the packages, the files, their contents other than snippets, the relationships, annotations and extracted
licenses, and the creation information are those of the document in RDF, each in its place. -/
theorem C79_elements (v : Version) (d : Doc) :
    (leftInJson v d).packages.map (·.spdxId) = d.packages.map (·.spdxId) ∧
    (leftInJson v d).packages.map (·.name) = d.packages.map (·.name) ∧
    (allFiles (leftInJson v d)).map (·.spdxId) = (allFiles d).map (·.spdxId) ∧
    (allFiles (leftInJson v d)).map (·.checksums) = (allFiles d).map (·.checksums) ∧
    (leftInJson v d).relationships = d.relationships ∧ (leftInJson v d).annotations = d.annotations ∧
    (leftInJson v d).otherLicenses = d.otherLicenses ∧ (leftInJson v d).creationInfo = d.creationInfo := by
  have hp : ∀ {β : Type} (F : FileV → β), (∀ f, F (leftFile v f) = F f) → (allFiles (leftInJson v d)).map F = (allFiles d).map F := by
    intro β F hF
    have e : F ∘ leftFile v = F := funext hF
    simp only [allFiles, leftInJson, List.map_append, List.map_map, e, List.map_flatMap, List.flatMap_map]
  refine ⟨?_, ?_, hp _ fun _ => rfl, hp _ fun _ => rfl, rfl, rfl, rfl, rfl⟩ <;>
    (simp only [leftInJson, List.map_map]; exact List.map_congr_left fun _ _ => rfl)

/-! ## Examples and counterexamples -/

theorem carriedAgent_of {html : Bool} {x : Str} (h : Carried html x)
    (hn : (match Verif.cut g!":" x with | some (_, b) => decide (trimSpace b ≠ []) | none => true) = true) : CarriedAgent html x := by
  refine ⟨h, ?_⟩
  rintro kind name ⟨a, b, rfl, hc, rfl, rfl⟩
  rw [show a ++ g!":" ++ b = a ++ ':' :: b by simp, show g!":" = [':'] from rfl, cut_single hc] at hn
  exact of_decide_eq_true hn

instance (html : Bool) (x : Str) : Decidable (HtmlSafe html x) := by unfold HtmlSafe; infer_instance
instance (html : Bool) (x : Str) : Decidable (Carried html x) := by unfold Carried; infer_instance
instance (html : Bool) (x : Str) : Decidable (CarriedName html x) :=
  decidable_of_iff (Carried html x ∧ contains g!"SPDXRef-SPDXRef-" x = false ∧ contains g!"DocumentRef-DocumentRef-" x = false)
    ⟨fun ⟨a, b, c⟩ => ⟨a, b, c⟩, fun ⟨a, b, c⟩ => ⟨a, b, c⟩⟩

theorem rdfRich_savable (html : Bool) : SavableGraph html rdfRich := by
  have hn : ∀ t ∈ rdfRich.triples, CarriedName true t.subject.id ∧ CarriedName true t.object.id := by decide +kernel
  have weak : ∀ {x}, CarriedName true x → CarriedName html x := fun h => ⟨⟨h.carried.1, fun _ => h.carried.2 rfl⟩, h.element, h.document⟩
  have ho : ∀ t ∈ rdfRich.triples, CarriedName html t.object.id := fun t ht => weak (hn t ht).2
  have hg : ∀ t ∈ rdfRich.triples, (t.pred = .relationship → Given rdfRich t.object .relatedSpdxElement) ∧
      (t.pred = .annotation → Given rdfRich t.object .annotator) := by unfold Given; decide +kernel
  have hx : ∀ t ∈ rdfRich.triples, t.pred ∉ [Pred.externalDocumentRef, .externalDocumentId, .supplier, .originator] := by decide +kernel
  have ha : ∀ t ∈ rdfRich.triples, t.pred ∈ [Pred.annotator, .creator] →
      (match Verif.cut g!":" t.object.id with | some (_, b) => decide (trimSpace b ≠ []) | none => true) = true := by decide +kernel
  have used : ∀ x, UsedAsFile rdfRich x ∨ UsedAsPackage rdfRich x → CarriedName html x := by
    rintro x ((⟨t, ht, _, rfl⟩ | ⟨t, ht, _, rfl, _⟩) | (⟨t, ht, _, rfl⟩ | ⟨t, ht, _, rfl, _⟩)) <;> exact ho t ht
  refine ⟨?_, fun x h => used x (.inl h), fun x h => used x (.inr h), fun t ht hp => ⟨weak (hn t ht).1, (hg t ht).1 hp⟩, fun t ht _ => ho t ht,
    fun t ht hp => absurd hp fun e => hx t ht (by simp [e]), fun t ht hp => absurd hp fun e => hx t ht (by simp [e]), fun t ht hp => (hg t ht).2 hp,
    fun t ht hp => carriedAgent_of (ho t ht).carried (ha t ht (by simp [hp])), fun t ht hp => carriedAgent_of (ho t ht).carried (ha t ht (by simp [hp])),
    fun t ht hp => absurd hp fun e => hx t ht (by simp [e]), fun t ht hp => absurd hp fun e => hx t ht (by simp [e])⟩
  rintro n ⟨_, t, ht, rfl, hp, hc⟩
  refine ⟨weak (hn t ht).1, ?_⟩
  have hd : ∀ t ∈ rdfRich.triples, Cls.ofStr t.object.id = .spdxDocument → t.subject.id = exId g!"DOCUMENT" := by decide +kernel
  rw [hd t ht hc]
  intro a b e hna
  have h1 := cut_single (c := '#') (a := a) (b := b) hna
  rw [← e] at h1
  have h2 : Verif.cut ['#'] (exId g!"DOCUMENT") = some (g!"http://ex.org/d", g!"SPDXRef-DOCUMENT") := by decide +kernel
  rw [h2] at h1
  cases h1
  decide

/-- Non-vacuity: the graph with a package, files, a relationship, an annotation and a snippet meets the conditions. -/
theorem C79_sample : (∃ d, readGraph .same rdfRich = .ok d) ∧ Rdf.StatesVersion rdfRich .v23 ∧ SavableGraph true rdfRich ∧ SavableGraph false rdfRich ∧
    OneRole rdfRich ∧ DistinctNames rdfRich := by
  have : (readGraph .same rdfRich).map shownNames =
      .ok (g!"SPDXRef-DOCUMENT", g!"http://ex.org/d", g!"doc", some [{ creatorType := g!"Tool", creator := g!"x" }]) := by decide +kernel
  obtain ⟨d, h, _⟩ := ROut.map_ok this
  refine ⟨⟨d, h⟩, ⟨by decide +kernel, ?_⟩, rdfRich_savable true, rdfRich_savable false, rdfRich_roles, rdfRich_names⟩
  rintro n ⟨_, t, ht, rfl, hp, hc⟩
  have hd : ∀ t ∈ rdfRich.triples, Cls.ofStr t.object.id = .spdxDocument → Given rdfRich t.subject .specVersion := by unfold Given; decide +kernel
  exact hd t ht hc

/-- C79: "all of the document is saved" is false: the snippets of files, which JSON keeps in a list of the document, are
not written (spdx/v2/v2_3/file.go: `json:"-"`). -/
theorem C79_snippets_false : (readGraph .same rdfRich).map (fun d => (((allFiles d).map fun f => f.snippets.map (·.1)),
      (allFiles (leftInJson .v23 d)).map fun f => f.snippets.map (·.1))) =
    .ok ([[g!"s"], [], [], [], []], [[], [], [], [], []]) := by decide +kernel

/-- C79: "the document keeps its identifier" is false: RDF leaves the prefix in it, JSON does not. -/
theorem C79_identifier_false : (readGraph .same rdfRich).map (fun d => (d.spdxId, (leftInJson .v23 d).spdxId)) =
    .ok (g!"SPDXRef-DOCUMENT", g!"DOCUMENT") := by decide +kernel

/-- C79: "whether the files of a package were analyzed is still known to be unsaid" is false: it becomes a statement that
they were not. -/
theorem C79_analyzed_false : (readGraph .same rdfRich).map (fun d => (d.packages.map (fun p => (p.filesAnalyzed, p.filesAnalyzedTagPresent)),
      (leftInJson .v23 d).packages.map (fun p => (p.filesAnalyzed, p.filesAnalyzedTagPresent)))) =
    .ok ([(false, false), (false, false)], [(false, true), (false, true)]) := by decide +kernel

end Verif
