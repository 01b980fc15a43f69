import Verif.Spec.RdfValid
import Verif.Lemmas.RdfOrderDoc
import Verif.Props.C24_C26_SpdxLib
import Verif.Props.C42_C43_Rdf
import Verif.Props.C69_RdfExact

/-!
# C93: which RDF graphs are read as valid documents

`NamedInGraph` and `EndsNamed` are in `Spec/RdfValid`.
-/

namespace Verif
open Spec Spec.Rdf

theorem vals_mem {ts : List Triple} {p : Pred} {m : RNode} : m ∈ vals ts p ↔ ∃ t ∈ ts, t.pred = p ∧ t.object = m := by
  simp only [vals, List.mem_map, List.mem_filter, decide_eq_true_eq, and_assoc]

theorem vals_repeated {ts : List Triple} {p : Pred} {m : RNode} {k : Nat} (hk : 1 ≤ k) :
    m ∈ vals (List.replicate k ts).flatten p ↔ ∃ t ∈ ts, t.pred = p ∧ t.object = m := by
  rw [vals_mem]
  constructor
  · rintro ⟨t, ht, h⟩
    obtain ⟨us, hu, htu⟩ := List.mem_flatten.1 ht
    exact ⟨t, (List.mem_replicate.1 hu).2 ▸ htu, h⟩
  · rintro ⟨t, ht, h⟩
    exact ⟨t, List.mem_flatten.2 ⟨ts, List.mem_replicate.2 ⟨by omega, rfl⟩, ht⟩, h⟩

/-- The files of the packages of a document are those that its packages contain in the graph. -/
theorem inside_iff {v : Version} {g : Graph} {d : Doc} (h : HasExactly v g d) (id : Str) :
    InsidePackage g id ↔ ∃ p ∈ d.packages, ∃ f ∈ p.files, f.spdxId = id := by
  constructor
  · rintro ⟨n, t, hn, ht, hp, hid⟩
    obtain ⟨p, hpd, _, k, hk, hsays⟩ := h.everyPackage n hn
    obtain ⟨f, hf, hfid⟩ := Spec.Pointwise.image hsays.files ((vals_repeated hk).2 ⟨t, ht, hp, rfl⟩)
    exact ⟨p, hpd, f, hf, fileId_one hfid hid⟩
  · rintro ⟨p, hpd, f, hf, rfl⟩
    obtain ⟨n, hn, _, k, hk, hsays⟩ := h.packages p hpd
    obtain ⟨m, hm, hfid⟩ := Spec.Pointwise.source hsays.files hf
    obtain ⟨t, ht, hp, rfl⟩ := (vals_repeated hk).1 hm
    exact ⟨n, t, hn, ht, hp, hfid⟩

/-- The names of a document that is read are those of the graph. -/
theorem namedInGraph_iff {v : Version} {o : MapOrder} {g : Graph} {d : Doc} (hl : loadGraph v o g = .ok d) (h : HasExactly v g d) (id : Str) :
    Known d.packages d.files id ↔ NamedInGraph g id := by
  refine or_congr Iff.rfl (or_congr ⟨?_, ?_⟩ ⟨?_, ?_⟩)
  · rintro ⟨p, hp, rfl⟩
    obtain ⟨n, hn, hid, _⟩ := h.packages p hp
    exact ⟨n, hn, hid⟩
  · rintro ⟨n, hn, hid⟩
    obtain ⟨p, hp, hid', _⟩ := h.everyPackage n hn
    exact ⟨p, hp, packageId_one hid' hid⟩
  · rintro ⟨f, hf, rfl⟩
    obtain ⟨n, hn, hid, _⟩ := h.files f (List.mem_append.2 (.inl hf))
    refine ⟨⟨n, hn, hid⟩, fun hin => ?_⟩
    obtain ⟨p, hp, f', hf', e⟩ := (inside_iff h _).1 hin
    exact (C43_files v o g d hl).2 f hf p hp f' hf' e.symm
  · rintro ⟨⟨n, hn, hid⟩, hout⟩
    obtain ⟨f, hf, hid', _⟩ := h.everyFile n hn
    have e := fileId_one hid' hid
    rcases List.mem_append.1 hf with hf | hf
    · exact ⟨f, hf, e⟩
    · obtain ⟨p, hp, hf⟩ := List.mem_flatMap.1 hf
      exact absurd ((inside_iff h _).2 ⟨p, hp, f, hf, e⟩) hout

theorem related_one {g : Graph} {n : RNode} {a b : DocElementID} (h : RelatedSays g n a) (h' : RelatedSays g n b) : a = b :=
  related_same ⟨fun _ => .rfl, fun _ => .rfl, rfl⟩ h h'

/-- **C93.** The document that is read from a graph is valid exactly if both ends of every relationship it leads to are the
document, one of its packages, or one of its files that is in no package. -/
theorem C93_valid (v : Version) (o : MapOrder) (g : Graph) (d : Doc) (h : loadGraph v o g = .ok d) (h1 : OneRole g) (h2 : DistinctNames g)
    (h3 : NamedNodes g) (h4 : OneOwner g) :
    validateDocument (d.packages.map some) (d.files.map some) (d.relationships.map some) = .ok () ↔
      ∀ t, Leads g (.relationship t) → EndsNamed g t := by
  have hx := C69_exact v o g d h h1 h2 h3 h4
  rw [(C24_valid_iff d.packages d.files d.relationships).1]
  simp only [namedInGraph_iff h hx]
  constructor
  · intro hk t ht
    obtain ⟨r, hr, q⟩ := hx.everyRelationship t ht
    obtain ⟨ka, kb⟩ := hk r hr
    refine ⟨fun x hxx => ?_, fun x hxx => ?_⟩
    · rw [unique_of reference_iff _ _ _ hxx q.refA]; exact ka
    · rw [Spec.Rdf.LastOf.unique (R := RelatedSays g) (fun _ _ _ => related_one) hxx q.refB]; exact kb
  · intro hk r hr
    obtain ⟨t, ht, q⟩ := hx.relationships r hr
    exact ⟨(hk t ht).1 _ q.refA, (hk t ht).2 _ q.refB⟩

/-- **C93.** Otherwise validation reports an error; it never panics. -/
theorem C93_invalid (v : Version) (o : MapOrder) (g : Graph) (d : Doc) (h : loadGraph v o g = .ok d) (h1 : OneRole g) (h2 : DistinctNames g)
    (h3 : NamedNodes g) (h4 : OneOwner g) :
    validateDocument (d.packages.map some) (d.files.map some) (d.relationships.map some) = .err ↔
      ∃ t, Leads g (.relationship t) ∧ ¬ EndsNamed g t := by
  have hv := C93_valid v o g d h h1 h2 h3 h4
  obtain ⟨q1, q2⟩ := C24_valid_iff d.packages d.files d.relationships
  constructor
  · intro he
    refine Classical.byContradiction fun hc => ?_
    have := hv.2 fun t ht => Classical.byContradiction fun hn => hc ⟨t, ht, hn⟩
    rw [he] at this
    exact nomatch this
  · rintro ⟨t, ht, hn⟩
    refine q2.2 (Classical.byContradiction fun hc => hn (hv.1 (q1.2 fun r hr => Classical.byContradiction fun hr' => hc ⟨r, hr, hr'⟩) t ht))

/-- **C93.** So a document with a relationship to a file that is in a package is not valid, unless a package has the same
name. -/
theorem C93_packaged_file (v : Version) (o : MapOrder) (g : Graph) (d : Doc) (h : loadGraph v o g = .ok d) (h1 : OneRole g)
    (h2 : DistinctNames g) (h3 : NamedNodes g) (h4 : OneOwner g) (t : Triple) (ht : Leads g (.relationship t)) (x : DocElementID)
    (hx : ReferenceSays t.subject x ∨ LastOf (RelatedSays g) {} (vals (g.of t.object) .relatedSpdxElement) x)
    (hin : InsidePackage g x.elementRefID) (hd : x.elementRefID ≠ g!"DOCUMENT")
    (hp : ∀ n, Leads g (.package n) → ¬ PackageIdOf n.id x.elementRefID) :
    validateDocument (d.packages.map some) (d.files.map some) (d.relationships.map some) = .err := by
  refine (C93_invalid v o g d h h1 h2 h3 h4).2 ⟨t, ht, fun hn => ?_⟩
  have : NamedInGraph g x.elementRefID := hx.elim (hn.1 x) (hn.2 x)
  rcases this with e | ⟨n, hn, e⟩ | ⟨-, e⟩
  · exact hd e
  · exact hp n hn e
  · exact e hin

/-- **C93.** The answer does not depend on the version the graph is read into, nor on the order in which its files are
collected. -/
theorem C93_same_answer (v v' : Version) (o o' : MapOrder) (g : Graph) (d d' : Doc) (h : loadGraph v o g = .ok d) (h' : loadGraph v' o' g = .ok d')
    (h1 : OneRole g) (h2 : DistinctNames g) (h3 : NamedNodes g) (h4 : OneOwner g) :
    validateDocument (d.packages.map some) (d.files.map some) (d.relationships.map some) =
      validateDocument (d'.packages.map some) (d'.files.map some) (d'.relationships.map some) := by
  by_cases hk : ∀ t, Leads g (.relationship t) → EndsNamed g t
  · rw [(C93_valid v o g d h h1 h2 h3 h4).2 hk, (C93_valid v' o' g d' h' h1 h2 h3 h4).2 hk]
  · have hk : ∃ t, Leads g (.relationship t) ∧ ¬ EndsNamed g t :=
      Classical.byContradiction fun hc => hk fun t ht => Classical.byContradiction fun hn => hc ⟨t, ht, hn⟩
    rw [(C93_invalid v o g d h h1 h2 h3 h4).2 hk, (C93_invalid v' o' g d' h' h1 h2 h3 h4).2 hk]

/-! ## Examples and counterexamples -/

/-- A package with a file; the document has a relationship to the node. -/
def rdfTowards (node : Str) : Graph := exampleGraph
  [classTo (exId g!"DOCUMENT") g!"SpdxDocument",
   valueTo (exId g!"DOCUMENT") (spdxTerm g!"specVersion") g!"SPDX-2.3",
   linkTo (exId g!"DOCUMENT") (spdxTerm g!"describesPackage") (exId g!"p"),
   linkTo (exId g!"DOCUMENT") (spdxTerm g!"relationship") g!"r",
   linkTo g!"r" (spdxTerm g!"relationshipType") (spdxTerm g!"relationshipType_describes"),
   linkTo g!"r" (spdxTerm g!"relatedSpdxElement") node,
   classTo (exId g!"p") g!"Package",
   valueTo (exId g!"p") (spdxTerm g!"name") g!"pkg",
   linkTo (exId g!"p") (spdxTerm g!"hasFile") (exId g!"f"),
   classTo (exId g!"f") g!"File",
   valueTo (exId g!"f") (spdxTerm g!"fileName") g!"./f",
   linkTo (exId g!"f") (spdxTerm g!"fileDependency") (exId g!"h"),
   classTo (exId g!"h") g!"File",
   valueTo (exId g!"h") (spdxTerm g!"fileName") g!"./h"]
  [exId g!"DOCUMENT"]

/-- Whether the document read from the graph is valid. -/
def validRead (g : Graph) : ROut Bool :=
  (loadGraph .v23 .same g).map fun d => validateDocument (d.packages.map some) (d.files.map some) (d.relationships.map some) = .ok ()

/-- Non-vacuity: with a relationship to the package, or to the file that is in no package, the document is valid. -/
theorem C93_sample : validRead (rdfTowards (exId g!"p")) = .ok true ∧ validRead (rdfTowards (exId g!"h")) = .ok true ∧ validRead rdfRich = .ok true := by
  decide +kernel

/-- Non-vacuity: the graph with a relationship to the file in the package meets the conditions of `C93_packaged_file`. -/
theorem C93_packaged_sample : (∃ d, loadGraph .v23 .same (rdfTowards (exId g!"f")) = .ok d) ∧ OneRole (rdfTowards (exId g!"f")) ∧
    DistinctNames (rdfTowards (exId g!"f")) ∧ NamedNodes (rdfTowards (exId g!"f")) ∧ OneOwner (rdfTowards (exId g!"f")) ∧
    Leads (rdfTowards (exId g!"f")) (.relationship (linkTo (exId g!"DOCUMENT") (spdxTerm g!"relationship") g!"r")) ∧
    InsidePackage (rdfTowards (exId g!"f")) g!"f" := by
  have hv : validRead (rdfTowards (exId g!"f")) = .ok false := by decide +kernel
  obtain ⟨d, h, _⟩ := ROut.map_ok hv
  have hd : IsDocumentNode (rdfTowards (exId g!"f")) (iriNode (exId g!"DOCUMENT")) := by unfold IsDocumentNode; decide +kernel
  refine ⟨⟨d, h⟩, oneRole_of (by decide +kernel) (by decide +kernel), distinctNames_of (by decide +kernel) (by decide +kernel), ?_, ?_,
    .ofDocument hd (by decide +kernel) (by decide +kernel), ?_⟩
  · rintro t ht n ⟨u, hu, hp, rfl⟩ e
    have : ∀ t ∈ (rdfTowards (exId g!"f")).triples, ∀ u ∈ (rdfTowards (exId g!"f")).triples,
        u.pred ∈ [.hasFile, .fileDependency, .snippetFromFile, .reference, .describesPackage, .relatedSpdxElement] →
        t.subject.id = u.object.id → t.subject = u.object := by decide +kernel
    exact this t ht u hu hp e
  · intro t ht u hu
    have : ∀ t ∈ (rdfTowards (exId g!"f")).triples, ∀ u ∈ (rdfTowards (exId g!"f")).triples,
        t.pred = .relationship → u.pred = .relationship → t.object.id = u.object.id → t = u := by decide +kernel
    exact this t ht u hu
  · exact ⟨iriNode (exId g!"p"), linkTo (exId g!"p") (spdxTerm g!"hasFile") (exId g!"f"),
      .described (t := linkTo (exId g!"DOCUMENT") (spdxTerm g!"describesPackage") (exId g!"p")) hd (by decide +kernel) (by decide +kernel),
      by decide +kernel, by decide +kernel, by unfold FileIdOf; decide +kernel⟩

/-- C93: "a document read from RDF, all of whose relationships are between elements that are in it, is valid" is false: a
relationship to a file that is in a package is taken for one to a missing element. -/
theorem C93_complete_false : validRead (rdfTowards (exId g!"f")) = .ok false ∧
    (loadGraph .v23 .same (rdfTowards (exId g!"f"))).map (fun d => (d.relationships.map (·.refB.elementRefID), (allFiles d).map (·.spdxId))) =
      .ok ([g!"f"], [g!"h", g!"f", g!"f"]) := by decide +kernel

/-- C93: "a relationship to NONE or NOASSERTION is valid" is false of documents read from RDF: it is read as a
relationship to an element of that name, which is not in the document. -/
theorem C93_none_false : validRead (rdfTowards (spdxTerm g!"none")) = .ok false ∧ validRead (rdfTowards (spdxTerm g!"noassertion")) = .ok false := by
  decide +kernel

end Verif
