import Verif.Props.C24_C26_SpdxLib
import Verif.Props.C42_C43_Rdf
import Verif.Props.C93_RdfValid

/-!
# C94: the described packages of documents that are read from RDF
-/

namespace Verif
open Spec Spec.Rdf

/-- No type that is read from RDF is one the library looks for. -/
theorem rdf_type {g : Graph} {n : RNode} {ts : List Triple} {r : Relationship} (h : RelationshipSays g n ts r) :
    r.relationship ≠ g!"DESCRIBES" ∧ r.relationship ≠ g!"DESCRIBED_BY" := by
  have key : ∀ x ∈ allRelationshipTypes, x ≠ g!"DESCRIBES" ∧ x ≠ g!"DESCRIBED_BY" := by decide +kernel
  obtain ⟨xs, hp, e⟩ := h.type
  rcases xs.eq_nil_or_concat with rfl | ⟨ys, x, rfl⟩
  · rw [e]; decide
  · rw [e, List.concat_eq_append, List.getLastD_concat]
    obtain ⟨m, _, hm⟩ := Spec.Pointwise.source hp (b := x) (by simp)
    exact key x hm.1

/-- **C94.** Of a document that is read from RDF, no relationship says which packages it describes. -/
theorem C94_nothing_said (v : Version) (o : MapOrder) (g : Graph) (d : Doc) (h : loadGraph v o g = .ok d) (h1 : OneRole g)
    (h2 : DistinctNames g) : ∀ r ∈ d.relationships, ∀ id, ¬ Spec.Says r id := by
  intro r hr id hs
  obtain ⟨u, ⟨-, -, q⟩, -⟩ := C52_relationships v o g d h h1 h2 r hr
  obtain ⟨k1, k2⟩ := rdf_type q
  rcases hs with hs | hs
  · exact k1 hs.1
  · exact k2 hs.1

/-- **C94.** So the described packages are found exactly if the document has one entry for a package, and it is that package;
otherwise an error is reported, whatever the relationships are. -/
theorem C94_described (so : Sorter) (v : Version) (o : MapOrder) (g : Graph) (d : Doc) (h : loadGraph v o g = .ok d) (h1 : OneRole g)
    (h2 : DistinctNames g) :
    (∀ ids, getDescribedPackageIDs so (d.packages.map some) (d.relationships.map some) = .ok ids ↔ ∃ p, d.packages = [p] ∧ ids = [p.spdxId]) ∧
    (getDescribedPackageIDs so (d.packages.map some) (d.relationships.map some) = .err ↔ d.packages.length ≠ 1) := by
  have hn := C94_nothing_said v o g d h h1 h2
  match hd : d.packages with
  | [] =>
    refine ⟨fun ids => ⟨fun q => ?_, ?_⟩, ⟨fun _ => by simp, fun _ => rfl⟩⟩
    · exact nomatch (show (Res.err : Res (List Str)) = .ok ids from q)
    · rintro ⟨p, e, _⟩; exact nomatch e
  | [p] =>
    have e := (C25_single so p (d.relationships.map some)).1
    refine ⟨fun ids => ⟨fun q => ⟨p, rfl, ?_⟩, ?_⟩, ⟨fun q => ?_, fun q => absurd rfl q⟩⟩
    · have q := e.symm.trans q
      injection q with q; exact q.symm
    · rintro ⟨_, e', rfl⟩; injection e' with e' _; subst e'; exact e
    · exact nomatch e.symm.trans q
  | p :: q :: ps =>
    have e := ((C25_described so (some p) (some q) (ps.map some) d.relationships).2.1).2 fun ⟨r, hr, id, hs⟩ => hn r hr id hs
    refine ⟨fun ids => ⟨fun k => ?_, ?_⟩, ⟨fun _ => by simp, fun _ => e⟩⟩
    · exact nomatch e.symm.trans k
    · rintro ⟨_, e', _⟩; exact nomatch e'

/-- **C94.** A document that states which package it describes has two entries for it: the packages it describes are never
found. -/
theorem C94_never_found (so : Sorter) (v : Version) (o : MapOrder) (g : Graph) (d : Doc) (h : loadGraph v o g = .ok d) (h1 : OneRole g)
    (h2 : DistinctNames g) (n : RNode) (hn : IsDocumentNode g n) (t : Triple) (ht : t ∈ g.of n) (hp : t.pred = .describesPackage) :
    getDescribedPackageIDs so (d.packages.map some) (d.relationships.map some) = .err := by
  refine (C94_described so v o g d h h1 h2).2.2 ?_
  obtain ⟨m, hm, hk⟩ := C43_described_twice v o g d h
  obtain ⟨q1, q2⟩ := mem_of ht
  obtain ⟨id, -, hc⟩ := hk t q1 (q2.trans (one_document h hn hm)) hp
  have := List.count_le_length (a := id) (l := d.packages.map (·.spdxId))
  rw [List.length_map] at this
  omega

/-! ## Examples and counterexamples -/

/-- The packages that the document of the graph has, and those it describes. -/
def describedRead (g : Graph) : ROut (List Str × Res (List Str)) :=
  (loadGraph .v23 .same g).map fun d =>
    (d.packages.map (·.spdxId), getDescribedPackageIDs insertionSorter (d.packages.map some) (d.relationships.map some))

/-- A document with a relationship to a package. -/
def rdfRelated : Graph := exampleGraph
  [classTo (exId g!"DOCUMENT") g!"SpdxDocument",
   valueTo (exId g!"DOCUMENT") (spdxTerm g!"specVersion") g!"SPDX-2.3",
   linkTo (exId g!"DOCUMENT") (spdxTerm g!"relationship") g!"r",
   linkTo g!"r" (spdxTerm g!"relationshipType") (spdxTerm g!"relationshipType_describes"),
   linkTo g!"r" (spdxTerm g!"relatedSpdxElement") (exId g!"p"),
   classTo (exId g!"p") g!"Package",
   valueTo (exId g!"p") (spdxTerm g!"name") g!"pkg"]
  [exId g!"DOCUMENT"]

/-- Non-vacuity: a package that the document is only related to has one entry, and is found. -/
theorem C94_sample : describedRead rdfRelated = .ok ([g!"p"], .ok [g!"p"]) ∧ OneRole rdfRelated ∧ DistinctNames rdfRelated :=
  ⟨by decide +kernel, oneRole_of (by decide +kernel) (by decide +kernel), distinctNames_of (by decide +kernel) (by decide +kernel)⟩

/-- Non-vacuity: the document of `rdfRich` states that it describes a package. -/
theorem C94_described_sample : OneRole rdfRich ∧ DistinctNames rdfRich ∧ IsDocumentNode rdfRich (iriNode (exId g!"DOCUMENT")) ∧
    linkTo (exId g!"DOCUMENT") (spdxTerm g!"describesPackage") (exId g!"p") ∈ rdfRich.of (iriNode (exId g!"DOCUMENT")) :=
  ⟨rdfRich_roles, rdfRich_names, by unfold IsDocumentNode; decide +kernel, by decide +kernel⟩

/-- C94: "the packages that a document read from RDF says it describes are found" is false: it says so of its only package,
in both ways that RDF has, and an error is reported.  The package is listed twice (parse_spdx_document.go:62-69 and
parse_package.go:172-176), and the type of the relationship is `describes` (parse_relationship.go:141-156), where the
library looks for `DESCRIBES` (described_elements.go:41-45). -/
theorem C94_found_false : describedRead rdfRich = .ok ([g!"p", g!"p"], .err) := by decide +kernel

end Verif
