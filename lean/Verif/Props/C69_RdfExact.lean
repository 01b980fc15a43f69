import Verif.Spec.RdfExact
import Verif.Props.C54_RdfLegal

/-!
# C69: a document read from RDF has what it leads to, and nothing else

`Leads` and `Annotatable` are in `Spec/RdfLegal`, `HasExactly` in `Spec/RdfExact`.
-/

namespace Verif
open Spec Spec.Rdf

/-- Nodes of files and packages that have the same name have the same statements. -/
theorem of_same {g : Graph} (h : NamedNodes g) {m n : RNode} (hm : IsReferred g m) (hn : IsReferred g n) (e : m.id = n.id) : g.of m = g.of n := by
  by_cases h1 : g.of m = []
  · by_cases h2 : g.of n = []
    · rw [h1, h2]
    · obtain ⟨t, ht⟩ := List.exists_mem_of_ne_nil _ h2
      obtain ⟨q1, q2⟩ := mem_of ht
      have := h t q1 m hm (by rw [q2, e])
      rw [← q2, this]
  · obtain ⟨t, ht⟩ := List.exists_mem_of_ne_nil _ h1
    obtain ⟨q1, q2⟩ := mem_of ht
    have := h t q1 n hn (by rw [q2, e])
    rw [← q2, this]

theorem flatMap_of_same {g : Graph} {ts : List Triple} : ∀ {ns : List RNode}, (∀ m ∈ ns, g.of m = ts) →
    ns.flatMap g.of = (List.replicate ns.length ts).flatten
  | [], _ => rfl
  | m :: ns, h => by
    rw [List.flatMap_cons, h m (by simp), flatMap_of_same (ns := ns) fun k hk => h k (by simp [hk]), List.length_cons, List.replicate_succ,
      List.flatten_cons]

/-- The readings of an element with one of its nodes. -/
theorem readings {g : Graph} (hnn : NamedNodes g) {n : RNode} (hn : IsReferred g n) {ns : List RNode} (hne : ns ≠ [])
    (hns : ∀ m ∈ ns, m.id = n.id ∧ IsReferred g m) : ∃ k, 1 ≤ k ∧ ns.flatMap g.of = (List.replicate k (g.of n)).flatten :=
  ⟨ns.length, List.length_pos_iff.2 hne, flatMap_of_same fun m hm => of_same hnn (hns m hm).2 hn (hns m hm).1⟩

theorem Final.file_node {v : Version} {g : Graph} {s : RState} (h : Final v g s) (hnn : NamedNodes g) (o : MapOrder) {x : Str} {j : Nat}
    (hx : s.view.cached x (.file j)) : (∃ n, n.id = x ∧ Leads g (.file n)) ∧
      ∀ n, n.id = x → IsReferred g n → s.fileOf j ∈ allFiles (s.docOf o) ∧ FileOf v g n (s.fileOf j) := by
  obtain ⟨ns, h1, h2, f, h3, h4, _⟩ := h.sound.content.files x j (h.black hx)
  have e : s.fileOf j = f := by simp [RState.fileOf, h3]
  obtain ⟨m, hm⟩ := List.exists_mem_of_ne_nil _ h1
  refine ⟨⟨m, h2 m hm⟩, ?_⟩
  rintro n rfl hn
  obtain ⟨k, hk, hk'⟩ := readings hnn hn h1 fun m hm => ⟨(h2 m hm).1, leads_referred (.inl (h2 m hm).2)⟩
  refine ⟨(h.file_in o hx).1, (h.file_in o hx).2, k, hk, ?_⟩
  rw [← hk', e]
  exact h4

theorem Final.package_node {v : Version} {g : Graph} {s : RState} (h : Final v g s) (hnn : NamedNodes g) (o : MapOrder) {x : Str} {i : Nat}
    (hx : s.view.cached x (.pkg i)) : (∃ n, n.id = x ∧ Leads g (.package n)) ∧
      ∀ n, n.id = x → IsReferred g n → s.packageOf i ∈ (s.docOf o).packages ∧ PackageOf v g n (s.packageOf i) := by
  obtain ⟨ns, h1, h2, q, h3, h4, _⟩ := h.sound.content.packages x i (h.black hx)
  have e : s.packageOf i = { q with files := q.files.map s.fileOf } := by simp [RState.packageOf, h3]
  obtain ⟨m, hm⟩ := List.exists_mem_of_ne_nil _ h1
  refine ⟨⟨m, h2 m hm⟩, ?_⟩
  rintro n rfl hn
  obtain ⟨k, hk, hk'⟩ := readings hnn hn h1 fun m hm => ⟨(h2 m hm).1, leads_referred (.inr (h2 m hm).2)⟩
  refine ⟨(h.package_in o hx).1, (h.package_in o hx).2, k, hk, ?_⟩
  rw [← hk', e]
  exact { h4 with files := pointwise_map_right h4.files fun n j hj => (h.file_in o hj).2 }

/-- C69: the document has the files, packages, relationships and annotations that it and its snippets lead to, each as
the graph describes it, and no others. -/
theorem C69_exact (v : Version) (o : MapOrder) (g : Graph) (d : Doc) (h : loadGraph v o g = .ok d) (h1 : OneRole g) (h2 : DistinctNames g)
    (h3 : NamedNodes g) (h4 : OneOwner g) : HasExactly v g d := by
  have hd := h
  obtain ⟨m, s, hm, hdr, hg, hs, rfl⟩ := load_content ⟨h1, h2⟩ h
  have hfin : Final v g s := ⟨⟨h1, h2⟩, hdr.sound, hg⟩
  have hone : ∀ n, IsDocumentNode g n → n = m := fun n hn => one_document h hn hm
  have hread : ∀ {p}, Leads g p → ReadIn g s p := leads_read hfin h3 h4 hone hdr hs
  have hfile : ∀ n, Leads g (.file n) → ∃ f ∈ allFiles (s.docOf o), FileOf v g n f := by
    intro n hn
    obtain ⟨hr, j, hj⟩ := hread hn
    obtain ⟨q1, q2⟩ := (hfin.file_node h3 o hj).2 n rfl hr
    exact ⟨_, q1, q2⟩
  have hpkg : ∀ n, Leads g (.package n) → ∃ p ∈ (s.docOf o).packages, PackageOf v g n p := by
    intro n hn
    obtain ⟨hr, i, hi⟩ := hread hn
    obtain ⟨q1, q2⟩ := (hfin.package_node h3 o hi).2 n rfl hr
    exact ⟨_, q1, q2⟩
  have hin : ∀ n, Annotatable g n → InDocument g (s.docOf o) n := by
    intro n hn
    cases hn with
    | document hn => exact .inl hn
    | file hn =>
      obtain ⟨f, q1, q2, _⟩ := hfile n hn
      exact .inr (.inl ⟨leads_used hn, f, q1, q2⟩)
    | package hn =>
      obtain ⟨f, q1, q2, _⟩ := hpkg n hn
      exact .inr (.inr ⟨leads_used hn, f, q1, q2⟩)
  refine ⟨?_, hfile, ?_, hpkg, ?_, ?_, ?_, ?_⟩
  · intro f hf
    obtain ⟨x, j, rfl, hx⟩ := hfin.file_of hf
    obtain ⟨⟨n, hn, hl⟩, q⟩ := hfin.file_node h3 o hx
    exact ⟨n, hl, (q n hn (leads_referred (.inl hl))).2⟩
  · intro p hp
    obtain ⟨i, hi, rfl⟩ := List.mem_map.1 hp
    obtain ⟨x, hx⟩ := hfin.sound.inv.pkgsCanon hfin.tidy i hi
    obtain ⟨⟨n, hn, hl⟩, q⟩ := hfin.package_node h3 o hx
    exact ⟨n, hl, (q n hn (leads_referred (.inr hl))).2⟩
  · intro r hr
    obtain ⟨u, q1, q2, _⟩ := hfin.sound.content.relationships r hr
    exact ⟨u, q1, q2⟩
  · intro t ht
    have hsub : Annotatable g t.subject := by
      cases ht with
      | ofDocument hn htm _ => exact .document ((mem_of htm).2 ▸ hn)
      | ofPackage hn htm _ => exact .package ((mem_of htm).2 ▸ hn)
      | ofFile hn htm _ => exact .file ((mem_of htm).2 ▸ hn)
    obtain ⟨q1, q2⟩ := leads_relationship ht
    obtain ⟨r, hr, q⟩ := C52_all_relationships v o g _ hd h1 h2 h3 h4 t q1 q2 (hin _ hsub)
    exact ⟨r, hr, q.2.2⟩
  · intro a ha
    exact hfin.sound.content.annotations a ha
  · intro n hn t ht hp
    obtain ⟨q1, q2⟩ := mem_of ht
    obtain ⟨a, ha, q⟩ := C52_all_annotations v o g _ hd h1 h2 h3 t q1 hp (q2 ▸ hin n hn)
    exact ⟨a, ha, q.2.2⟩

/-- C69: a file of the graph that the document and its snippets do not lead to is not in the document. -/
theorem C69_nothing_else (v : Version) (o : MapOrder) (g : Graph) (d : Doc) (h : loadGraph v o g = .ok d) (h1 : OneRole g) (h2 : DistinctNames g)
    (h3 : NamedNodes g) (h4 : OneOwner g) (n : RNode) (hu : UsedAsFile g n.id) (hn : ∀ m, m.id = n.id → ¬ Leads g (.file m)) :
    ∀ f ∈ allFiles d, ¬ FileIdOf n.id f.spdxId := by
  intro f hf hid
  obtain ⟨m, hm, hm', _⟩ := (C69_exact v o g d h h1 h2 h3 h4).files f hf
  exact hn m (h2.file _ _ _ (leads_used hm) hu hm' hid) hm

/-- C69: nor is such a package. -/
theorem C69_no_other_package (v : Version) (o : MapOrder) (g : Graph) (d : Doc) (h : loadGraph v o g = .ok d) (h1 : OneRole g)
    (h2 : DistinctNames g) (h3 : NamedNodes g) (h4 : OneOwner g) (n : RNode) (hu : UsedAsPackage g n.id)
    (hn : ∀ m, m.id = n.id → ¬ Leads g (.package m)) : ∀ p ∈ d.packages, ¬ PackageIdOf n.id p.spdxId := by
  intro f hf hid
  obtain ⟨m, hm, hm', _⟩ := (C69_exact v o g d h h1 h2 h3 h4).packages f hf
  exact hn m (h2.package _ _ _ (leads_used hm) hu hm' hid) hm

/-! ## Examples and counterexamples -/

/-- Non-vacuity: the graph meets the conditions and is read, and the document leads to a package, files, a relationship and
a node with an annotation. -/
theorem C69_sample : ∃ d, loadGraph .v23 .same rdfRich = .ok d ∧ HasExactly .v23 rdfRich d ∧
    Leads rdfRich (.package (iriNode (exId g!"p"))) ∧ Leads rdfRich (.file (iriNode (exId g!"f"))) ∧
    Leads rdfRich (.relationship (linkTo (exId g!"DOCUMENT") (spdxTerm g!"relationship") g!"r")) ∧
    ∃ t ∈ rdfRich.of (iriNode (exId g!"p")), t.pred = .annotation := by
  have : (loadGraph .v23 .same rdfRich).map shownNames =
      .ok (g!"SPDXRef-DOCUMENT", g!"http://ex.org/d", g!"doc", some [{ creatorType := g!"Tool", creator := g!"x" }]) := by decide +kernel
  obtain ⟨d, h, _⟩ := ROut.map_ok this
  have hd : IsDocumentNode rdfRich (iriNode (exId g!"DOCUMENT")) := by unfold IsDocumentNode; decide +kernel
  have hp : Leads rdfRich (.package (iriNode (exId g!"p"))) :=
    .described (t := linkTo (exId g!"DOCUMENT") (spdxTerm g!"describesPackage") (exId g!"p")) hd (by decide +kernel) (by decide +kernel)
  exact ⟨d, h, C69_exact _ _ _ _ h rdfRich_roles rdfRich_names rdfRich_nodes rdfRich_owner, hp,
    .contained (t := linkTo (exId g!"p") (spdxTerm g!"hasFile") (exId g!"f")) hp (by decide +kernel) (by decide +kernel),
    .ofDocument hd (by decide +kernel) (by decide +kernel), by decide +kernel⟩

/-- A document and, next to it, a package with a file. -/
def rdfApart : Graph := exampleGraph
  [classTo (exId g!"DOCUMENT") g!"SpdxDocument",
   valueTo (exId g!"DOCUMENT") (spdxTerm g!"specVersion") g!"SPDX-2.3",
   classTo (exId g!"p") g!"Package",
   valueTo (exId g!"p") (spdxTerm g!"name") g!"pkg",
   linkTo (exId g!"p") (spdxTerm g!"hasFile") (exId g!"f"),
   classTo (exId g!"f") g!"File"]
  [exId g!"DOCUMENT", exId g!"p"]

/-- C69: "the packages and files of the graph are in the document" is false: those that nothing in the document refers to
are dropped without an error. -/
theorem C69_all_elements_false : (loadGraph .v23 .same rdfApart).map (fun d => (d.packages.length, d.files.length)) = .ok (0, 0) ∧
    UsedAsFile rdfApart (exId g!"f") ∧ ∃ t ∈ rdfApart.triples, t.subject = iriNode (exId g!"p") ∧ t.pred = .type_ ∧ Cls.ofStr t.object.id = .package := by
  refine ⟨by decide +kernel, .inl ?_, by decide +kernel⟩
  unfold UsedBy
  decide +kernel

end Verif
