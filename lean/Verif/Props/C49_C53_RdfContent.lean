import Verif.Lemmas.RdfRead
import Verif.Props.C42_C43_Rdf
import Verif.Model.SpdxLib

/-!
# What a document read from RDF says: C49 the document, C50 files, C51 packages, C52 relationships and annotations,
C53 snippets

The specification is in `Spec/RdfSays`, `Spec/RdfElements`, `Spec/RdfSnippets` and `Spec/RdfRead`.
-/

namespace Verif
open Spec Spec.Rdf

/-- The end of reading, for all the theorems below. -/
theorem final_of {v : Version} {o : MapOrder} {g : Graph} {d : Doc} (h1 : OneRole g) (h2 : DistinctNames g) (h : loadGraph v o g = .ok d) :
    ∃ s, Final v g s ∧ d = s.docOf o := by
  obtain ⟨n, s, _, hd, hg, _, e⟩ := load_content ⟨h1, h2⟩ h
  exact ⟨s, ⟨⟨h1, h2⟩, hd.sound, hg⟩, e⟩

/-! ## C49 -/

/-- C49: a graph that is read has exactly one node that is said to be the document. -/
theorem C49_one_document (v : Version) (o : MapOrder) (g : Graph) (d : Doc) (h : loadGraph v o g = .ok d) (h1 : OneRole g) (h2 : DistinctNames g) :
    ∃ n, IsDocumentNode g n ∧ ∀ m, IsDocumentNode g m → m = n := by
  obtain ⟨n, s, hn, _⟩ := load_content ⟨h1, h2⟩ h
  exact ⟨n, hn, fun m hm => one_document h hm hn⟩

/-- C49: the document is what the statements about its node say, and nothing that they say is ignored. -/
theorem C49_document (v : Version) (o : MapOrder) (g : Graph) (d : Doc) (h : loadGraph v o g = .ok d) (h1 : OneRole g) (h2 : DistinctNames g)
    (n : RNode) (hn : IsDocumentNode g n) : DocumentSays g n (g.of n) d := by
  obtain ⟨m, s, hm, hd, _, _, rfl⟩ := load_content ⟨h1, h2⟩ h
  rw [one_document h hn hm]
  exact { hd.says with }

/-! ## C50 -/

/-- C50: every file of the document is what the statements about its node say; if it is referred to several times, its
lists may be filled several times. -/
theorem C50_files (v : Version) (o : MapOrder) (g : Graph) (d : Doc) (h : loadGraph v o g = .ok d) (h1 : OneRole g) (h2 : DistinctNames g) :
    ∀ f ∈ allFiles d, ∃ x ts, FileFrom v g f x ts := by
  obtain ⟨s, hf, rfl⟩ := final_of h1 h2 h
  intro f hm
  obtain ⟨x, ts, h, _⟩ := hf.file_says hm
  exact ⟨x, ts, h⟩

/-- C50: files of the document with the same identifier, wherever they are, are the same in all they contain. -/
theorem C50_same_file (v : Version) (o : MapOrder) (g : Graph) (d : Doc) (h : loadGraph v o g = .ok d) (h1 : OneRole g) (h2 : DistinctNames g) :
    ∀ f ∈ allFiles d, ∀ f' ∈ allFiles d, f.spdxId = f'.spdxId → f = f' := by
  obtain ⟨s, hf, rfl⟩ := final_of h1 h2 h
  intro f hm f' hm' e
  obtain ⟨x, j, rfl, hx⟩ := hf.file_of hm
  obtain ⟨y, k, rfl, hy⟩ := hf.file_of hm'
  have := h2.file x y _ (hf.sound.inv.kinds h1 _ _ hx) (hf.sound.inv.kinds h1 _ _ hy) (hf.file_in o hx).2 (by rw [e]; exact (hf.file_in o hy).2)
  subst this
  have := cached_unique hx hy
  injection this with this
  rw [this]

theorem flatMap_same {g : Graph} {n : RNode} : ∀ ns : List RNode, (∀ m ∈ ns, m = n) → ns.flatMap g.of = (List.replicate ns.length (g.of n)).flatten
  | [], _ => rfl
  | m :: ns, h => by
    rw [h m (by simp)]
    simp [List.replicate_succ, flatMap_same ns fun k hk => h k (by simp [hk])]

/-- C50: if moreover nodes are told apart by their names, the statements about one node were read one or more times. -/
theorem C50_one_node (v : Version) (o : MapOrder) (g : Graph) (d : Doc) (h : loadGraph v o g = .ok d) (h1 : OneRole g) (h2 : DistinctNames g)
    (h3 : NamedNodes g) (n : RNode) (hn : IsSubject g n) (hu : UsedAsFile g n.id) :
    ∀ f ∈ allFiles d, FileIdOf n.id f.spdxId → ∃ k, 1 ≤ k ∧ FileSays v g (List.replicate k (g.of n)).flatten f := by
  intro f hf hid
  obtain ⟨x, ts, q1, q2, ⟨ns, q3, q4, rfl⟩, q5⟩ := C50_files v o g d h h1 h2 f hf
  have hx := h2.file x n.id _ q1 hu q2 hid
  subst hx
  obtain ⟨t, ht, rfl⟩ := hn
  rw [flatMap_same (n := t.subject) ns fun m hm => (h3 t ht m (q4 m hm).2 (q4 m hm).1.symm).symm] at q5
  exact ⟨ns.length, List.length_pos_iff.2 q3, q5⟩

/-! ## C51 -/

/-- C51: every package of the document is what the statements about its node say, and its files are those of the
document that the statements name. -/
theorem C51_packages (v : Version) (o : MapOrder) (g : Graph) (d : Doc) (h : loadGraph v o g = .ok d) (h1 : OneRole g) (h2 : DistinctNames g) :
    ∀ p ∈ d.packages, ∃ x ts, PackageFrom v g p x ts := by
  obtain ⟨s, hf, rfl⟩ := final_of h1 h2 h
  intro f hm
  obtain ⟨x, ts, h, _⟩ := hf.package_says hm
  exact ⟨x, ts, h⟩

/-- C51: packages of the document with the same identifier are the same in all they contain. -/
theorem C51_same_package (v : Version) (o : MapOrder) (g : Graph) (d : Doc) (h : loadGraph v o g = .ok d) (h1 : OneRole g) (h2 : DistinctNames g) :
    ∀ p ∈ d.packages, ∀ p' ∈ d.packages, p.spdxId = p'.spdxId → p = p' := by
  obtain ⟨s, hf, rfl⟩ := final_of h1 h2 h
  intro p hm p' hm' e
  obtain ⟨i, hi, rfl⟩ := List.mem_map.1 hm
  obtain ⟨k, hk, rfl⟩ := List.mem_map.1 hm'
  obtain ⟨x, hx⟩ := hf.sound.inv.pkgsCanon hf.tidy i hi
  obtain ⟨y, hy⟩ := hf.sound.inv.pkgsCanon hf.tidy k hk
  have := h2.package x y _ (hf.sound.inv.kinds h1 _ _ hx) (hf.sound.inv.kinds h1 _ _ hy) (hf.package_in o hx).2
    (by rw [e]; exact (hf.package_in o hy).2)
  subst this
  have := cached_unique hx hy
  injection this with this
  rw [this]

/-- C51: if moreover nodes are told apart by their names, the statements about one node were read one or more times. -/
theorem C51_one_node (v : Version) (o : MapOrder) (g : Graph) (d : Doc) (h : loadGraph v o g = .ok d) (h1 : OneRole g) (h2 : DistinctNames g)
    (h3 : NamedNodes g) (n : RNode) (hn : IsSubject g n) (hu : UsedAsPackage g n.id) :
    ∀ p ∈ d.packages, PackageIdOf n.id p.spdxId →
      ∃ k, 1 ≤ k ∧ PackageSays v g (fun m f => FileIdOf m.id f.spdxId) (List.replicate k (g.of n)).flatten p := by
  intro f hf hid
  obtain ⟨x, ts, q1, q2, ⟨ns, q3, q4, rfl⟩, q5⟩ := C51_packages v o g d h h1 h2 f hf
  have hx := h2.package x n.id _ q1 hu q2 hid
  subst hx
  obtain ⟨t, ht, rfl⟩ := hn
  rw [flatMap_same (n := t.subject) ns fun m hm => (h3 t ht m (q4 m hm).2 (q4 m hm).1.symm).symm] at q5
  exact ⟨ns.length, List.length_pos_iff.2 q3, q5⟩

/-! ## C52 -/

/-- C52: every relationship of the document is one that the graph states, and the file or package it is to is in the
document. -/
theorem C52_relationships (v : Version) (o : MapOrder) (g : Graph) (d : Doc) (h : loadGraph v o g = .ok d) (h1 : OneRole g)
    (h2 : DistinctNames g) : ∀ r ∈ d.relationships, ∃ u, RelationshipFrom g r u ∧ Related g d (g.of u.object) := by
  obtain ⟨s, hf, rfl⟩ := final_of h1 h2 h
  intro r hr
  obtain ⟨u, q1, q3, q4⟩ := hf.sound.content.relationships r hr
  exact ⟨u, ⟨(leads_relationship q1).1, (leads_relationship q1).2, q3⟩, hf.related o q4⟩

/-- C52: every annotation of the document is one that the graph states. -/
theorem C52_annotations (v : Version) (o : MapOrder) (g : Graph) (d : Doc) (h : loadGraph v o g = .ok d) (h1 : OneRole g)
    (h2 : DistinctNames g) : ∀ a ∈ d.annotations, ∃ u, AnnotationFrom g a u := by
  obtain ⟨s, hf, rfl⟩ := final_of h1 h2 h
  intro r hr
  obtain ⟨_, _, u, q1, q2, q3⟩ := hf.sound.content.annotations r hr
  exact ⟨u, (mem_of q1).1, q2, q3⟩

/-- The statements of an element of the document, as they were read. -/
theorem told_of {v : Version} {o : MapOrder} {g : Graph} {d : Doc} (h : loadGraph v o g = .ok d) (h1 : OneRole g) (h2 : DistinctNames g)
    (h3 : NamedNodes g) {t : Triple} (ht : t ∈ g.triples) (hi : InDocument g d t.subject) : ∃ ts, t ∈ ts ∧ Told g d ts := by
  obtain ⟨m, s, hm, hd, hg, _, rfl⟩ := load_content ⟨h1, h2⟩ h
  have hfin : Final v g s := ⟨⟨h1, h2⟩, hd.sound, hg⟩
  have mem : ∀ ns : List RNode, ns ≠ [] → (∀ n ∈ ns, n.id = t.subject.id ∧ IsReferred g n) → t ∈ ns.flatMap g.of := by
    intro ns hne hns
    obtain ⟨n, hn⟩ := List.exists_mem_of_ne_nil ns hne
    refine List.mem_flatMap.2 ⟨n, hn, ?_⟩
    simp only [Graph.of, List.mem_filter, decide_eq_true_eq]
    exact ⟨ht, h3 t ht n (hns n hn).2 (hns n hn).1.symm⟩
  rcases hi with hi | ⟨hu, f, hf, hid⟩ | ⟨hu, p, hp, hid⟩
  · refine ⟨g.of m, ?_, hfin.told o hd.told⟩
    simp only [Graph.of, List.mem_filter, decide_eq_true_eq]
    exact ⟨ht, one_document h hi hm⟩
  · obtain ⟨x, ts, ⟨q1, q2, ⟨ns, q3, q4, rfl⟩, _⟩, q5⟩ := hfin.file_says hf
    have hx := h2.file x t.subject.id _ q1 hu q2 hid
    subst hx
    exact ⟨_, mem ns q3 q4, q5⟩
  · obtain ⟨x, ts, ⟨q1, q2, ⟨ns, q3, q4, rfl⟩, _⟩, q5⟩ := hfin.package_says hp
    have hx := h2.package x t.subject.id _ q1 hu q2 hid
    subst hx
    exact ⟨_, mem ns q3 q4, q5⟩

/-- C52: every relationship that the graph states of the document or of a file or package in it is in the document. -/
theorem C52_all_relationships (v : Version) (o : MapOrder) (g : Graph) (d : Doc) (h : loadGraph v o g = .ok d) (h1 : OneRole g)
    (h2 : DistinctNames g) (h3 : NamedNodes g) (h4 : OneOwner g) :
    ∀ t ∈ g.triples, t.pred = .relationship → InDocument g d t.subject → ∃ r ∈ d.relationships, RelationshipFrom g r t := by
  intro t ht hp hi
  obtain ⟨ts, hm, told⟩ := told_of h h1 h2 h3 ht hi
  obtain ⟨r, hr, u, q1, q2⟩ := told.relationships t hm hp
  rw [h4 u q2.1 t ht q2.2.1 hp q1] at q2
  exact ⟨r, hr, q2⟩

/-- C52: so is every annotation. -/
theorem C52_all_annotations (v : Version) (o : MapOrder) (g : Graph) (d : Doc) (h : loadGraph v o g = .ok d) (h1 : OneRole g)
    (h2 : DistinctNames g) (h3 : NamedNodes g) :
    ∀ t ∈ g.triples, t.pred = .annotation → InDocument g d t.subject → ∃ a ∈ d.annotations, AnnotationFrom g a t := by
  intro t ht hp hi
  obtain ⟨ts, hm, told⟩ := told_of h h1 h2 h3 ht hi
  obtain ⟨a, ha, q⟩ := told.annotations t hm hp
  exact ⟨a, ha, ht, hp, q⟩

/-- C52: so is every file that a file depends on. -/
theorem C52_dependencies (v : Version) (o : MapOrder) (g : Graph) (d : Doc) (h : loadGraph v o g = .ok d) (h1 : OneRole g)
    (h2 : DistinctNames g) (h3 : NamedNodes g) :
    ∀ t ∈ g.triples, t.pred = .fileDependency → InDocument g d t.subject → ∃ f ∈ allFiles d, FileIdOf t.object.id f.spdxId := by
  intro t ht hp hi
  obtain ⟨ts, hm, told⟩ := told_of h h1 h2 h3 ht hi
  exact told.dependencies t hm hp

/-! ## C53 -/

/-- C53: every snippet of a file of the document is what the statements about a snippet node say, is filed under its
identifier, and is from the file. -/
theorem C53_snippets (v : Version) (o : MapOrder) (g : Graph) (d : Doc) (h : loadGraph v o g = .ok d) (h1 : OneRole g) (h2 : DistinctNames g) :
    ∀ f ∈ allFiles d, ∀ e ∈ f.snippets, ∃ n, IsSnippetNode g n ∧ PackageIdOf n.id e.1 ∧ e.2.spdxId = e.1 ∧ SnippetSays v g (g.of n) e.2 ∧
      e.2.fromFile = f.spdxId := by
  obtain ⟨n, s, _, hd, hg, hs, rfl⟩ := load_content ⟨h1, h2⟩ h
  have hfin : Final v g s := ⟨⟨h1, h2⟩, hd.sound, hg⟩
  intro f hf e he
  obtain ⟨x, j, rfl, hx⟩ := hfin.file_of hf
  obtain ⟨id, _, hj⟩ := hd.sound.inv.fileIds ⟨h1, h2⟩ x j hx
  exact hs.sound j _ (fileOf_get hj).1 e he

/-- C53: if snippets have different identifiers, every snippet of the graph is in the file it is from. -/
theorem C53_all_snippets (v : Version) (o : MapOrder) (g : Graph) (d : Doc) (h : loadGraph v o g = .ok d) (h1 : OneRole g)
    (h2 : DistinctNames g) (h3 : DistinctSnippets g) (n : RNode) (hn : IsSnippetNode g n) :
    ∃ f ∈ allFiles d, ∃ x, (x.spdxId, x) ∈ f.snippets ∧ PackageIdOf n.id x.spdxId ∧ x.fromFile = f.spdxId ∧ SnippetSays v g (g.of n) x := by
  obtain ⟨_, s, _, hd, hg, hs, rfl⟩ := load_content ⟨h1, h2⟩ h
  have hfin : Final v g s := ⟨⟨h1, h2⟩, hd.sound, hg⟩
  obtain ⟨j, f, y, x, q1, q2, q3, q4, q5, q6⟩ := hs.complete n hn
  obtain ⟨e, he, hk⟩ := List.mem_map.1 q6
  obtain ⟨m, r1, r2, r3, r4, r5⟩ := hs.sound j f q1 e he
  have hnm := h3 n m _ hn r1 q4 (by rw [← hk]; exact r2)
  subst hnm
  have hin := (hfin.file_in o q2).1
  have ef : s.fileOf j = f := by simp [RState.fileOf, q1]
  rw [ef] at hin
  refine ⟨f, hin, e.2, ?_, ?_, r5, r4⟩
  · rw [r3]; exact he
  · rw [r3]; exact r2

/-- C53: a file has at most one snippet of each identifier. -/
theorem C53_one_snippet (v : Version) (o : MapOrder) (g : Graph) (d : Doc) (h : loadGraph v o g = .ok d) (h1 : OneRole g)
    (h2 : DistinctNames g) : ∀ f ∈ allFiles d, (f.snippets.map (·.1)).Nodup := by
  obtain ⟨_, s, _, hd, hg, hs, rfl⟩ := load_content ⟨h1, h2⟩ h
  have hfin : Final v g s := ⟨⟨h1, h2⟩, hd.sound, hg⟩
  intro f hf
  obtain ⟨x, j, rfl, hx⟩ := hfin.file_of hf
  obtain ⟨id, _, hj⟩ := hd.sound.inv.fileIds ⟨h1, h2⟩ x j hx
  exact hs.keys j _ (fileOf_get hj).1

/-! ## What follows for a user -/

theorem relationship_type {g : Graph} {subject : RNode} {ts : List Triple} {r : Relationship} (h : RelationshipSays g subject ts r) :
    r.relationship = [] ∨ r.relationship ∈ allRelationshipTypes := by
  obtain ⟨xs, hp, e⟩ := h.type
  cases hx : xs.getLast? with
  | none =>
    rw [List.getLast?_eq_none_iff] at hx
    subst hx
    exact .inl e
  | some x =>
    obtain ⟨_, _, hs⟩ := hp.source (List.mem_of_getLast? hx)
    refine .inr ?_
    rw [e, List.getLastD_eq_getLast?, hx]
    exact hs.1

theorem no_described : ∀ rs : List Relationship, (∀ r ∈ rs, r.relationship = [] ∨ r.relationship ∈ allRelationshipTypes) →
    filterRelationships describedBy () (rs.map some) = .ok ([], ())
  | [], _ => rfl
  | r :: rs, h => by
    have hr : r.relationship ≠ g!"DESCRIBES" ∧ r.relationship ≠ g!"DESCRIBED_BY" := by
      rcases h r (by simp) with e | e
      · rw [e]; decide
      · constructor
        · intro e2; rw [e2] at e; exact absurd e (by decide +kernel)
        · intro e2; rw [e2] at e; exact absurd e (by decide +kernel)
    have hd : describedBy () (some r) = .ok (none, ()) := by
      have : describedBy () (some r) = (if r.relationship = g!"DESCRIBES" ∧ r.refA = refDocument then .ok (some r.refB.elementRefID, ())
          else if r.relationship = g!"DESCRIBED_BY" ∧ r.refB = refDocument then .ok (some r.refA.elementRefID, ()) else .ok (none, ())) := rfl
      rw [this, if_neg (fun h => hr.1 h.1), if_neg (fun h => hr.2 h.1)]
    simp only [List.map_cons, filterRelationships, hd, no_described rs fun x hx => h x (by simp [hx])]
    rfl

/-- C52: the types of relationships are read as they are spelled in RDF, never as DESCRIBES or DESCRIBED_BY, so that the
packages described by a document from RDF are never found, unless it has one package only. -/
theorem C52_described_not_found (v : Version) (o : MapOrder) (g : Graph) (d : Doc) (h : loadGraph v o g = .ok d) (h1 : OneRole g)
    (h2 : DistinctNames g) (so : Sorter) (hp : d.packages.length ≠ 1) :
    getDescribedPackageIDs so (d.packages.map some) (d.relationships.map some) = .err := by
  have hr : ∀ r ∈ d.relationships, r.relationship = [] ∨ r.relationship ∈ allRelationshipTypes := by
    intro r hr
    obtain ⟨u, hu, _⟩ := C52_relationships v o g d h h1 h2 r hr
    exact relationship_type hu.2.2
  match hd : d.packages with
  | [] => rfl
  | [p] => rw [hd] at hp; simp at hp
  | p :: q :: ps =>
    simp only [List.map_cons, getDescribedPackageIDs]
    split
    · rfl
    · rw [no_described _ hr]; rfl

/-- C52: in particular, a document that says it describes a package has none that can be found. -/
theorem C52_described_never_found (v : Version) (o : MapOrder) (g : Graph) (d : Doc) (h : loadGraph v o g = .ok d) (h1 : OneRole g)
    (h2 : DistinctNames g) (so : Sorter) (n : RNode) (hn : IsDocumentNode g n) (t : Triple) (ht : t ∈ g.triples) (hs : t.subject = n)
    (hp : t.pred = .describesPackage) : getDescribedPackageIDs so (d.packages.map some) (d.relationships.map some) = .err := by
  refine C52_described_not_found v o g d h h1 h2 so fun e => ?_
  obtain ⟨m, hm, hc⟩ := C43_described_twice v o g d h
  obtain ⟨id, _, h2⟩ := hc t ht (hs.trans (one_document h hn hm)) hp
  have := List.count_le_length (l := d.packages.map (·.spdxId)) (a := id)
  rw [List.length_map, e] at this
  omega

/-! ## Examples and counterexamples -/

def rdfComment : Str := g!"http://www.w3.org/2000/01/rdf-schema#comment"
def pointerTerm (x : Str) : Str := g!"http://www.w3.org/2009/pointers#" ++ x

/-- A document with a package, two files, an annotation, a relationship and a snippet with two ranges. -/
def rdfRich : Graph := exampleGraph
  [classTo (exId g!"DOCUMENT") g!"SpdxDocument",
   valueTo (exId g!"DOCUMENT") (spdxTerm g!"specVersion") g!"SPDX-2.3",
   valueTo (exId g!"DOCUMENT") (spdxTerm g!"name") g!"doc",
   linkTo (exId g!"DOCUMENT") (spdxTerm g!"creationInfo") g!"ci",
   classTo g!"ci" g!"CreationInfo",
   valueTo g!"ci" (spdxTerm g!"creator") g!"Tool: x",
   linkTo (exId g!"DOCUMENT") (spdxTerm g!"describesPackage") (exId g!"p"),
   linkTo (exId g!"DOCUMENT") (spdxTerm g!"relationship") g!"r",
   linkTo g!"r" (spdxTerm g!"relationshipType") (spdxTerm g!"relationshipType_describes"),
   linkTo g!"r" (spdxTerm g!"relatedSpdxElement") (exId g!"p"),
   classTo (exId g!"p") g!"Package",
   valueTo (exId g!"p") (spdxTerm g!"name") g!"pkg",
   linkTo (exId g!"p") (spdxTerm g!"primaryPackagePurpose") (spdxTerm g!"purpose_library"),
   linkTo (exId g!"p") (spdxTerm g!"annotation") g!"a",
   classTo g!"a" g!"Annotation",
   valueTo g!"a" (spdxTerm g!"annotator") g!"Person: y",
   valueTo g!"a" rdfComment g!"good",
   linkTo (exId g!"p") (spdxTerm g!"hasFile") (exId g!"f"),
   classTo (exId g!"f") g!"File",
   valueTo (exId g!"f") (spdxTerm g!"fileName") g!"./f",
   linkTo (exId g!"f") (spdxTerm g!"fileDependency") (exId g!"h"),
   classTo (exId g!"h") g!"File",
   valueTo (exId g!"h") (spdxTerm g!"fileName") g!"./h",
   classTo (exId g!"s") g!"Snippet",
   linkTo (exId g!"s") (spdxTerm g!"snippetFromFile") (exId g!"h"),
   linkTo (exId g!"s") (spdxTerm g!"range") g!"r1",
   classTo g!"r1" g!"StartEndPointer",
   linkTo g!"r1" (pointerTerm g!"startPointer") g!"b1",
   linkTo g!"r1" (pointerTerm g!"endPointer") g!"e1",
   valueTo g!"b1" (pointerTerm g!"offset") g!"10",
   valueTo g!"e1" (pointerTerm g!"offset") g!"20",
   linkTo (exId g!"s") (spdxTerm g!"range") g!"r2",
   classTo g!"r2" g!"StartEndPointer",
   linkTo g!"r2" (pointerTerm g!"startPointer") g!"b2",
   linkTo g!"r2" (pointerTerm g!"endPointer") g!"e2",
   valueTo g!"b2" (pointerTerm g!"lineNumber") g!"1",
   valueTo g!"e2" (pointerTerm g!"lineNumber") g!"2"]
  [exId g!"DOCUMENT", exId g!"s"]

def ROut.map {α β : Type} (f : α → β) : ROut α → ROut β
  | .ok a => .ok (f a)
  | .err => .err
  | .panic => .panic
  | .cut => .cut

theorem ROut.map_ok {α β : Type} {f : α → β} {x : ROut α} {y : β} (h : x.map f = .ok y) : ∃ a, x = .ok a ∧ f a = y := by
  cases x <;> simp [ROut.map] at h
  exact ⟨_, rfl, h⟩

/-- The document and its names. -/
def shownNames (d : Doc) : Str × Str × Str × Option (List Creator) :=
  (d.spdxId, d.namespace_, d.name, d.creationInfo.map (·.creators))
def shownSnippets (d : Doc) : List (List (Str × List SnippetRange)) :=
  (allFiles d).map fun f => f.snippets.map fun e => (e.1, e.2.ranges)

theorem rdfRich_roles : OneRole rdfRich := oneRole_of (by decide +kernel) (by decide +kernel)
theorem rdfRich_names : DistinctNames rdfRich := distinctNames_of (by decide +kernel) (by decide +kernel)
theorem rdfRich_nodes : NamedNodes rdfRich := by
  rintro t ht n ⟨u, hu, hp, rfl⟩ e
  have : ∀ t ∈ rdfRich.triples, ∀ u ∈ rdfRich.triples,
      u.pred ∈ [.hasFile, .fileDependency, .snippetFromFile, .reference, .describesPackage, .relatedSpdxElement] →
      t.subject.id = u.object.id → t.subject = u.object := by decide +kernel
  exact this t ht u hu hp e
theorem rdfRich_owner : OneOwner rdfRich := by
  intro t ht u hu
  have : ∀ t ∈ rdfRich.triples, ∀ u ∈ rdfRich.triples, t.pred = .relationship → u.pred = .relationship → t.object.id = u.object.id → t = u := by
    decide +kernel
  exact this t ht u hu
theorem rdfRich_snippets : DistinctSnippets rdfRich := by
  rintro n m id ⟨_, t, ht, rfl, hp, hc⟩ ⟨_, u, hu, rfl, hp', hc'⟩ _ _
  have : ∀ t ∈ rdfRich.triples, ∀ u ∈ rdfRich.triples, Cls.ofStr t.object.id = .snippet → Cls.ofStr u.object.id = .snippet → t.subject = u.subject := by
    decide +kernel
  exact this t ht u hu hc hc'

/-- Non-vacuity: the graph meets all the conditions, and it is read. -/
example : OneRole rdfRich ∧ DistinctNames rdfRich ∧ NamedNodes rdfRich ∧ OneOwner rdfRich ∧ DistinctSnippets rdfRich ∧
    IsDocumentNode rdfRich (iriNode (exId g!"DOCUMENT")) ∧ IsSnippetNode rdfRich (iriNode (exId g!"s")) ∧
    (∃ d, loadGraph .v23 .same rdfRich = .ok d) := by
  refine ⟨rdfRich_roles, rdfRich_names, rdfRich_nodes, rdfRich_owner, rdfRich_snippets, ?_, ?_, ?_⟩
  · unfold IsDocumentNode; decide +kernel
  · unfold IsSnippetNode; decide +kernel
  · have : (loadGraph .v23 .same rdfRich).map shownNames =
        .ok (g!"SPDXRef-DOCUMENT", g!"http://ex.org/d", g!"doc", some [{ creatorType := g!"Tool", creator := g!"x" }]) := by decide +kernel
    obtain ⟨d, h, _⟩ := ROut.map_ok this
    exact ⟨d, h⟩

/-- C49: "the identifier of the document is the name of its node without SPDXRef-, as that of other elements" is false
(parse_spdx_document.go:23-24): the relationships of the document refer to DOCUMENT, and it is called SPDXRef-DOCUMENT. -/
theorem C49_identifier_false : (loadGraph .v23 .same rdfRich).map (fun d => (d.spdxId, d.relationships.map (·.refA.elementRefID))) =
    .ok (g!"SPDXRef-DOCUMENT", [g!"DOCUMENT"]) := by decide +kernel

/-- C51: "the primary purpose of a package is read" is false: the URI that RDF uses for it is not recognized, and the
purpose is dropped without an error (parse_package.go:221-231). -/
theorem C51_purpose_false : (loadGraph .v23 .same rdfRich).map (fun d => d.packages.map (·.primaryPurpose)) =
    .ok [[], []] := by decide +kernel

/-- C52: "an annotation says which element it is about" is false: it does not (parse_annotation.go), and the annotation of the
package, which is read twice, is there twice. -/
theorem C52_annotation_subject_false : (loadGraph .v23 .same rdfRich).map (fun d => d.annotations) =
    .ok [{ annotator := { annotatorType := g!"Person", annotator := g!"y" }, comment := g!"good" },
         { annotator := { annotatorType := g!"Person", annotator := g!"y" }, comment := g!"good" }] := by decide +kernel

/-- C53: "a snippet has all the ranges that the graph gives it" is false: only the last one is kept
(parse_snippet_info.go:137). -/
theorem C53_ranges_false : (rdfRich.triples.filter fun t => t.pred = .range).length = 2 ∧
    (loadGraph .v23 .same rdfRich).map shownSnippets =
      .ok [[(g!"s", [{ startPointer := { lineNumber := 1, fileSpdxId := g!"h" }, endPointer := { lineNumber := 2, fileSpdxId := g!"h" } }])],
        [], [], [], []] := by decide +kernel

end Verif
