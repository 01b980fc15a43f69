import Verif.Lemmas.RdfSays
import Verif.Lemmas.RdfDoc
import Verif.Lemmas.RdfRoles

/-!
# C42: reading RDF does not panic, C43: the identity of packages and files
-/

namespace Verif
open RdfM Spec

/-! ## C42 -/

/-- C42 (as it holds): reading a graph yields a document or an error, and no panic, if every root of the graph has a
class and no node is used both as a file or package and as something else. -/
theorem C42_no_panic (v : Version) (o : MapOrder) (g : Graph) (hr : RootsTyped g) (h : OneRole g) :
    loadGraph v o g = .err ∨ ∃ d, loadGraph v o g = .ok d := by
  have hl := load_inv v g o {} rfl
  have hcut : loadState v g o g.depth {} ≠ .cut := by
    intro e
    have := free_loadState v g o g.depth (fun _ => false)
      (by have := g.free_le (fun _ => false); unfold Graph.depth; omega) {} (by funext x; rfl)
    rw [e] at this; exact this
  cases e : loadState v g o g.depth {} with
  | err => exact .inl (by unfold loadGraph; rw [e])
  | cut => exact absurd e hcut
  | panic =>
    rw [e] at hl
    rcases hl with hl | hl
    · exact absurd h hl
    · exact absurd hr hl
  | ok x =>
    rw [e] at hl
    obtain ⟨s, hs, e2⟩ := hl
    obtain ⟨u, s'⟩ := x
    change s' = s.collected o at e2
    subst e2
    refine .inr ⟨s.docOf o, ?_⟩
    unfold loadGraph
    simp only [e, deref_collected o hs]

/-- C42 for the entry point, which chooses the version. -/
theorem C42_read (o : MapOrder) (g : Graph) (hr : RootsTyped g) (h : OneRole g) :
    readGraph o g = .err ∨ ∃ d, readGraph o g = .ok d := by
  unfold readGraph
  split
  · exact .inl rfl
  · split
    · exact C42_no_panic .v22 o g hr h
    · split
      · exact C42_no_panic .v23 o g hr h
      · exact .inl rfl

/-! ## C43 -/

/-- C43: the identifier of a package is the last part of the name of its node, without SPDXRef-. -/
theorem C43_package_id (node id : Str) : PackageIdOf node id ↔ NamesElement node id := by
  have h1 : '#' ∉ spdxRefPrefix := by decide
  have h2 : '/' ∉ spdxRefPrefix := by decide
  unfold PackageIdOf NamesElement lastPart
  rw [extractElementID_eq_ok]
  by_cases hc : contains g!"#" node = true
  · have hm : '#' ∈ node := contains_single.1 hc
    rw [if_pos hc, getLastD_splitChar]
    constructor
    · rintro ⟨⟨h3, h4⟩, h5, h6⟩
      refine ⟨h5, h6, ?_⟩
      rcases h4 with rfl | ⟨p, rfl⟩
      · exact absurd hm h3
      · exact ⟨p ++ ['#'], by simp [spdxRefPrefix], .inl ⟨fun h => h3 (by simp [h]), p, rfl⟩⟩
    · rintro ⟨h5, h6, pre, rfl, ⟨h7, p, rfl⟩ | ⟨h7, _⟩⟩
      · exact ⟨⟨by simp [h1, h7], .inr ⟨p, by simp [spdxRefPrefix]⟩⟩, h5, h6⟩
      · exact absurd hm h7
  · have hm : '#' ∉ node := fun h => hc (contains_single.2 h)
    rw [if_neg hc, getLastD_splitChar]
    constructor
    · rintro ⟨⟨h3, h4⟩, h5, h6⟩
      refine ⟨h5, h6, ?_⟩
      have h7 : '/' ∉ id := fun h => h3 (by simp [h])
      rcases h4 with e | ⟨p, e⟩
      · exact ⟨[], by simp [e, spdxRefPrefix], .inr ⟨hm, h7, .inl rfl⟩⟩
      · exact ⟨p ++ ['/'], by simp [e, spdxRefPrefix], .inr ⟨hm, h7, .inr ⟨p, rfl⟩⟩⟩
    · rintro ⟨h5, h6, pre, e, ⟨h7, p, rfl⟩ | ⟨_, h7, h8⟩⟩
      · exact absurd (by rw [e]; simp) hm
      · refine ⟨⟨by simp [h2, h7], ?_⟩, h5, h6⟩
        rcases h8 with rfl | ⟨p, rfl⟩
        · exact .inl (by simp [e, spdxRefPrefix])
        · exact .inr ⟨p, by simp [e, spdxRefPrefix]⟩

/-- C43: for files the white space around the name is dropped first. -/
theorem C43_file_id (node id : Str) : FileIdOf node id ↔ NamesElement (trimSpace node) id := C43_package_id _ _

/-- C43 (as it holds): the files outside packages have different identifiers, and none of these is the identifier of a
file in a package. -/
theorem C43_files (v : Version) (o : MapOrder) (g : Graph) (d : Doc) (h : loadGraph v o g = .ok d) :
    (d.files.map (·.spdxId)).Nodup ∧ ∀ f ∈ d.files, ∀ p ∈ d.packages, ∀ f' ∈ p.files, f.spdxId ≠ f'.spdxId := by
  obtain ⟨s, hs, _, rfl⟩ := loadGraph_ok h
  have hid : ∀ e ∈ (o.order s.files).filter (fun e => !s.assoc.contains e.1), (s.fileOf e.2).spdxId = e.1 := fun e he =>
    (fileOf_get (hs.files e ((o.perm _).mem_iff.1 (List.mem_filter.1 he).1))).2
  constructor
  · simp only [RState.docOf, List.map_map]
    rw [List.map_congr_left (g := fun e : Str × Nat => e.1) (f := (fun x => x.spdxId) ∘ fun e : Str × Nat => s.fileOf e.2) hid]
    exact (((o.perm s.files).map (·.1)).nodup_iff.2 hs.keys).sublist (List.filter_sublist.map _)
  · intro f hf p hp f' hf' e
    obtain ⟨x, hx, rfl⟩ := List.mem_map.1 hf
    obtain ⟨i, hi, rfl⟩ := List.mem_map.1 hp
    obtain ⟨l, hl, e2⟩ := packageOf_files (hs.packages i hi)
    rw [e2] at hf'
    obtain ⟨j, hj, rfl⟩ := List.mem_map.1 hf'
    obtain ⟨id, h1, h2⟩ := hs.pkgFiles l hl j hj
    rw [(fileOf_get h1).2, hid x hx] at e
    subst e
    have := (List.mem_filter.1 hx).2
    simp only [Bool.not_eq_true', List.contains_eq_mem, decide_eq_false_iff_not] at this
    exact this h2

/-- C43 (as it holds): if nodes have one role and different names, packages with the same identifier are equal: a
package that is listed several times is the same each time. -/
theorem C43_packages (v : Version) (o : MapOrder) (g : Graph) (d : Doc) (h : loadGraph v o g = .ok d) (h1 : OneRole g)
    (h2 : DistinctNames g) : ∀ p ∈ d.packages, ∀ q ∈ d.packages, p.spdxId = q.spdxId → p = q := by
  obtain ⟨s, hs, _, rfl⟩ := loadGraph_ok h
  intro p hp q hq e
  obtain ⟨i, hi, rfl⟩ := List.mem_map.1 hp
  obtain ⟨j, hj, rfl⟩ := List.mem_map.1 hq
  obtain ⟨x, hx⟩ := hs.pkgsCanon ⟨h1, h2⟩ i hi
  obtain ⟨y, hy⟩ := hs.pkgsCanon ⟨h1, h2⟩ j hj
  obtain ⟨a, ha, ea⟩ := hs.pkgIds ⟨h1, h2⟩ x i hx
  obtain ⟨b, hb, eb⟩ := hs.pkgIds ⟨h1, h2⟩ y j hy
  rw [packageOf_id ea, packageOf_id eb] at e
  subst e
  have := h2.package x y a (hs.kinds h1 _ _ hx) (hs.kinds h1 _ _ hy) ha hb
  subst this
  have := cached_unique hx hy
  injection this with this
  rw [this]

/-- C43 (as it holds): likewise for the files in packages. -/
theorem C43_package_files (v : Version) (o : MapOrder) (g : Graph) (d : Doc) (h : loadGraph v o g = .ok d) (h1 : OneRole g)
    (h2 : DistinctNames g) : ∀ p ∈ d.packages, ∀ q ∈ d.packages, ∀ f ∈ p.files, ∀ f' ∈ q.files, f.spdxId = f'.spdxId → f = f' := by
  obtain ⟨s, hs, _, rfl⟩ := loadGraph_ok h
  have key : ∀ p ∈ s.doc.packages.map s.packageOf, ∀ f ∈ p.files, ∃ j x, f = s.fileOf j ∧ s.view.cached x (.file j) := by
    intro p hp f hf
    obtain ⟨i, hi, rfl⟩ := List.mem_map.1 hp
    obtain ⟨l, hl, e2⟩ := packageOf_files (hs.packages i hi)
    rw [e2] at hf
    obtain ⟨j, hj, rfl⟩ := List.mem_map.1 hf
    obtain ⟨x, hx⟩ := hs.pkgFilesCanon ⟨h1, h2⟩ l hl j hj
    exact ⟨j, x, rfl, hx⟩
  intro p hp q hq f hf f' hf' e
  obtain ⟨i, x, rfl, hx⟩ := key p hp f hf
  obtain ⟨j, y, rfl, hy⟩ := key q hq f' hf'
  obtain ⟨a, ha, ea⟩ := hs.fileIds ⟨h1, h2⟩ x i hx
  obtain ⟨b, hb, eb⟩ := hs.fileIds ⟨h1, h2⟩ y j hy
  rw [(fileOf_get ea).2, (fileOf_get eb).2] at e
  subst e
  have := h2.file x y a (hs.kinds h1 _ _ hx) (hs.kinds h1 _ _ hy) ha hb
  subst this
  have := cached_unique hx hy
  injection this with this
  rw [this]

/-! ### Described packages -/

/-- The package described by a triple is listed twice. -/
def Twice (x : Str) (w : View) : Prop := ∃ k id, PackageIdOf x id ∧ w.pids[k]? = some id ∧ 2 ≤ w.packages.count k

theorem Twice.ext {x : Str} {w w' : View} (h : Twice x w) (he : Ext w w') : Twice x w' := by
  obtain ⟨k, id, h1, h2, h3⟩ := h
  exact ⟨k, id, h1, prefix_get he.pids h2, Nat.le_trans h3 (he.packages.sublist.count_le k)⟩

theorem twice_step {v : Version} {g : Graph} {n : RNode} {t : Triple} (ht : t ∈ g.of n) :
    RTrip True True (Rest g) (documentStep g (calls v g g.depth) t) fun _ s =>
      t.pred = .describesPackage → Twice t.object.id s.view := by
  by_cases hp : t.pred = .describesPackage
  · unfold documentStep
    rw [hp]
    refine RTrip.at fun s0 h0 => ?_
    have hu : UsedAsPackage g t.object.id := .inl (used_of ht (by simp [hp]))
    refine RTrip.bind ((((Good.ofDepth v g g.depth).package t.object s0.view hu).both
      ((free_depth v g).package t.object (obj_mem ht))).pre fun s e => by
        subst e; exact ⟨⟨h0.1, .refl _⟩, h0.2⟩) fun k => ?_
    refine RTrip.modify fun s ⟨⟨_, hlt, _, hl⟩, hgrey⟩ _ => ?_
    rcases hl with ⟨hk, id, hid, hpid⟩ | ⟨o, ho⟩
    · refine ⟨k, id, hid, hpid, ?_⟩
      change 2 ≤ (s.doc.packages ++ [k]).count k
      have : 1 ≤ s.doc.packages.count k := List.one_le_count_iff.2 hk
      simp only [List.count_append, List.count_singleton_self]
      omega
    · have : s.grey t.object.id = true := by
        change mapGet t.object.id s.cache = _ at ho
        simp only [RState.grey, ho]
      rw [hgrey] at this; simp at this
  · exact (free_documentStep (free_depth v g) ht).soft.conseq (fun _ h => h.2) fun _ _ _ h => absurd h hp

theorem twice_each {v : Version} {g : Graph} {n : RNode} : ∀ (ts : List Triple), (∀ t ∈ ts, t ∈ g.of n) →
    RTrip True True (Rest g) (RdfM.each (documentStep g (calls v g g.depth)) ts) fun _ s =>
      Rest g s ∧ ∀ t ∈ ts, t.pred = .describesPackage → Twice t.object.id s.view
  | [], _ => RTrip.pure fun _ h => ⟨h, by simp⟩
  | t :: ts, hts => by
    have ht : t ∈ g.of n := hts t (by simp)
    have hg := Good.ofDepth v g g.depth
    refine RTrip.at fun s0 h0 => ?_
    refine RTrip.bind (R := fun _ s => Rest g s ∧ (t.pred = .describesPackage → Twice t.object.id s.view)) ?_ fun _ => ?_
    · exact ((keeps_documentStep hg ht s0.view).both ((free_documentStep (free_depth v g) ht).both (twice_step (v := v) ht))).conseq
        (fun s e => by subst e; exact ⟨⟨h0.1, .refl _⟩, h0.2, h0⟩) fun _ s h => ⟨⟨h.1.1.1, h.2.1⟩, h.2.2⟩
    · refine RTrip.at fun s1 h1 => ?_
      exact ((twice_each ts fun x hx => hts x (by simp [hx])).both
        (KeepsFrom.each (w0 := s1.view) fun x hx => keeps_documentStep hg (hts x (by simp [hx])) s1.view)).conseq
        (fun s e => by subst e; exact ⟨h1.1, h1.1.1, .refl _⟩) fun _ s h => ⟨h.1.1, fun x hx hp => by
          rcases List.mem_cons.1 hx with rfl | hx
          · exact (h1.2 hp).ext h.2.1.2
          · exact h.1.2 x hx hp⟩

theorem twice_load (v : Version) (g : Graph) (o : MapOrder) :
    RTrip True True (fun s => s = {}) (loadState v g o g.depth) fun _ s =>
      ∃ n, IsDocumentNode g n ∧ ∀ t ∈ g.of n, t.pred = .describesPackage → Twice t.object.id s.view := by
  have hg := Good.ofDepth v g g.depth
  unfold loadState
  refine RTrip.bind (R := fun n s => s = {} ∧ IsDocumentNode g n)
    (RTrip.lift (fun _ => trivial) fun n s h hs => ⟨hs, docNode_ok h⟩) fun n => ?_
  refine RTrip.bind (R := fun _ s => IsDocumentNode g n ∧ Rest g s ∧
      ∀ t ∈ g.of n, t.pred = .describesPackage → Twice t.object.id s.view) ?_ fun _ => ?_
  · unfold documentAt
    refine RTrip.bind (R := fun _ s => s = {} ∧ IsDocumentNode g n) (RTrip.lift (fun _ => trivial) fun _ _ _ h => h) fun x => ?_
    obtain ⟨base, offset⟩ := x
    refine RTrip.bind (R := fun _ s => Rest g s ∧ IsDocumentNode g n) (RTrip.modify fun s h => ?_) fun _ => ?_
    · obtain ⟨rfl, h⟩ := h
      exact ⟨⟨initial_inv g, rfl⟩, h⟩
    · exact RTrip.at fun s h => ((twice_each _ fun _ h => h).conseq (fun s' e => by subst e; exact h.1) fun _ s' h' => ⟨h.2, h'⟩)
  · refine RTrip.at fun s1 h1 => ?_
    refine RTrip.bind (R := fun _ s => IsDocumentNode g n ∧ Ext s1.view s.view) ?_ fun _ => ?_
    · exact (RTrip.soft (keeps_snippetRoots v hg g.roots s1.view)).conseq
        (fun s e => by subst e; exact ⟨h1.2.1.1, .refl _⟩) fun _ s h => ⟨h1.1, h.1.2⟩
    · exact RTrip.modify fun s h => ⟨n, h.1, fun t ht hp => by
        obtain ⟨k, id, a, b, c⟩ := (h1.2.2 t ht hp).ext h.2
        exact ⟨k, id, a, b, c⟩⟩

/-- C43: each package that the document says it describes is in the list of packages, and more than once. -/
theorem C43_described_twice (v : Version) (o : MapOrder) (g : Graph) (d : Doc) (h : loadGraph v o g = .ok d) :
    ∃ n, IsDocumentNode g n ∧ ∀ t ∈ g.triples, t.subject = n → t.pred = .describesPackage →
      ∃ id, PackageIdOf t.object.id id ∧ 2 ≤ (d.packages.map (·.spdxId)).count id := by
  obtain ⟨s, hs, e, rfl⟩ := loadGraph_ok h
  have hl := twice_load v g o {} rfl
  rw [e] at hl
  obtain ⟨n, hn, hl⟩ := hl
  refine ⟨n, hn, fun t ht hsub hp => ?_⟩
  obtain ⟨k, id, h1, h2, h3⟩ := hl t (by simp only [Graph.of, List.mem_filter, decide_eq_true_eq]; exact ⟨ht, hsub⟩) hp
  refine ⟨id, h1, Nat.le_trans h3 ?_⟩
  have : (s.docOf o).packages.map (·.spdxId) = s.doc.packages.map fun i => (s.packageOf i).spdxId := by
    simp [RState.docOf]
  rw [this, ← packageOf_id (s := s) h2]
  exact List.count_le_count_map (f := fun i => (s.packageOf i).spdxId)

/-! ## Examples and counterexamples -/

/-- A document that describes one package with one file, which a second package that is only related has as well. -/
def rdfSmall : Graph := exampleGraph
  [classTo (exId g!"DOCUMENT") g!"SpdxDocument",
   valueTo (exId g!"DOCUMENT") (spdxTerm g!"specVersion") g!"SPDX-2.3",
   linkTo (exId g!"DOCUMENT") (spdxTerm g!"describesPackage") (exId g!"p"),
   classTo (exId g!"p") g!"Package",
   valueTo (exId g!"p") (spdxTerm g!"name") g!"pkg",
   linkTo (exId g!"p") (spdxTerm g!"hasFile") (exId g!"f"),
   linkTo (exId g!"p") (spdxTerm g!"relationship") (exId g!"r"),
   classTo (exId g!"r") g!"Relationship",
   linkTo (exId g!"r") (spdxTerm g!"relationshipType") (spdxTerm g!"relationshipType_contains"),
   linkTo (exId g!"r") (spdxTerm g!"relatedSpdxElement") (exId g!"q"),
   classTo (exId g!"q") g!"Package",
   linkTo (exId g!"q") (spdxTerm g!"hasFile") (exId g!"f"),
   classTo (exId g!"f") g!"File",
   valueTo (exId g!"f") (spdxTerm g!"fileName") g!"./f",
   linkTo (exId g!"f") (spdxTerm g!"checksum") (exId g!"c"),
   classTo (exId g!"c") g!"Checksum",
   linkTo (exId g!"c") (spdxTerm g!"algorithm") (spdxTerm g!"checksumAlgorithm_sha1"),
   valueTo (exId g!"c") (spdxTerm g!"checksumValue") g!"00"]
  [exId g!"DOCUMENT"]

theorem rdfSmall_roles : OneRole rdfSmall := oneRole_of (by decide +kernel) (by decide +kernel)
theorem rdfSmall_names : DistinctNames rdfSmall := distinctNames_of (by decide +kernel) (by decide +kernel)
theorem rdfSmall_roots : RootsTyped rdfSmall := by
  intro r hr
  have : ∀ r ∈ rdfSmall.roots, ∃ t ∈ rdfSmall.triples, t.subject = r ∧ t.pred = .type_ := by decide +kernel
  exact this r hr

/-- What is shown of a document: its packages with their files, and how often each file was given a checksum. -/
def shown : ROut Doc → ROut (List (Str × List (Str × Nat)))
  | .ok d => .ok (d.packages.map fun p => (p.spdxId, p.files.map fun f => (f.spdxId, f.checksums.length)))
  | .err => .err
  | .panic => .panic
  | .cut => .cut

/-- Non-vacuity: the graph meets all the conditions, and it is read. -/
example : RootsTyped rdfSmall ∧ OneRole rdfSmall ∧ DistinctNames rdfSmall ∧ ∃ d, loadGraph .v23 .same rdfSmall = .ok d := by
  refine ⟨rdfSmall_roots, rdfSmall_roles, rdfSmall_names, ?_⟩
  rcases C42_no_panic .v23 .same rdfSmall rdfSmall_roots rdfSmall_roles with h | h
  · have : shown (loadGraph .v23 .same rdfSmall) ≠ .err := by decide +kernel
    rw [h] at this; exact absurd rfl this
  · exact h

/-- C43: "every package of the graph is in the document exactly once" is false: the described package is there twice,
once appended where it is read and once where it is described (parse_package.go:175, parse_spdx_document.go:69). -/
theorem C43_listed_once_false : ¬ ∀ d, loadGraph .v23 .same rdfSmall = .ok d → (d.packages.map (·.spdxId)).Nodup := by
  intro h
  have e : shown (loadGraph .v23 .same rdfSmall) =
      .ok [(g!"q", [(g!"f", 2)]), (g!"p", [(g!"f", 2)]), (g!"p", [(g!"f", 2)])] := by decide +kernel
  cases e2 : loadGraph .v23 .same rdfSmall with
  | ok d =>
    rw [e2] at e
    have h := h d e2
    simp only [shown, ROut.ok.injEq] at e
    have e3 : d.packages.map (·.spdxId) = [g!"q", g!"p", g!"p"] := by
      have := congrArg (List.map (·.1)) e
      rw [List.map_map] at this
      exact this
    rw [e3] at h
    exact absurd h (by decide +kernel)
  | err => rw [e2] at e; simp [shown] at e
  | panic => rw [e2] at e; simp [shown] at e
  | cut => rw [e2] at e; simp [shown] at e

/-- C43: "a file that two packages have is read as the graph describes it" is false: the file of the example has one
checksum in the graph and two in the document, because it is read again from each package (parse_file.go:18-35, which skip
only a node that is being read). -/
theorem C43_read_once_false :
    (rdfSmall.triples.filter fun t => t.pred = .checksum).length = 1 ∧
    shown (loadGraph .v23 .same rdfSmall) = .ok [(g!"q", [(g!"f", 2)]), (g!"p", [(g!"f", 2)]), (g!"p", [(g!"f", 2)])] := by
  decide +kernel

/-- A graph whose only root has no class. -/
def rdfUntyped : Graph := exampleGraph [valueTo (exId g!"DOCUMENT") (spdxTerm g!"specVersion") g!"SPDX-2.3"] [exId g!"DOCUMENT"]

/-- C42: "reading never panics" is false: the first class of each root is taken without checking that there is one
(parser.go:113). -/
theorem C42_untyped_root_false : shown (loadGraph .v23 .same rdfUntyped) = .panic := by decide +kernel

/-- A graph with a package that has itself as a file. -/
def rdfTwoRoles : Graph := exampleGraph
  [classTo (exId g!"DOCUMENT") g!"SpdxDocument",
   valueTo (exId g!"DOCUMENT") (spdxTerm g!"specVersion") g!"SPDX-2.3",
   linkTo (exId g!"DOCUMENT") (spdxTerm g!"describesPackage") (exId g!"p"),
   classTo (exId g!"p") g!"Package",
   linkTo (exId g!"p") (spdxTerm g!"hasFile") (exId g!"p")]
  [exId g!"DOCUMENT"]

/-- C42: "reading never panics if all roots have classes" is false: a package that is used as a file is found in the
cache and converted to a file (parse_file.go:22). -/
theorem C42_two_roles_false : RootsTyped rdfTwoRoles ∧ shown (loadGraph .v23 .same rdfTwoRoles) = .panic := by
  refine ⟨?_, by decide +kernel⟩
  intro r hr
  have : ∀ r ∈ rdfTwoRoles.roots, ∃ t ∈ rdfTwoRoles.triples, t.subject = r ∧ t.pred = .type_ := by decide +kernel
  exact this r hr

end Verif
