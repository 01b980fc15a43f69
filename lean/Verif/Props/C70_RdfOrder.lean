import Verif.Lemmas.RdfOrderLegal
import Verif.Lemmas.RdfTop
import Verif.Props.C69_RdfExact

/-!
# C70: the order of the statements in an RDF graph does not matter

`SameStatements`, `Reordered`, `SaidOnce` and `SameDocument` are in `Spec/RdfOrder`.
-/

namespace Verif
open Spec Spec.Rdf

theorem repeated_one (g : Graph) (n : RNode) (k : Nat) : AboutOne g (List.replicate k (g.of n)).flatten := by
  have : ∀ t ∈ (List.replicate k (g.of n)).flatten, t ∈ g.of n := by
    intro t ht
    obtain ⟨l, hl, ht⟩ := List.mem_flatten.1 ht
    rwa [List.eq_of_mem_replicate hl] at ht
  exact ⟨fun t ht => (mem_of (this t ht)).1, fun t ht u hu => by rw [(mem_of (this t ht)).2, (mem_of (this u hu)).2]⟩

theorem repeated_same {g g' : Graph} (hs : SameStatements g g') (n : RNode) {k k' : Nat} (hk : 1 ≤ k) (hk' : 1 ≤ k') :
    SameMembers (List.replicate k (g.of n)).flatten (List.replicate k' (g'.of n)).flatten := by
  have : ∀ {gg : Graph} {j : Nat}, 1 ≤ j → ∀ t, t ∈ (List.replicate j (gg.of n)).flatten ↔ t ∈ gg.of n := by
    intro gg j hj t
    simp only [List.mem_flatten, List.mem_replicate]
    exact ⟨fun ⟨l, h, ht⟩ => h.2 ▸ ht, fun ht => ⟨_, ⟨by omega, rfl⟩, ht⟩⟩
  intro t
  rw [this hk, this hk', hs.of n t]

theorem hash_one {a b a' b' : Str} (h : a ++ '#' :: b = a' ++ '#' :: b') (h1 : '#' ∉ a) (h2 : '#' ∉ a') : a = a' ∧ b = b' := by
  induction a generalizing a' with
  | nil =>
    cases a' with
    | nil => simpa using h
    | cons c a' => simp only [List.nil_append, List.cons_append, List.cons.injEq] at h; simp [← h.1] at h2
  | cons c a ih =>
    cases a' with
    | nil => simp only [List.nil_append, List.cons_append, List.cons.injEq] at h; simp [h.1] at h1
    | cons c' a' =>
      simp only [List.cons_append, List.cons.injEq] at h
      obtain ⟨rfl, h⟩ := h
      obtain ⟨rfl, rfl⟩ := ih h (fun q => h1 (by simp [q])) (fun q => h2 (by simp [q]))
      exact ⟨rfl, rfl⟩

theorem nodup_key {α : Type} {f : α → Str} : ∀ {l : List α}, (l.map f).Nodup → ∀ x ∈ l, ∀ y ∈ l, f x = f y → x = y
  | [], _, x, hx, _, _, _ => by simp at hx
  | a :: l, h, x, hx, y, hy, e => by
    rw [List.map_cons, List.nodup_cons] at h
    rcases List.mem_cons.1 hx with e1 | hx1 <;> rcases List.mem_cons.1 hy with e2 | hy1
    · exact e1.trans e2.symm
    · exact absurd (List.mem_map.2 ⟨y, hy1, by rw [← e, e1]⟩) h.1
    · exact absurd (List.mem_map.2 ⟨x, hx1, by rw [e, e2]⟩) h.1
    · exact nodup_key h.2 x hx1 y hy1 e

/-- No two files of a document have the same identifier. -/
theorem files_by_id {v : Version} {o : MapOrder} {g : Graph} {d : Doc} (h : loadGraph v o g = .ok d) (h1 : OneRole g) (h2 : DistinctNames g) :
    ∀ f ∈ allFiles d, ∀ k ∈ allFiles d, f.spdxId = k.spdxId → f = k := by
  obtain ⟨q1, q2⟩ := C43_files v o g d h
  have q3 := C43_package_files v o g d h h1 h2
  intro f hf k hk e
  rcases mem_allFiles.1 hf with hf | ⟨p, hp, hf⟩ <;> rcases mem_allFiles.1 hk with hk | ⟨p', hp', hk⟩
  · exact nodup_key q1 f hf k hk e
  · exact absurd e (q2 f hf p' hp' k hk)
  · exact absurd e.symm (q2 k hk p hp f hf)
  · exact q3 p hp p' hp' f hf k hk e

section
variable {v : Version} {o o' : MapOrder} {g g' : Graph} {d d' : Doc} (hs : SameStatements g g') (ho : SaidOnce g) (h1 : OneRole g)
  (h2 : DistinctNames g) (h3 : NamedNodes g) (h4 : OneOwner g) (h5 : DistinctSnippets g) (h : loadGraph v o g = .ok d)
  (h' : loadGraph v o' g' = .ok d')

include hs ho h1 h2 h5 h h' in
theorem snippets_alike {f k : FileV} (hf : f ∈ allFiles d) (hk : k ∈ allFiles d') (e : f.spdxId = k.spdxId) :
    Matching (fun a b => a.1 = b.1 ∧ SameSnippet a.2 b.2) f.snippets k.snippets := by
  have g1 := oneRole_same hs h1
  have g2 := distinctNames_same hs h2
  constructor
  · intro x hx
    obtain ⟨n, q1, q2, q3, q4, q5⟩ := C53_snippets v o g d h h1 h2 f hf x hx
    obtain ⟨k', r1, y, r2, r3, r4, r5⟩ := C53_all_snippets v o' g' d' h' g1 g2 (distinctSnippets_same hs h5) n (snippetNode_same hs q1)
    have hid := packageId_one q2 r3
    have hxy := snippetSays_same hs ho (aboutOne_of g n) (hs.of n) q4 r5 (by rw [q3, hid])
    have : k' = k := files_by_id h' g1 g2 _ r1 _ hk (by rw [← r4, ← hxy.fromFile, q5, e])
    exact ⟨_, this ▸ r2, hid, hxy⟩
  · intro y hy
    obtain ⟨n, q1, q2, q3, q4, q5⟩ := C53_snippets v o' g' d' h' g1 g2 k hk y hy
    obtain ⟨f', r1, x, r2, r3, r4, r5⟩ := C53_all_snippets v o g d h h1 h2 h5 n (snippetNode_same hs.symm q1)
    have hid := packageId_one r3 q2
    have hxy := snippetSays_same hs ho (aboutOne_of g n) (hs.of n) r5 q4 (by rw [q3, hid])
    have : f' = f := files_by_id h h1 h2 _ r1 _ hf (by rw [← r4, hxy.fromFile, q5, e])
    exact ⟨_, this ▸ r2, hid, hxy⟩

include hs ho h1 h2 h3 h4 h5 h h' in
theorem files_alike {f k : FileV} (hf : f ∈ allFiles d) (hk : k ∈ allFiles d') (e : f.spdxId = k.spdxId) : Rdf.SameFile f k := by
  have g1 := oneRole_same hs h1
  have g2 := distinctNames_same hs h2
  obtain ⟨n, hn, q1, j, hj, q2⟩ := (C69_exact v o g d h h1 h2 h3 h4).files f hf
  obtain ⟨k', hk', r1, j', hj', r2⟩ :=
    (C69_exact v o' g' d' h' g1 g2 (namedNodes_same hs h3) (oneOwner_same hs h4)).everyFile n (leads_same hs hn)
  obtain rfl := files_by_id h' g1 g2 _ hk' _ hk ((fileId_one q1 r1).symm.trans e)
  exact fileSays_same hs ho (repeated_one g n j) (repeated_same hs n hj hj') q2 r2 e (snippets_alike hs ho h1 h2 h5 h h' hf hk e)

include hs h1 h2 h3 h4 h h' in
theorem file_there {f : FileV} (hf : f ∈ allFiles d) : ∃ k ∈ allFiles d', f.spdxId = k.spdxId := by
  obtain ⟨n, hn, q1, _⟩ := (C69_exact v o g d h h1 h2 h3 h4).files f hf
  obtain ⟨k, hk, r1, _⟩ := (C69_exact v o' g' d' h' (oneRole_same hs h1) (distinctNames_same hs h2) (namedNodes_same hs h3)
    (oneOwner_same hs h4)).everyFile n (leads_same hs hn)
  exact ⟨k, hk, fileId_one q1 r1⟩

include hs ho h1 h2 h3 h4 h5 h h' in
theorem packages_alike : Matching Rdf.SamePackage d.packages d'.packages := by
  have H := C69_exact v o g d h h1 h2 h3 h4
  have H' := C69_exact v o' g' d' h' (oneRole_same hs h1) (distinctNames_same hs h2) (namedNodes_same hs h3) (oneOwner_same hs h4)
  have key : ∀ n, ∀ p ∈ d.packages, ∀ q ∈ d'.packages, PackageOf v g n p → PackageOf v g' n q → Rdf.SamePackage p q := by
    rintro n p hp q hq ⟨q1, j, hj, q2⟩ ⟨r1, j', hj', r2⟩
    exact packageSays_same hs ho (repeated_one g n j) (repeated_same hs n hj hj') q2 r2 (packageId_one q1 r1) fun m _ a ha b hb ea eb =>
      files_alike hs ho h1 h2 h3 h4 h5 h h' (mem_allFiles.2 (.inr ⟨p, hp, ha⟩)) (mem_allFiles.2 (.inr ⟨q, hq, hb⟩)) (fileId_one ea eb)
  constructor
  · intro p hp
    obtain ⟨n, hn, q⟩ := H.packages p hp
    obtain ⟨p', hp', r⟩ := H'.everyPackage n (leads_same hs hn)
    exact ⟨p', hp', key n p hp p' hp' q r⟩
  · intro p' hp'
    obtain ⟨n, hn, r⟩ := H'.packages p' hp'
    obtain ⟨p, hp, q⟩ := H.everyPackage n (leads_same hs.symm hn)
    exact ⟨p, hp, key n p hp p' hp' q r⟩

include hs ho h1 h2 h3 h4 h5 h h' in
theorem loose_alike : Matching Rdf.SameFile d.files d'.files := by
  have hp := packages_alike hs ho h1 h2 h3 h4 h5 h h'
  have g1 := oneRole_same hs h1
  have g2 := distinctNames_same hs h2
  constructor
  · intro f hf
    have hf' := mem_allFiles.2 (.inl hf)
    obtain ⟨k, hk, e⟩ := file_there hs h1 h2 h3 h4 h h' hf'
    rcases mem_allFiles.1 hk with hk' | ⟨p', hp', hk'⟩
    · exact ⟨k, hk', files_alike hs ho h1 h2 h3 h4 h5 h h' hf' hk e⟩
    · obtain ⟨p, hp1, hpp⟩ := hp.2 p' hp'
      obtain ⟨f', hf1, hff⟩ := hpp.files.2 k hk'
      exact absurd (e.trans hff.spdxId.symm) ((C43_files v o g d h).2 f hf p hp1 f' hf1)
  · intro k hk
    have hk' := mem_allFiles.2 (.inl hk)
    obtain ⟨f, hf, e⟩ := file_there hs.symm g1 g2 (namedNodes_same hs h3) (oneOwner_same hs h4) h' h hk'
    rcases mem_allFiles.1 hf with hf' | ⟨p, hp1, hf'⟩
    · exact ⟨f, hf', files_alike hs ho h1 h2 h3 h4 h5 h h' hf hk' e.symm⟩
    · obtain ⟨p', hp', hpp⟩ := hp.1 p hp1
      obtain ⟨k', hk1, hff⟩ := hpp.files.1 f hf'
      exact absurd (e.trans hff.spdxId) ((C43_files v o' g' d' h').2 k hk p' hp' k' hk1)

include hs ho h1 h2 h3 h4 h h' in
theorem relationships_alike : SameMembers d.relationships d'.relationships := by
  have H := C69_exact v o g d h h1 h2 h3 h4
  have H' := C69_exact v o' g' d' h' (oneRole_same hs h1) (distinctNames_same hs h2) (namedNodes_same hs h3) (oneOwner_same hs h4)
  intro r
  constructor
  · intro hr
    obtain ⟨t, ht, q⟩ := H.relationships r hr
    obtain ⟨r', hr', q'⟩ := H'.everyRelationship t (leads_same hs ht)
    rwa [relationship_same hs ho (aboutOne_of g t.object) (hs.of t.object) q q']
  · intro hr
    obtain ⟨t, ht, q⟩ := H'.relationships r hr
    obtain ⟨r', hr', q'⟩ := H.everyRelationship t (leads_same hs.symm ht)
    rwa [← relationship_same hs ho (aboutOne_of g t.object) (hs.of t.object) q' q]

include hs ho h1 h2 h3 h4 h h' in
theorem annotations_alike : SameMembers d.annotations d'.annotations := by
  have H := C69_exact v o g d h h1 h2 h3 h4
  have H' := C69_exact v o' g' d' h' (oneRole_same hs h1) (distinctNames_same hs h2) (namedNodes_same hs h3) (oneOwner_same hs h4)
  intro r
  constructor
  · intro hr
    obtain ⟨n, hn, t, ht, hp, q⟩ := H.annotations r hr
    obtain ⟨r', hr', q'⟩ := H'.everyAnnotation n (annotatable_same hs hn) t ((hs.of n t).1 ht) hp
    rwa [annotation_same ho (aboutOne_of g t.object) (hs.of t.object) q q']
  · intro hr
    obtain ⟨n, hn, t, ht, hp, q⟩ := H'.annotations r hr
    obtain ⟨r', hr', q'⟩ := H.everyAnnotation n (annotatable_same hs.symm hn) t ((hs.of n t).2 ht) hp
    rwa [← annotation_same ho (aboutOne_of g t.object) (hs.of t.object) q' q]

end

/-- C70: a graph and one with the same statements and roots in another order, or repeated, give the same document, up to the
order and number of the members of lists, and whatever the order of maps in the two runs. -/
theorem C70_same (v : Version) (o o' : MapOrder) (g g' : Graph) (d d' : Doc) (hs : SameStatements g g') (ho : SaidOnce g) (h1 : OneRole g)
    (h2 : DistinctNames g) (h3 : NamedNodes g) (h4 : OneOwner g) (h5 : DistinctSnippets g) (h : loadGraph v o g = .ok d)
    (h' : loadGraph v o' g' = .ok d') : SameDocument d d' := by
  obtain ⟨n, _, hn, _⟩ := load_content ⟨h1, h2⟩ h
  have D := C49_document v o g d h h1 h2 n hn
  have D' := C49_document v o' g' d' h' (oneRole_same hs h1) (distinctNames_same hs h2) n (documentNode_same hs hn)
  have ha := aboutOne_of g n
  have hm := hs.of n
  have hn' : d.namespace_ = d'.namespace_ ∧ d.spdxId = d'.spdxId := by
    obtain ⟨a, b, q1, q2, q3, q4⟩ := D.names
    obtain ⟨a', b', r1, r2, r3, r4⟩ := D'.names
    obtain ⟨rfl, rfl⟩ := hash_one (q1.symm.trans r1) q2 r2
    exact ⟨q3.trans r3.symm, q4.trans r4.symm⟩
  refine ⟨said_same ho ha hm (by decide) D.version D'.version, lastLicense_same hs ho ha hm (by decide) D.dataLicense D'.dataLicense, hn'.2,
    said_same ho ha hm (by decide) D.name D'.name, hn'.1, ?_, said_same ho ha hm (by decide) D.comment D'.comment, ?_,
    packages_alike hs ho h1 h2 h3 h4 h5 h h', loose_alike hs ho h1 h2 h3 h4 h5 h h', ?_, relationships_alike hs ho h1 h2 h3 h4 h h',
    annotations_alike hs ho h1 h2 h3 h4 h h', (load_snippets h).trans (load_snippets h').symm, ?_⟩
  · refine each_by D.externals D'.externals hm fun m hm' a b q q' => ?_
    obtain ⟨t, ht, hp, rfl⟩ := vals_source hm'
    exact externalDocument_same hs ho ⟨t, (mem_of ht).1, hp, rfl⟩ q q'
  · obtain ⟨c, e1, q⟩ := D.creation
    obtain ⟨c', e2, q'⟩ := D'.creation
    rw [e1, e2]
    obtain ⟨r1, r2⟩ := nodes_of hm (ho.one ha (p := .creationInfo) (by decide)) hs
    exact creation_same ho r1 r2 q q'
  · exact each_alike (R := fun m => OtherLicenseSays g (g.about m.id)) (R' := fun m => OtherLicenseSays g' (g'.about m.id)) hm
      (fun m _ a b q q' => otherLicense_same ho (aboutOne_about g m.id) (hs.about m.id) q q') D.licenses D'.licenses
  · exact each_by D.reviews D'.reviews hm fun m _ a b q q' => review_same ho (aboutOne_of g m) (hs.of m) q q'

/-- C70: whether a graph can be loaded does not depend on the order of its statements either. -/
theorem C70_loaded (v : Version) (o o' : MapOrder) (g g' : Graph) (d : Doc) (hr : Reordered g g') (ho : SaidOnce g) (h1 : OneRole g)
    (h2 : DistinctNames g) (h3 : NamedNodes g) (h4 : OneOwner g) (h5 : DistinctSnippets g) (h6 : LicensesApart g) (h7 : SnippetFilesTrimmed g)
    (h : loadGraph v o g = .ok d) : ∃ d', loadGraph v o' g' = .ok d' ∧ SameDocument d d' := by
  have hs := hr.same
  obtain ⟨d', h'⟩ := C54_accepted v o' g' (oneRole_same hs h1) (distinctNames_same hs h2) (apart_same hs h6)
    (legal_again hr ho (C54_only_legal v o g h1 h2 h3 h4 h7 d h))
  exact ⟨d', h', C70_same v o o' g g' d d' hs ho h1 h2 h3 h4 h5 h h'⟩

theorem saysVersion_again {g g' : Graph} {v : Version} (hs : SameStatements g g') (hv : OneVersion g) (h : SaysVersion g v) : SaysVersion g' v := by
  obtain ⟨a, t, b, e, _, h1, h2⟩ := h
  have ht : t ∈ g.triples := by rw [e]; simp
  have ex : ∃ u ∈ g'.triples.reverse, u.pred = .specVersion := ⟨t, List.mem_reverse.2 ((hs.triples t).1 ht), h1⟩
  obtain ⟨a', u, b', e', hu, hb⟩ := split_at_last ex
  have e2 : g'.triples = b'.reverse ++ u :: a'.reverse := by
    rw [← List.reverse_reverse g'.triples, e']; simp
  refine ⟨b'.reverse, u, a'.reverse, e2, fun x hx => hb x (List.mem_reverse.1 hx), hu, ?_⟩
  rw [hv u ((hs.triples u).2 (by rw [e2]; simp)) t ht hu h1]
  exact h2

/-- C70: reading a graph whose statements come in another order has the same outcome: a document that is the same up to the
order and number of the members of lists. -/
theorem C70_read (o o' : MapOrder) (g g' : Graph) (d : Doc) (hr : Reordered g g') (hv : OneVersion g) (ho : SaidOnce g) (h1 : OneRole g)
    (h2 : DistinctNames g) (h3 : NamedNodes g) (h4 : OneOwner g) (h5 : DistinctSnippets g) (h6 : LicensesApart g) (h7 : SnippetFilesTrimmed g)
    (h : readGraph o g = .ok d) : ∃ d', readGraph o' g' = .ok d' ∧ SameDocument d d' := by
  obtain ⟨v, q1, q2⟩ := (readGraph_ok o g d).1 h
  obtain ⟨d', q3, q4⟩ := C70_loaded v o o' g g' d hr ho h1 h2 h3 h4 h5 h6 h7 q2
  exact ⟨d', (readGraph_ok o' g' d').2 ⟨v, saysVersion_again hr.same hv q1, q3⟩, q4⟩

/-- C70: or an error for both. -/
theorem C70_error (o o' : MapOrder) (g g' : Graph) (hr : Reordered g g') (hv : OneVersion g) (ho : SaidOnce g) (h1 : OneRole g)
    (h2 : DistinctNames g) (h3 : NamedNodes g) (h4 : OneOwner g) (h5 : DistinctSnippets g) (h6 : LicensesApart g) (h7 : SnippetFilesTrimmed g) :
    (∃ d, readGraph o g = .ok d) ↔ ∃ d, readGraph o' g' = .ok d := by
  have hs := hr.same
  constructor
  · rintro ⟨d, h⟩
    obtain ⟨d', h', _⟩ := C70_read o o' g g' d hr hv ho h1 h2 h3 h4 h5 h6 h7 h
    exact ⟨d', h'⟩
  · rintro ⟨d, h⟩
    have hv' : OneVersion g' := fun t ht u hu => hv t ((hs.triples t).2 ht) u ((hs.triples u).2 hu)
    obtain ⟨d', h', _⟩ := C70_read o' o g' g d hr.symm hv' (saidOnce_same hs ho) (oneRole_same hs h1) (distinctNames_same hs h2)
      (namedNodes_same hs h3) (oneOwner_same hs h4) (distinctSnippets_same hs h5) (apart_same hs h6) (trimmed_same hs h7) h
    exact ⟨d', h'⟩

/-! ## Examples and counterexamples -/

/-- The rich graph with one range, and with a license set for the file. -/
def rdfSet : Graph :=
  { rdfRich with
    triples := rdfRich.triples.take 25 ++ rdfRich.triples.drop 31 ++
      [linkTo (exId g!"f") (spdxTerm g!"licenseConcluded") g!"set",
       classTo g!"set" g!"ConjunctiveLicenseSet",
       linkTo g!"set" (spdxTerm g!"member") g!"http://spdx.org/licenses/MIT",
       linkTo g!"set" (spdxTerm g!"member") g!"http://spdx.org/licenses/Apache-2.0"] }

/-- The graph with its statements turned round. -/
def rdfTurned : Graph := { rdfSet with triples := rdfSet.triples.reverse, roots := rdfSet.roots.reverse }

theorem rdfSet_turned : Reordered rdfSet rdfTurned := ⟨(List.reverse_perm _).symm, (List.reverse_perm _).symm, rfl⟩

theorem rdfSet_once : SaidOnce rdfSet where
  once := by
    have : ∀ t ∈ rdfSet.triples, ∀ u ∈ rdfSet.triples, t.subject.id = u.subject.id → t.pred = u.pred → t.pred ∉ repeatable → t.object = u.object := by
      decide +kernel
    exact this
  externals := by
    have : ∀ e ∈ rdfSet.triples, e.pred ≠ .externalDocumentRef := by decide +kernel
    exact fun e he hp => absurd hp (this e he)
  pointers := by
    have : ∀ t ∈ rdfSet.triples, ∀ u ∈ rdfSet.triples, t.subject.id = u.subject.id → t.pred = .offset → u.pred ≠ .lineNumber := by
      decide +kernel
    exact this

theorem rdfSet_roles : OneRole rdfSet := oneRole_of (by decide +kernel) (by decide +kernel)
theorem rdfSet_names : DistinctNames rdfSet := distinctNames_of (by decide +kernel) (by decide +kernel)
theorem rdfSet_nodes : NamedNodes rdfSet := by
  rintro t ht n ⟨u, hu, hp, rfl⟩ e
  have : ∀ t ∈ rdfSet.triples, ∀ u ∈ rdfSet.triples,
      u.pred ∈ [.hasFile, .fileDependency, .snippetFromFile, .reference, .describesPackage, .relatedSpdxElement] →
      t.subject.id = u.object.id → t.subject = u.object := by decide +kernel
  exact this t ht u hu hp e
theorem rdfSet_owner : OneOwner rdfSet := by
  intro t ht u hu
  have : ∀ t ∈ rdfSet.triples, ∀ u ∈ rdfSet.triples, t.pred = .relationship → u.pred = .relationship → t.object.id = u.object.id → t = u := by
    decide +kernel
  exact this t ht u hu
theorem rdfSet_snippets : DistinctSnippets rdfSet := by
  rintro n m id ⟨_, t, ht, rfl, hp, hc⟩ ⟨_, u, hu, rfl, hp', hc'⟩ _ _
  have : ∀ t ∈ rdfSet.triples, ∀ u ∈ rdfSet.triples, Cls.ofStr t.object.id = .snippet → Cls.ofStr u.object.id = .snippet → t.subject = u.subject := by
    decide +kernel
  exact this t ht u hu hc hc'
theorem rdfSet_apart : LicensesApart rdfSet := apart_of (by decide +kernel)
theorem rdfSet_trimmed : SnippetFilesTrimmed rdfSet := by
  have : ∀ t ∈ rdfSet.triples, t.pred = .snippetFromFile → trimSpace t.object.id = t.object.id := by decide +kernel
  exact this
theorem rdfSet_version : OneVersion rdfSet := by
  have : ∀ t ∈ rdfSet.triples, ∀ u ∈ rdfSet.triples, t.pred = .specVersion → u.pred = .specVersion → t.object.id = u.object.id := by
    decide +kernel
  exact this

def shownLicenses (d : Doc) : List (Str × Str) := (allFiles d).map fun f => (f.spdxId, f.licenseConcluded)

/-- Non-vacuity: the graph meets all the conditions, both it and the one with its statements turned round are read, and the
documents are the same up to order. -/
theorem C70_sample : ∃ d d', readGraph .same rdfSet = .ok d ∧ readGraph .same rdfTurned = .ok d' ∧ SameDocument d d' := by
  have : (readGraph .same rdfSet).map shownNames =
      .ok (g!"SPDXRef-DOCUMENT", g!"http://ex.org/d", g!"doc", some [{ creatorType := g!"Tool", creator := g!"x" }]) := by decide +kernel
  obtain ⟨d, h, _⟩ := ROut.map_ok this
  obtain ⟨d', h', hd⟩ := C70_read .same .same _ _ d rdfSet_turned rdfSet_version rdfSet_once rdfSet_roles rdfSet_names rdfSet_nodes rdfSet_owner
    rdfSet_snippets rdfSet_apart rdfSet_trimmed h
  exact ⟨d, d', h, h', hd⟩

/-- C70: "the documents are equal" is false: the members of a license set are printed in the order in which they come. -/
theorem C70_equal_false : (readGraph .same rdfSet).map shownLicenses =
      .ok [(g!"h", []), (g!"f", g!"MIT AND Apache-2.0"), (g!"f", g!"MIT AND Apache-2.0"), (g!"f", g!"MIT AND Apache-2.0"), (g!"f", g!"MIT AND Apache-2.0")] ∧
    (readGraph .same rdfTurned).map shownLicenses =
      .ok [(g!"h", []), (g!"f", g!"Apache-2.0 AND MIT"), (g!"f", g!"Apache-2.0 AND MIT"), (g!"f", g!"Apache-2.0 AND MIT"), (g!"f", g!"Apache-2.0 AND MIT")] := by
  decide +kernel

/-- C70: nor are the ends of ranges in the same file: the file must come before the range. -/
theorem C70_ranges_false : (readGraph .same rdfSet).map shownSnippets =
      .ok [[(g!"s", [{ startPointer := { lineNumber := 1, fileSpdxId := g!"h" }, endPointer := { lineNumber := 2, fileSpdxId := g!"h" } }])], [], [], [], []] ∧
    (readGraph .same rdfTurned).map shownSnippets =
      .ok [[(g!"s", [{ startPointer := { lineNumber := 1, fileSpdxId := [] }, endPointer := { lineNumber := 2, fileSpdxId := [] } }])], [], [], [], []] := by
  decide +kernel

/-- A package with two names. -/
def rdfTwoNames (a b : Str) : Graph := exampleGraph
  [classTo (exId g!"DOCUMENT") g!"SpdxDocument",
   valueTo (exId g!"DOCUMENT") (spdxTerm g!"specVersion") g!"SPDX-2.3",
   linkTo (exId g!"DOCUMENT") (spdxTerm g!"describesPackage") (exId g!"p"),
   classTo (exId g!"p") g!"Package",
   valueTo (exId g!"p") (spdxTerm g!"name") a,
   valueTo (exId g!"p") (spdxTerm g!"name") b]
  [exId g!"DOCUMENT"]

/-- C70: without the condition that nothing is said twice, order matters: the last name is kept. -/
theorem C70_once_false : Reordered (rdfTwoNames g!"x" g!"y") (rdfTwoNames g!"y" g!"x") ∧
    (readGraph .same (rdfTwoNames g!"x" g!"y")).map (fun d => d.packages.map (·.name)) = .ok [g!"y", g!"y"] ∧
    (readGraph .same (rdfTwoNames g!"y" g!"x")).map (fun d => d.packages.map (·.name)) = .ok [g!"x", g!"x"] := by
  refine ⟨⟨?_, List.Perm.refl _, rfl⟩, by decide +kernel, by decide +kernel⟩
  exact .cons _ (.cons _ (.cons _ (.cons _ (.swap _ _ _))))

/-- The rich graph with the class of the document repeated. -/
def rdfRepeated : Graph := { rdfSet with triples := classTo (exId g!"DOCUMENT") g!"SpdxDocument" :: rdfSet.triples }

/-- C70: a graph with a repeated statement says the same, but may not be read. -/
theorem C70_repeated_false : SameStatements rdfSet rdfRepeated ∧ (readGraph .same rdfRepeated).map shownNames = .err := by
  refine ⟨⟨fun t => ?_, fun _ => Iff.rfl, rfl⟩, by decide +kernel⟩
  have : classTo (exId g!"DOCUMENT") g!"SpdxDocument" ∈ rdfSet.triples := by decide +kernel
  simp only [rdfRepeated, List.mem_cons]
  exact ⟨.inr, fun h => h.elim (fun e => e ▸ this) id⟩

end Verif
