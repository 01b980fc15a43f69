import Verif.Lemmas.RdfSavable
import Verif.Props.C12_RoundTrip
import Verif.Props.C46_BuiltRoundTrip
import Verif.Spec.RdfTextable

/-!
# Documents read from RDF and tag-value
-/

namespace Verif
open Spec Spec.Rdf

/-! ## The writer does not see the files of ranges -/

/-- Elements with the same key are the same: then sorting commutes with changes that keep the key. -/
theorem sort_map {α β : Type} (so : Sorter) {k : α → Str} {k' : β → Str} {f : α → β} (hk : ∀ a, k' (f a) = k a) {l : List α}
    (h : ∀ a ∈ l, ∀ b ∈ l, k a = k b → a = b) : so.run k' (l.map f) = (so.run k l).map f := by
  have hp : (so.run k' (l.map f)).Perm ((so.run k l).map f) := (so.perm k' _).trans ((so.perm k l).symm.map f)
  refine hp.eq_of_pairwise ?_ (so.sorted k' _) ?_
  · intro x y hx hy h1 h2
    obtain ⟨a, ha, rfl⟩ := List.mem_map.1 ((so.perm k' _).mem_iff.1 hx)
    obtain ⟨b, hb, rfl⟩ := List.mem_map.1 hy
    have := strLe_antisymm h1 h2
    rw [hk, hk] at this
    rw [h a ha b ((so.perm k l).mem_iff.1 hb) this]
  · rw [List.pairwise_map]
    refine (so.sorted k l).imp fun {a b} h => ?_
    rw [hk, hk]; exact h

theorem mapGet_map {α β : Type} (f : α → β) (k : Str) : ∀ m : List (Str × α), mapGet k (m.map fun e => (e.1, f e.2)) = (mapGet k m).map f
  | [] => rfl
  | (a, b) :: m => by
    simp only [List.map_cons, mapGet]
    split
    · rfl
    · exact mapGet_map f k m

theorem renderRange_unplaced (r : SnippetRange) : renderRange (unplaced r) = renderRange r := rfl

theorem renderSnippet_unplaced (v : Version) (s : Snippet) : renderSnippet v { s with ranges := s.ranges.map unplaced } = renderSnippet v s := by
  have : (s.ranges.map unplaced).flatMap renderRange = s.ranges.flatMap renderRange := by
    rw [List.flatMap_map]; rfl
  unfold renderSnippet
  dsimp only
  rw [this]

theorem renderFile_left (v : Version) (so : Sorter) (f : FileV) : renderFile v so (leftFileText f) = renderFile v so f := by
  have e : snippetsInOrder so (leftFileText f) = (snippetsInOrder so f).map fun s => { s with ranges := s.ranges.map unplaced } := by
    unfold snippetsInOrder leftFileText
    dsimp only
    rw [List.map_map, List.map_filterMap]
    have h1 : (Prod.fst ∘ fun e : Str × Snippet => (e.1, { e.2 with ranges := e.2.ranges.map unplaced })) = Prod.fst := rfl
    rw [h1]
    congr 1
    funext k
    exact mapGet_map (fun s : Snippet => { s with ranges := s.ranges.map unplaced }) k f.snippets
  have h2 : renderFileFields v (leftFileText f) = renderFileFields v f := rfl
  unfold renderFile
  rw [e, h2, List.flatMap_map]
  congr 1
  exact congrArg (fun F => (snippetsInOrder so f).flatMap F) (funext fun s => renderSnippet_unplaced v s)

/-- Elements with the same identifier are the same. -/
structure SameIds (d : Doc) : Prop where
  files : ∀ a ∈ d.files, ∀ b ∈ d.files, a.spdxId = b.spdxId → a = b
  packages : ∀ a ∈ d.packages, ∀ b ∈ d.packages, a.spdxId = b.spdxId → a = b
  packageFiles : ∀ p ∈ d.packages, ∀ a ∈ p.files, ∀ b ∈ p.files, a.spdxId = b.spdxId → a = b

theorem flatMap_congr {α β : Type} {f g : α → List β} : ∀ {l : List α}, (∀ a ∈ l, f a = g a) → l.flatMap f = l.flatMap g
  | [], _ => rfl
  | a :: l, h => by
    simp only [List.flatMap_cons]
    rw [h a (by simp), flatMap_congr (l := l) fun b hb => h b (by simp [hb])]

theorem renderPackage_left (v : Version) (so : Sorter) (p : PackageV) (h : ∀ a ∈ p.files, ∀ b ∈ p.files, a.spdxId = b.spdxId → a = b) :
    renderPackage v so { p with files := p.files.map leftFileText } = renderPackage v so p := by
  have h1 : renderPackageFields v { p with files := p.files.map leftFileText } = renderPackageFields v p := rfl
  unfold renderPackage sortPackageFiles
  dsimp only
  rw [h1, sort_map so (k := fun f : FileV => f.spdxId) (k' := fun f : FileV => f.spdxId) (f := leftFileText) (fun _ => rfl) h, List.flatMap_map]
  rw [flatMap_congr (l := so.run (fun f : FileV => f.spdxId) p.files) fun f _ => renderFile_left v so f]

theorem writeTagValue_left (v : Version) (so : Sorter) {d : Doc} (h : SameIds d) : writeTagValue v so (leftInText d) = writeTagValue v so d := by
  have e : ∀ ci, renderBody v so (leftInText d) ci = renderBody v so d ci := by
    intro ci
    have h1 : renderHeader so (leftInText d) = renderHeader so d := rfl
    have h2 : renderTail (leftInText d) = renderTail d := rfl
    have h3 : heading (leftInText d).files g!"##### Unpackaged files" = heading d.files g!"##### Unpackaged files" := by
      show heading (d.files.map leftFileText) _ = _
      unfold heading
      simp only [List.map_eq_nil_iff]
    have h4 : (so.run (fun f : FileV => f.spdxId) (leftInText d).files).flatMap (renderFile v so) =
        (so.run (fun f : FileV => f.spdxId) d.files).flatMap (renderFile v so) := by
      show (so.run (fun f : FileV => f.spdxId) (d.files.map leftFileText)).flatMap _ = _
      rw [sort_map so (k := fun f : FileV => f.spdxId) (k' := fun f : FileV => f.spdxId) (f := leftFileText) (fun _ => rfl) h.files, List.flatMap_map]
      exact flatMap_congr fun f _ => renderFile_left v so f
    have h5 : (so.run (fun p : PackageV => p.spdxId) (leftInText d).packages).flatMap (renderPackageGroup v so) =
        (so.run (fun p : PackageV => p.spdxId) d.packages).flatMap (renderPackageGroup v so) := by
      show (so.run (fun p : PackageV => p.spdxId) (d.packages.map fun p => { p with files := p.files.map leftFileText })).flatMap _ = _
      rw [sort_map so (k := fun p : PackageV => p.spdxId) (k' := fun p : PackageV => p.spdxId)
        (f := fun p : PackageV => { p with files := p.files.map leftFileText }) (fun _ => rfl) h.packages, List.flatMap_map]
      refine flatMap_congr fun p hp => ?_
      unfold renderPackageGroup
      dsimp only
      rw [renderPackage_left v so p (h.packageFiles p ((so.perm _ _).mem_iff.1 hp))]
    unfold renderBody
    rw [h1, h2, h3, h4, h5]
  have hc : (leftInText d).creationInfo = d.creationInfo := rfl
  unfold writeTagValue renderDocument
  rw [hc]
  cases d.creationInfo with
  | none => rfl
  | some ci => simp only [Res.bind_ok, e]

/-! ## Names -/

theorem solid_right {a b : Str} (h : Spec.Solid (a ++ b)) : Spec.Solid b :=
  ⟨fun c hc => h.1 c (by simp [hc]), contains_part (a := a) (w := b) (b := []) (by simp) h.2⟩

theorem solid_left {a b : Str} (h : Spec.Solid (a ++ b)) : Spec.Solid a :=
  ⟨fun c hc => h.1 c (by simp [hc]), contains_part (a := []) (w := a) (b := b) (by simp) h.2⟩

theorem solid_oneLine {a : Str} (h : Spec.Solid a) : OneLine a := by
  by_cases e : a = []
  · subst e; exact oneLine_nil
  · exact (line1_of_word ⟨e, h⟩).2

theorem solid_trim {a : Str} (h : Spec.Solid a) : trimSpace a = a := (solid_oneLine h).2.1

theorem solid_lastPart {x part : Str} (h : Spec.Solid x) (hp : LastPart x part) : Spec.Solid part := by
  rcases hp with ⟨_, p, rfl⟩ | ⟨_, ⟨_, p, rfl⟩ | ⟨_, rfl⟩⟩
  · rw [← List.singleton_append, ← List.append_assoc] at h; exact solid_right h
  · rw [← List.singleton_append, ← List.append_assoc] at h; exact solid_right h
  · exact h

theorem solid_upper {x : Str} (h : Spec.Solid x) : Spec.Solid (toUpper x) := by
  constructor
  · intro c hc
    obtain ⟨a, ha, rfl⟩ := List.mem_map.1 hc
    rcases upperChar_cases a with e | e
    · rw [e]; exact h.1 a ha
    · unfold isSpace
      generalize (upperChar a).toNat = n at e
      simp only [Bool.or_eq_false_iff, Bool.and_eq_false_iff, decide_eq_false_iff_not, beq_eq_false_iff_ne]
      omega
  · refine contains_false_iff.2 fun a b e => ?_
    have : 'e' ∈ toUpper x := by rw [e]; simp
    obtain ⟨c, _, hc⟩ := List.mem_map.1 this
    exact upperChar_not_e c hc

theorem ident_named {x id : Str} (h : Spec.Solid x) (hn : NamesElement x id) : Ident id := by
  obtain ⟨hne, hc, pre, rfl, _⟩ := hn
  exact ⟨⟨hne, solid_right h⟩, hc⟩

theorem ident_package {x id : Str} (h : Spec.Solid x) (hn : PackageIdOf x id) : Ident id := ident_named h ((C43_package_id x id).1 hn)

theorem ident_file {x id : Str} (h : Spec.Solid x) (hn : FileIdOf x id) : Ident id := by
  have := (C43_file_id x id).1 hn
  rw [solid_trim h] at this
  exact ident_named h this

theorem repRef_id {id : Str} (h : Ident id) : RepRef { elementRefID := id } := ⟨h, .inl rfl, rfl⟩

theorem repRef_reads {x : Str} {r : DocElementID} (h : Spec.Solid x) (hr : RefReads x r) : RepRef r := by
  obtain ⟨⟨⟨hne, hc⟩, hd, hs⟩, ⟨e1, rfl⟩ | ⟨hdn, rfl⟩⟩ := hr
  · exact ⟨⟨⟨hne, solid_right h⟩, hc⟩, .inl e1, hs⟩
  · exact ⟨⟨⟨hne, solid_right h⟩, hc⟩, .inr ⟨⟨hdn, solid_right (solid_left (solid_left h))⟩, hd⟩, hs⟩

theorem repRef_reference {n : RNode} {r : DocElementID} (h : Spec.Solid n.id) (hr : ReferenceSays n r) : RepRef r := by
  obtain ⟨x, hx, ⟨hl, rfl⟩ | ⟨_, hr⟩⟩ := hr
  · have hs := solid_lastPart h hx
    refine repRef_id ⟨⟨?_, solid_upper hs⟩, ?_⟩
    · intro e
      rw [toUpper, List.map_eq_nil_iff] at e
      subst e
      exact absurd hl (by decide)
    · intro hc
      obtain ⟨a, ha, e⟩ := List.mem_map.1 hc
      have hcol : a = ':' := by
        rcases upperChar_cases a with e' | e'
        · rw [← e', e]
        · rw [e] at e'; exact absurd e' (by decide)
      subst hcol
      rw [solid_trim hs] at hl
      have : ':' ∈ toLower x := List.mem_map.2 ⟨':', ha, by decide⟩
      simp only [List.mem_cons, List.not_mem_nil, or_false] at hl
      rcases hl with e | e <;> (rw [e] at this; exact absurd this (by decide))
  · exact repRef_reads (solid_lastPart h hx) hr

theorem repRef_related {g : Graph} {n : RNode} {r : DocElementID} (h : Spec.Solid n.id) (hr : RelatedSays g n r) : RepRef r := by
  obtain ⟨x, hx, ⟨_, rfl⟩ | ⟨t, _, ⟨_, id, hi, rfl⟩ | ⟨_, id, hi, rfl⟩ | ⟨_, y, hy, hr⟩⟩⟩ := hr
  · exact repRef_reference h hx
  · exact repRef_id (ident_file h hi)
  · exact repRef_id (ident_package h hi)
  · exact repRef_reads (solid_lastPart h hy) hr

theorem licenseName_oneLine {n : RNode} {x : Str} (h : Spec.Solid n.id) (hx : LicenseNameSays n x) : OneLine x := by
  obtain ⟨e, he, ⟨_, rfl⟩ | ⟨_, rfl⟩⟩ := hx
  · rw [solid_trim (solid_lastPart h he)]; exact solid_oneLine (solid_upper (solid_lastPart h he))
  · rw [solid_trim (solid_lastPart h he)]; exact solid_oneLine (solid_lastPart h he)

/-! ## Agents -/

theorem line1_agentName {x kind name : Str} (h : LineAgent x) (hp : ColonPair x kind name) : Line1 name := by
  have hne := h.2.2 _ _ hp
  obtain ⟨a, b, rfl, _, rfl, rfl⟩ := hp
  refine ⟨hne, fun hn => h.1 ?_, trim_trim isSpace _, ?_⟩
  · have := mem_of_mem_trim hn
    simp [this]
  · exact contains_trim (contains_part (a := a ++ g!":") (w := b) (b := []) (by simp) h.2.1)

/-! ## Values -/

/-- Statements of the graph. -/
def Within (g : Graph) (ts : List Triple) : Prop := ∀ t ∈ ts, t ∈ g.triples

theorem textWithin_of {g : Graph} {n : RNode} : Within g (g.of n) := fun _ h => (mem_of h).1

theorem within_many {g : Graph} {ns : List RNode} : Within g (ns.flatMap g.of) := fun t h => by
  obtain ⟨n, _, h⟩ := List.mem_flatMap.1 h
  exact (mem_of h).1

theorem within_about {g : Graph} {x : Str} : Within g (g.about x) := fun _ h => (List.mem_filter.1 h).1

theorem vals_within {g : Graph} {ts : List Triple} (hw : Within g ts) {p : Pred} {m : RNode} (h : m ∈ vals ts p) :
    ∃ t ∈ g.triples, t.pred = p ∧ t.object = m := by
  obtain ⟨t, ht, q⟩ := vals_source h
  exact ⟨t, hw t ht, q⟩

theorem vals_ne {ts : List Triple} {p : Pred} (h : ∃ t ∈ ts, t.pred = p) : vals ts p ≠ [] := by
  obtain ⟨t, ht, hp⟩ := h
  intro e
  have : t.object ∈ vals ts p := List.mem_map.2 ⟨t, List.mem_filter.2 ⟨ht, by simp [hp]⟩, rfl⟩
  rw [e] at this
  exact absurd this (by simp)

section
variable {g : Graph} (hs : TextGraph g) {ts : List Triple} (hw : Within g ts) {p : Pred} {x : Str}
include hs hw

theorem text_line (hp : p ∈ lineProps) (h : LastOf Text [] (vals ts p) x) : OneLine x := by
  rcases lastOf_cases h with rfl | ⟨m, hm, rfl⟩
  · exact oneLine_nil
  · obtain ⟨t, ht, rfl, rfl⟩ := vals_within hw hm
    exact hs.line t ht hp

theorem text_uri (hp : p ∈ lineProps) (h : LastOf (UriSays g) [] (vals ts p) x) : OneLine x := by
  rcases lastOf_cases h with rfl | ⟨m, hm, _, rfl⟩
  · exact oneLine_nil
  · obtain ⟨t, ht, rfl, rfl⟩ := vals_within hw hm
    exact hs.line t ht hp

theorem text_lines {xs : List Str} (hp : p ∈ lineProps) (h : EachOf Text (vals ts p) xs) : ∀ x ∈ xs, OneLine x := by
  intro x hx
  obtain ⟨m, hm, rfl⟩ := pointwise_right h x hx
  obtain ⟨t, ht, rfl, rfl⟩ := vals_within hw hm
  exact hs.line t ht hp

theorem text_uris {xs : List Str} (hp : p ∈ lineProps) (h : EachOf (UriSays g) (vals ts p) xs) : ∀ x ∈ xs, OneLine x := by
  intro x hx
  obtain ⟨m, hm, _, rfl⟩ := pointwise_right h x hx
  obtain ⟨t, ht, rfl, rfl⟩ := vals_within hw hm
  exact hs.line t ht hp

theorem text_name (hp : p ∈ nameProps) (hg : ∃ t ∈ ts, t.pred = p) (h : LastOf Text [] (vals ts p) x) : Line1 x := by
  obtain ⟨m, hm, rfl⟩ := lastOf_source h (vals_ne hg)
  obtain ⟨t, ht, rfl, rfl⟩ := vals_within hw hm
  exact hs.name t ht hp

theorem text_title (hp : p ∈ nameProps) (h : LastOf Text [] (vals ts p) x) : OneLine x := by
  rcases lastOf_cases h with rfl | ⟨m, hm, rfl⟩
  · exact oneLine_nil
  · obtain ⟨t, ht, rfl, rfl⟩ := vals_within hw hm
    exact (hs.name t ht hp).2

theorem text_word (hp : p ∈ wordProps) (hg : ∃ t ∈ ts, t.pred = p) (h : LastOf Text [] (vals ts p) x) : Word x := by
  obtain ⟨m, hm, rfl⟩ := lastOf_source h (vals_ne hg)
  obtain ⟨t, ht, rfl, rfl⟩ := vals_within hw hm
  exact hs.word t ht hp

theorem text_text (hp : p ∈ textProps) (h : LastOf Text [] (vals ts p) x) : GoodValue x := by
  rcases lastOf_cases h with rfl | ⟨m, hm, rfl⟩
  · decide
  · obtain ⟨t, ht, rfl, rfl⟩ := vals_within hw hm
    exact hs.text t ht hp

theorem text_texts {xs : List Str} (hp : p ∈ textProps) (h : EachOf Text (vals ts p) xs) : ∀ x ∈ xs, GoodValue x := by
  intro x hx
  obtain ⟨m, hm, rfl⟩ := pointwise_right h x hx
  obtain ⟨t, ht, rfl, rfl⟩ := vals_within hw hm
  exact hs.text t ht hp

theorem text_license (hp : p ∈ licenseProps) (h : LastOf (LicenseSays g) [] (vals ts p) x) : OneLine x := by
  rcases lastOf_cases h with rfl | ⟨m, hm, l, hl, rfl⟩
  · exact oneLine_nil
  · obtain ⟨t, ht, rfl, rfl⟩ := vals_within hw hm
    exact hs.license t ht hp l hl

theorem text_licenses {xs : List Str} (hp : p ∈ licenseProps) (h : EachOf (LicenseSays g) (vals ts p) xs) : ∀ x ∈ xs, OneLine x := by
  intro x hx
  obtain ⟨m, hm, l, hl, rfl⟩ := pointwise_right h x hx
  obtain ⟨t, ht, rfl, rfl⟩ := vals_within hw hm
  exact hs.license t ht hp l hl

theorem text_checksums {v : Version} {cs : List Checksum} (h : EachOf (ElementChecksumSays v g) (vals ts .checksum) cs) :
    ∀ c ∈ cs, RepChecksum v c := by
  intro c hc
  obtain ⟨m, hm, hsay, hk⟩ := pointwise_right h c hc
  obtain ⟨t, ht, hp, rfl⟩ := vals_within hw hm
  refine ⟨?_, ?_⟩
  · revert hk
    generalize c.algorithm = a
    cases v <;> (revert a; decide)
  · obtain ⟨k, hk', e⟩ := lastOf_source hsay.value (vals_ne (hs.needs t ht .checksumValue (by rw [hp]; decide)))
    obtain ⟨u, hu, hup, rfl⟩ := vals_within textWithin_of hk'
    have := hs.word u hu (by rw [hup]; decide)
    rw [e, solid_trim this.2]
    exact line1_of_word this

end

/-! ## The document -/

section
variable {v : Version} {o : MapOrder} {g : Graph} {d : Doc} (hs : TextGraph g) (h : loadGraph v o g = .ok d) (hv : v ≠ .v21)
  (h1 : OneRole g) (h2 : DistinctNames g)

include hs h hv h1 h2

theorem rdf_repSnippet : ∀ f ∈ allFiles d, Ident f.spdxId → ∀ e ∈ f.snippets,
    e.1 = e.2.spdxId ∧ RepSnippet v { e.2 with ranges := e.2.ranges.map unplaced } := by
  intro f hf hid e he
  obtain ⟨n, hn, hi, hk, S, hff⟩ := C53_snippets v o g d h h1 h2 f hf e he
  have hw : Within g (g.of n) := textWithin_of
  refine ⟨hk.symm, ⟨?_, ?_, ?_, text_license hs hw (by decide) S.licenseConcluded, text_licenses hs hw (by decide) S.licenseInfo,
    text_text hs hw (by decide) S.licenseComments, text_text hs hw (by decide) S.copyrightText, text_text hs hw (by decide) S.comment,
    text_title hs hw (by decide) S.name, ?_, ?_⟩⟩
  · show Ident e.2.spdxId
    rw [hk]; exact ident_package (hs.snippet n hn) hi
  · show Ident e.2.fromFile
    rw [hff]; exact hid
  · intro r hr
    obtain ⟨r, hr', rfl⟩ := List.mem_map.1 (show r ∈ e.2.ranges.map unplaced from hr)
    clear hr
    have num : ∀ {m : RNode} {line : Bool} {k : Int}, PointerSays g m line k → RepInt k := by
      intro m line k hp
      obtain ⟨a, t, b, e, _, hpr, hk⟩ := hp.last
      have ht : t ∈ g.triples := (mem_of (n := m) (by rw [e]; simp)).1
      refine ⟨fun e0 => ?_, hk.1, hk.2.1⟩
      subst e0
      exact hs.number t ht (by rw [hpr]; split <;> simp) hk
    rcases S.ranges.2 with ⟨_, e0⟩ | ⟨_, t, _, f', r', _, _, _, _, hrs, e0⟩
    · rw [e0] at hr'; simp at hr'
    · rw [e0] at hr'
      obtain rfl := List.mem_singleton.1 hr'
      obtain ⟨_, c, a, b, line, i, j, _, _, _, pa, pb, rfl⟩ := hrs
      cases line
      · exact .inl ⟨num pa, num pb, rfl⟩
      · exact .inr ⟨num pa, num pb, rfl⟩
  · intro x hx
    have : x ∈ e.2.attributionTexts := hx
    rw [S.attributionTexts] at this
    cases this
  · exact fun e => absurd e hv

theorem rdf_repFile : ∀ f ∈ allFiles d, RepFile v (leftFileText f) := by
  intro f hf
  obtain ⟨x, ts, hu, hi, ⟨ns, hne, hns, rfl⟩, S⟩ := C50_files v o g d h h1 h2 f hf
  have hw : Within g (ns.flatMap g.of) := within_many
  obtain ⟨n, hn⟩ := List.exists_mem_of_ne_nil ns hne
  obtain ⟨rfl, hr⟩ := hns n hn
  obtain ⟨q1, t, ht, hp⟩ := hs.file n hu hr
  have hid : Ident f.spdxId := ident_file q1 hi
  have hsn := rdf_repSnippet hs h hv h1 h2 f hf hid
  refine ⟨text_name hs hw (by decide) ⟨t, List.mem_flatMap.2 ⟨n, hn, ht⟩, hp⟩ S.name, hid, ?_, text_checksums hs hw S.checksums,
    text_license hs hw (by decide) S.licenseConcluded, text_licenses hs hw (by decide) S.licenseInfo, text_text hs hw (by decide) S.licenseComments,
    text_text hs hw (by decide) S.copyrightText, ?_, text_text hs hw (by decide) S.comment, ?_, text_lines hs hw (by decide) S.contributors,
    text_texts hs hw (by decide) S.attributionTexts, fun e => absurd e hv, ?_, ?_, ?_, S.annotations⟩
  · intro x hx
    obtain ⟨m, hm, hx⟩ := pointwise_right S.types x hx
    obtain ⟨u, hu, hup, rfl⟩ := vals_within hw hm
    exact solid_oneLine (solid_right (solid_lastPart (hs.solid u hu (by rw [hup]; decide)) hx))
  · intro a ha
    obtain ⟨m, hm, A⟩ := pointwise_right S.artifacts a ha
    obtain ⟨u, hu, hup, rfl⟩ := vals_within hw hm
    refine ⟨text_line hs textWithin_of (by decide) A.name, text_line hs textWithin_of (by decide) A.homePage, ?_⟩
    rw [A.uri]
    split
    · exact solid_oneLine (hs.solid u hu (by rw [hup]; decide))
    · exact oneLine_nil
  · show GoodValue f.notice
    rcases lastOf_cases S.notice with e | ⟨m, hm, e⟩
    · rw [e]; decide
    · obtain ⟨u, hu, hup, rfl⟩ := vals_within hw hm
      rw [e]
      split
      · decide
      · exact hs.text u hu (by rw [hup]; decide)
  · intro x hx
    obtain ⟨m, hm, hx⟩ := pointwise_right S.dependencies x hx
    obtain ⟨u, hu, hup, rfl⟩ := vals_within hw hm
    have := hs.file u.object (.inl ⟨u, hu, by simp [hup], rfl⟩) ⟨u, hu, by simp [hup], rfl⟩
    exact (line1_of_word (ident_file this.1 hx).1).2
  · intro e he
    obtain ⟨e, he', rfl⟩ := List.mem_map.1 (show e ∈ f.snippets.map _ from he)
    exact hsn e he'
  · have : (leftFileText f).snippets.map (·.1) = f.snippets.map (·.1) := by
      unfold leftFileText
      rw [List.map_map]; rfl
    rw [this]
    exact C53_one_snippet v o g d h h1 h2 f hf

theorem rdf_repPackage : ∀ p ∈ d.packages, RepPackage v { p with files := p.files.map leftFileText } := by
  intro p hp
  obtain ⟨x, ts, hu, hi, ⟨ns, hne, hns, rfl⟩, S⟩ := C51_packages v o g d h h1 h2 p hp
  have hw : Within g (ns.flatMap g.of) := within_many
  obtain ⟨n, hn⟩ := List.exists_mem_of_ne_nil ns hne
  obtain ⟨rfl, hr⟩ := hns n hn
  obtain ⟨q1, ⟨t, ht, htp⟩, ⟨t', ht', htp'⟩⟩ := hs.package n hu hr
  have hfa : vals (ns.flatMap g.of) .filesAnalyzed ≠ [] := vals_ne ⟨t', List.mem_flatMap.2 ⟨n, hn, ht'⟩, htp'⟩
  have analyzed : ∀ q ∈ [Pred.packageVerificationCode, .licenseInfoFromFiles], vals (ns.flatMap g.of) q ≠ [] → p.filesAnalyzed = true := by
    intro q hq hv
    obtain ⟨m, hm⟩ := List.exists_mem_of_ne_nil _ hv
    obtain ⟨t1, ht1, e1, _⟩ := vals_source hm
    obtain ⟨m2, hm2, hb⟩ := lastOf_source S.filesAnalyzed hfa
    obtain ⟨t2, ht2, e2, rfl⟩ := vals_source hm2
    obtain ⟨n1, hn1, ht1⟩ := List.mem_flatMap.1 ht1
    obtain ⟨n2, hn2, ht2⟩ := List.mem_flatMap.1 ht2
    have := hs.analyzed t1 (mem_of ht1).1 (by rw [e1]; exact hq) t2 (mem_of ht2).1 e2
      (by rw [(mem_of ht1).2, (mem_of ht2).2, (hns n1 hn1).1, (hns n2 hn2).1])
    unfold BoolSays at hb
    rw [this] at hb
    cases hfb : p.filesAnalyzed with
    | true => rfl
    | false => rw [hfb] at hb; exact absurd hb (by decide)
  have party : ∀ {q : Pred} {m : RNode} {kind name : Str}, q ∈ [Pred.supplier, .originator] → m ∈ vals (ns.flatMap g.of) q →
      ColonPair (trimSpace m.id) kind name → kind ∈ [g!"Person", g!"Organization"] → RepParty kind name := by
    intro q m kind name hq hm hc hk
    obtain ⟨u, hu, hup, rfl⟩ := vals_within hw hm
    exact .inl ⟨hk, line1_agentName (hs.party u hu (by rw [hup]; exact hq)) hc⟩
  have new : ∀ {q : Pred} {R : RNode → Str → Prop} {x : Str}, q ∈ [Pred.primaryPackagePurpose, .releaseDate, .builtDate, .validUntilDate] →
      v ≠ .v23 → LastOf R [] (vals (ns.flatMap g.of) q) x → x = [] := by
    intro q R x hq hv3 hl
    have : vals (ns.flatMap g.of) q = [] := by
      refine List.eq_nil_iff_forall_not_mem.2 fun m hm => ?_
      obtain ⟨t, ht, hp', _⟩ := vals_source hm
      have := S.only t ht
      rw [hp'] at this
      simp only [packageProps, if_neg hv3, List.append_nil] at this
      clear hp' hm hl
      revert this hq
      revert q
      decide
    rw [this] at hl
    exact lastOf_none hl
  refine ⟨S.unpackaged, text_name hs hw (by decide) ⟨t, List.mem_flatMap.2 ⟨n, hn, ht⟩, htp⟩ S.name, ident_package q1 hi,
    text_line hs hw (by decide) S.version, text_line hs hw (by decide) S.fileName, ?_, ?_, ?_, ?_, ?_, text_checksums hs hw S.checksums,
    text_uri hs hw (by decide) S.homePage, text_text hs hw (by decide) S.sourceInfo, text_license hs hw (by decide) S.licenseConcluded, ?_, ?_,
    text_license hs hw (by decide) S.licenseDeclared, text_text hs hw (by decide) S.licenseComments, text_text hs hw (by decide) S.copyrightText,
    text_text hs hw (by decide) S.summary, text_text hs hw (by decide) S.description, text_text hs hw (by decide) S.comment, ?_,
    text_texts hs hw (by decide) S.attributionTexts, fun e => absurd e hv, ?_, text_line hs hw (by decide) S.releaseDate,
    text_line hs hw (by decide) S.builtDate, text_line hs hw (by decide) S.validUntilDate,
    fun hv3 => ⟨new (by simp) hv3 S.purpose, new (by simp) hv3 S.releaseDate, new (by simp) hv3 S.builtDate, new (by simp) hv3 S.validUntilDate⟩,
    ?_, S.annotations⟩
  · intro s e
    rcases lastOf_cases S.supplier with e' | ⟨m, hm, s', hs', e'⟩
    · have e : p.supplier = some s := e
      rw [e] at e'; cases e'
    · have e : p.supplier = some s := e
      rw [e] at e'
      cases e'
      rcases hs' with ⟨_, e1, e2⟩ | ⟨_, e1, e2⟩
      · rw [e1, e2]; exact .inr ⟨rfl, rfl⟩
      · exact party (by simp) hm e1 e2
  · intro s e
    rcases lastOf_cases S.originator with e' | ⟨m, hm, s', hs', e'⟩
    · have e : p.originator = some s := e
      rw [e] at e'; cases e'
    · have e : p.originator = some s := e
      rw [e] at e'
      cases e'
      rcases hs' with ⟨_, e1, e2⟩ | ⟨_, e1, e2⟩
      · rw [e1, e2]; exact .inr ⟨rfl, rfl⟩
      · exact party (by simp) hm e1 e2
  · show OneLine p.downloadLocation
    rcases lastOf_cases S.downloadLocation with e | ⟨m, hm, ⟨_, e⟩ | ⟨_, e⟩ | ⟨_, _, _, e⟩⟩
    · rw [e]; exact oneLine_nil
    · rw [e]; decide
    · rw [e]; decide
    · obtain ⟨u, hu, hup, rfl⟩ := vals_within hw hm
      rw [e]
      exact hs.line u hu (by rw [hup]; decide)
  · intro _
    obtain ⟨_, _, e⟩ := lastOf_source S.filesAnalyzedTag hfa
    exact e
  · intro c hc
    have hc : p.verificationCode = some c := hc
    rcases S.verificationCode with ⟨_, e⟩ | ⟨hne', y, Y, e⟩
    · rw [e] at hc; cases hc
    · refine ⟨analyzed _ (by simp) hne', ?_⟩
      have hcy : c = y := by
        rw [e] at hc
        split at hc
        · cases hc
        · exact (Option.some.inj hc).symm
      subst hcy
      obtain ⟨m, hm⟩ := List.exists_mem_of_ne_nil _ hne'
      obtain ⟨u, hu, hup, rfl⟩ := vals_within hw hm
      obtain ⟨w, hw1, hw2⟩ := hs.needs u hu .packageVerificationCodeValue (by rw [hup]; decide)
      have hg : ∃ t ∈ (vals (ns.flatMap g.of) .packageVerificationCode).flatMap g.of, t.pred = .packageVerificationCodeValue :=
        ⟨w, List.mem_flatMap.2 ⟨u.object, hm, hw1⟩, hw2⟩
      obtain ⟨k, hk, e3⟩ := lastOf_source Y.value (vals_ne hg)
      obtain ⟨z, hz, hzp, rfl⟩ := vals_within within_many hk
      have e3 : c.value = z.object.id := e3
      refine ⟨by rw [e3]; exact hs.name z hz (by rw [hzp]; decide), by rw [e3]; exact hs.code z hz hzp, .inl ?_⟩
      refine List.eq_nil_iff_forall_not_mem.2 fun x hx => ?_
      obtain ⟨k, hk, _⟩ := pointwise_right Y.excluded x hx
      obtain ⟨z, hz, hzp, _⟩ := vals_within within_many hk
      exact hs.excluded z hz hzp
  · intro x hx
    obtain ⟨m, hm, hx⟩ := pointwise_right S.licenseInfo x hx
    obtain ⟨u, hu, hup, rfl⟩ := vals_within hw hm
    exact licenseName_oneLine (hs.solid u hu (by rw [hup]; decide)) hx
  · intro hf
    have hf : p.filesAnalyzed = false := hf
    show p.licenseInfoFromFiles = []
    refine List.eq_nil_iff_forall_not_mem.2 fun x hx => ?_
    obtain ⟨m, hm, _⟩ := pointwise_right S.licenseInfo x hx
    have := analyzed .licenseInfoFromFiles (by simp) (List.ne_nil_of_mem hm)
    rw [hf] at this
    cases this
  · intro r hr
    obtain ⟨m, hm, R⟩ := pointwise_right S.externalRefs r hr
    obtain ⟨u, hu, hup, rfl⟩ := vals_within hw hm
    have need : ∀ q ∈ [Pred.referenceCategory, .referenceType, .referenceLocator], ∃ t ∈ g.of u.object, t.pred = q :=
      fun q hq => hs.needs u hu q (by rw [hup]; exact hq)
    refine ⟨?_, text_word hs textWithin_of (by decide) (need _ (by simp)) R.type, text_word hs textWithin_of (by decide) (need _ (by simp)) R.locator,
      text_text hs textWithin_of (by decide) R.comment⟩
    obtain ⟨k, _, e⟩ := lastOf_source R.category (vals_ne (need _ (by simp)))
    simp only [CategorySays, List.mem_cons, Prod.mk.injEq, List.not_mem_nil, or_false] at e
    rcases e with ⟨_, e⟩ | ⟨_, e⟩ | ⟨_, e⟩ <;> (rw [e]; decide)
  · show OneLine p.primaryPurpose
    rcases lastOf_cases S.purpose with e | ⟨m, _, _, _, ⟨hy, e⟩ | ⟨_, e⟩⟩
    · rw [e]; exact oneLine_nil
    · rw [← e] at hy
      revert hy
      generalize p.primaryPurpose = y
      revert y
      decide
    · rw [e]; exact oneLine_nil
  · intro f hf
    obtain ⟨f, hf', rfl⟩ := List.mem_map.1 (show f ∈ p.files.map leftFileText from hf)
    exact rdf_repFile hs h hv h1 h2 f (List.mem_append.2 (.inr (List.mem_flatMap.2 ⟨p, hp, hf'⟩)))

theorem rdf_representable (hd : OneLine d.spdxVersion) : Representable v (leftInText d) := by
  obtain ⟨n, hn, _⟩ := C49_one_document v o g d h h1 h2
  have D := C49_document v o g d h h1 h2 n hn
  have hw : Within g (g.of n) := textWithin_of
  obtain ⟨hsol, hci, hcol⟩ := hs.document n hn
  obtain ⟨a, b, e, ha, e1, e2⟩ := D.names
  have hsa : Spec.Solid a := by rw [e] at hsol; exact solid_left hsol
  have hsb : Spec.Solid b := by
    rw [e, ← List.singleton_append, ← List.append_assoc] at hsol; exact solid_right hsol
  refine ⟨hd, text_license hs hw (by decide) D.dataLicense, ?_, text_title hs hw (by decide) D.name, ?_, ?_, text_text hs hw (by decide) D.comment, ?_,
    ?_, ?_, ?_, ?_, ?_, D.snippets, ?_⟩
  · show d.spdxId = [] ∨ Ident d.spdxId
    rw [e2, solid_trim hsb]
    by_cases hb : b = []
    · exact .inl hb
    · exact .inr ⟨⟨hb, hsb⟩, hcol a b e ha⟩
  · show OneLine d.namespace_
    rw [e1, solid_trim hsa]; exact solid_oneLine hsa
  · intro r hr
    obtain ⟨m, hm, R⟩ := pointwise_right D.externals r hr
    obtain ⟨u, hu, hup, rfl⟩ := vals_within hw hm
    have need : ∀ q ∈ [Pred.externalDocumentId, .spdxDocument], ∃ t ∈ g.of u.object, t.pred = q :=
      fun q hq => hs.needs u hu q (by rw [hup]; exact hq)
    refine ⟨text_word hs textWithin_of (by decide) (need _ (by simp)) R.id, text_word hs textWithin_of (by decide) (need _ (by simp)) R.uri, ?_, ?_⟩
    · rcases lastOf_cases R.checksum with e | ⟨k, _, K⟩
      · rw [e]; decide
      · rcases lastOf_cases K.algorithm with e | ⟨_, _, hA, _⟩
        · rw [e]; decide
        · revert hA
          generalize r.checksum.algorithm = y
          revert y
          decide
    · rcases lastOf_cases R.checksum with e | ⟨k, _, K⟩
      · rw [e]; decide
      · rcases lastOf_cases K.value with e | ⟨k', hk', e⟩
        · rw [e]; decide
        · obtain ⟨z, hz, hzp, rfl⟩ := vals_within textWithin_of hk'
          have := hs.word z hz (by rw [hzp]; decide)
          rw [e, solid_trim this.2]
          exact this.2
  · obtain ⟨c, e3, C⟩ := D.creation
    refine ⟨c, e3, ?_, text_line hs within_many (by decide) C.licenseList, ?_, text_line hs within_many (by decide) C.created,
      text_text hs within_many (by decide) C.comment⟩
    · rintro rfl
      obtain ⟨t, ht, hp⟩ := hci
      obtain ⟨u, hu, hup⟩ := hs.needs t (mem_of ht).1 .creator (by rw [hp]; decide)
      have hm : t.object ∈ vals (g.of n) .creationInfo := List.mem_map.2 ⟨t, List.mem_filter.2 ⟨ht, by simp [hp]⟩, rfl⟩
      have hne := vals_ne (ts := (vals (g.of n) .creationInfo).flatMap g.of) (p := .creator) ⟨u, List.mem_flatMap.2 ⟨_, hm, hu⟩, hup⟩
      have hC := C.creators
      generalize vals ((vals (g.of n) .creationInfo).flatMap g.of) .creator = vs at hne hC
      cases hC
      exact hne rfl
    · intro x hx
      obtain ⟨m, hm, hc⟩ := pointwise_right C.creators x hx
      obtain ⟨u, hu, hup, rfl⟩ := vals_within within_many hm
      exact ⟨hc.2, line1_agentName (hs.agent u hu (by rw [hup]; decide)) hc.1⟩
  · intro p hp
    obtain ⟨p, hp', rfl⟩ := List.mem_map.1 hp
    exact rdf_repPackage hs h hv h1 h2 p hp'
  · intro f hf
    obtain ⟨f, hf', rfl⟩ := List.mem_map.1 hf
    exact rdf_repFile hs h hv h1 h2 f (List.mem_append.2 (.inl hf'))
  · intro l hl
    obtain ⟨m, hm, L⟩ := pointwise_right D.licenses l hl
    obtain ⟨u, hu, hup, rfl⟩ := vals_within hw hm
    obtain ⟨t, ht, htp⟩ := hs.needs u hu .licenseId (by rw [hup]; decide)
    have hab : t ∈ g.about u.object.id := by
      have := mem_of ht
      simp [Graph.about, this.1, this.2]
    exact ⟨text_name hs within_about (by decide) ⟨t, hab, htp⟩ L.id, text_text hs within_about (by decide) L.text,
      text_title hs within_about (by decide) L.name, text_uris hs within_about (by decide) L.crossReferences,
      text_text hs within_about (by decide) L.comment⟩
  · intro r hr
    obtain ⟨u, ⟨hu, hp, R⟩, _⟩ := C52_relationships v o g d h h1 h2 r hr
    have need : ∀ q ∈ [Pred.relatedSpdxElement, .relationshipType], ∃ t ∈ g.of u.object, t.pred = q :=
      fun q hq => hs.needs u hu q (by rw [hp]; exact hq)
    obtain ⟨m, hm, hB⟩ := lastOf_source R.refB (vals_ne (need _ (by simp)))
    obtain ⟨t, ht, htp, rfl⟩ := vals_within textWithin_of hm
    obtain ⟨_, _, hT, _⟩ := lastOf_source R.type (vals_ne (need _ (by simp)))
    refine ⟨repRef_reference (hs.related u hu hp) R.refA, .inl (repRef_related (hs.solid t ht (by rw [htp]; decide)) hB), ?_,
      text_text hs textWithin_of (by decide) R.comment⟩
    revert hT
    generalize r.relationship = y
    revert y
    decide
  · intro a ha
    obtain ⟨u, hu, hp, A⟩ := C52_annotations v o g d h h1 h2 a ha
    obtain ⟨m, hm, hA⟩ := lastOf_source A.annotator (vals_ne (hs.needs u hu .annotator (by rw [hp]; decide)))
    obtain ⟨t, ht, htp, rfl⟩ := vals_within textWithin_of hm
    refine ⟨⟨hA.2, line1_agentName (hs.agent t ht (by rw [htp]; decide)) hA.1⟩, text_line hs textWithin_of (by decide) A.date, ?_, .inl A.subject,
      text_text hs textWithin_of (by decide) A.comment⟩
    rcases lastOf_cases A.type with e | ⟨_, _, e⟩
    · rw [e]; exact oneLine_nil
    · simp only [AnnotationTypeSays, List.mem_cons, Prod.mk.injEq, List.not_mem_nil, or_false] at e
      rcases e with ⟨_, e⟩ | ⟨_, e⟩ <;> (rw [e]; decide)
  · intro r hr
    obtain ⟨m, hm, R⟩ := pointwise_right D.reviews r hr
    obtain ⟨u, hu, hup, rfl⟩ := vals_within hw hm
    obtain ⟨k, hk, hR⟩ := lastOf_source R.reviewer (vals_ne (hs.needs u hu .reviewer (by rw [hup]; decide)))
    obtain ⟨t, ht, htp, rfl⟩ := vals_within textWithin_of hk
    exact ⟨⟨hs.reviewer t ht htp _ _ hR, line1_agentName (hs.agent t ht (by rw [htp]; decide)) hR⟩, text_line hs textWithin_of (by decide) R.date,
      text_text hs textWithin_of (by decide) R.comment⟩

omit hs hv in
theorem rdf_sameIds : SameIds d where
  files a ha b hb := C50_same_file v o g d h h1 h2 a (List.mem_append.2 (.inl ha)) b (List.mem_append.2 (.inl hb))
  packages := C51_same_package v o g d h h1 h2
  packageFiles p hp a ha b hb := C50_same_file v o g d h h1 h2 a (List.mem_append.2 (.inr (List.mem_flatMap.2 ⟨p, hp, ha⟩))) b
    (List.mem_append.2 (.inr (List.mem_flatMap.2 ⟨p, hp, hb⟩)))

end

end Verif
