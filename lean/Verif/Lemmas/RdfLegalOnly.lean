import Verif.Lemmas.RdfLegal

/-!
# Graphs that are read are legal
-/

namespace Verif
open RdfM Spec Spec.Rdf

/-! ## The statements of one of several readings -/

theorem Spec.Pointwise.front {α β : Type} {R : α → β → Prop} : ∀ {as bs : List α} {cs : List β}, Pointwise R (as ++ bs) cs →
    ∃ ds es, cs = ds ++ es ∧ Pointwise R as ds
  | [], _, cs, _ => ⟨[], cs, rfl, .nil⟩
  | _ :: _, _, _, .cons h1 h2 => by
    obtain ⟨ds, es, rfl, h⟩ := Spec.Pointwise.front h2
    exact ⟨_ :: ds, es, rfl, .cons h1 h⟩

theorem Spec.Rdf.LastOf.front {α : Type} {R : RNode → α → Prop} {z x : α} {us ws : List Triple} {p : Pred} (h : LastOf R z (vals (us ++ ws) p) x) :
    ∃ y, LastOf R z (vals us p) y := by
  obtain ⟨xs, hx, _⟩ := h
  rw [vals_append] at hx
  obtain ⟨ds, _, _, hd⟩ := hx.front
  exact ⟨_, ds, hd, rfl⟩

theorem Spec.Rdf.EachOf.front {α : Type} {R : RNode → α → Prop} {xs : List α} {us ws : List Triple} {p : Pred} (h : EachOf R (vals (us ++ ws) p) xs) :
    ∃ ys, EachOf R (vals us p) ys := by
  unfold EachOf at h
  rw [vals_append] at h
  obtain ⟨ds, _, _, hd⟩ := h.front
  exact ⟨ds, hd⟩

theorem Spec.Rdf.Only.front {us ws : List Triple} {ps : List Pred} (h : Only (us ++ ws) ps) : Only us ps :=
  fun t ht => h t (List.mem_append_left _ ht)

theorem verification_front {us ws : List Triple} {c : VerificationCode} (h : VerificationSays (us ++ ws) c) : ∃ d, VerificationSays us d := by
  obtain ⟨a, ha⟩ := h.value.front
  obtain ⟨b, hb⟩ := h.excluded.front
  exact ⟨⟨a, b⟩, h.only.front, ha, hb⟩

theorem code_front {v : Version} {g : Graph} {us ws : List Triple} {p : Pred} {c : Option VerificationCode}
    (h : PackageCodeSays v g (vals (us ++ ws) p) c) : ∃ d, PackageCodeSays v g (vals us p) d := by
  rw [vals_append] at h
  by_cases hv : vals us p = []
  · exact ⟨none, .inl ⟨hv, rfl⟩⟩
  · rcases h with ⟨h, _⟩ | ⟨_, x, hx, _⟩
    · exact absurd (List.append_eq_nil_iff.1 h).1 hv
    · rw [List.flatMap_append] at hx
      obtain ⟨d, hd⟩ := verification_front hx
      exact ⟨_, .inr ⟨hv, d, hd, rfl⟩⟩

theorem fileSays_front {v : Version} {g : Graph} {us ws : List Triple} {f : FileV} (h : FileSays v g (us ++ ws) f) (id : Str) :
    ∃ f', FileSays v g us f' ∧ f'.spdxId = id := by
  obtain ⟨a1, h1⟩ := h.name.front
  obtain ⟨a2, h2⟩ := h.types.front
  obtain ⟨a3, h3⟩ := h.checksums.front
  obtain ⟨a4, h4⟩ := h.licenseConcluded.front
  obtain ⟨a5, h5⟩ := h.licenseInfo.front
  obtain ⟨a6, h6⟩ := h.licenseComments.front
  obtain ⟨a7, h7⟩ := h.copyrightText.front
  obtain ⟨a8, h8⟩ := h.artifacts.front
  obtain ⟨a9, h9⟩ := h.comment.front
  obtain ⟨a10, h10⟩ := h.notice.front
  obtain ⟨a11, h11⟩ := h.contributors.front
  obtain ⟨a12, h12⟩ := h.dependencies.front
  obtain ⟨a13, h13⟩ := h.attributionTexts.front
  exact ⟨{ f with
    spdxId := id, name := a1, types := a2, checksums := a3, licenseConcluded := a4, licenseInfoInFiles := a5, licenseComments := a6,
    copyrightText := a7, artifactOfProjects := a8, comment := a9, notice := a10, contributors := a11, dependencies := a12,
    attributionTexts := a13 }, ⟨h.only.front, h1, h2, h3, h4, h5, h6, h7, h8, h9, h10, h11, h12, h13, h.annotations⟩, rfl⟩

theorem packageSays_front {φ : Type} {v : Version} {g : Graph} {F : RNode → φ → Prop} {us ws : List Triple} {p : Package φ}
    (h : PackageSays v g F (us ++ ws) p) (id : Str) : ∃ p' : Package φ, PackageSays v g F us p' ∧ p'.spdxId = id := by
  obtain ⟨a1, h1⟩ := h.name.front
  obtain ⟨a2, h2⟩ := h.version.front
  obtain ⟨a3, h3⟩ := h.fileName.front
  obtain ⟨a4, h4⟩ := h.supplier.front
  obtain ⟨a5, h5⟩ := h.originator.front
  obtain ⟨a6, h6⟩ := h.downloadLocation.front
  obtain ⟨a7, h7⟩ := h.filesAnalyzed.front
  obtain ⟨a8, h8⟩ := h.filesAnalyzedTag.front
  obtain ⟨a9, h9⟩ := code_front h.verificationCode
  obtain ⟨a10, h10⟩ := h.checksums.front
  obtain ⟨a11, h11⟩ := h.homePage.front
  obtain ⟨a12, h12⟩ := h.sourceInfo.front
  obtain ⟨a13, h13⟩ := h.licenseConcluded.front
  obtain ⟨a14, h14⟩ := h.licenseInfo.front
  obtain ⟨a15, h15⟩ := h.licenseDeclared.front
  obtain ⟨a16, h16⟩ := h.licenseComments.front
  obtain ⟨a17, h17⟩ := h.copyrightText.front
  obtain ⟨a18, h18⟩ := h.summary.front
  obtain ⟨a19, h19⟩ := h.description.front
  obtain ⟨a20, h20⟩ := h.comment.front
  obtain ⟨a21, h21⟩ := h.externalRefs.front
  obtain ⟨a22, h22⟩ := h.attributionTexts.front
  obtain ⟨a23, h23⟩ := h.purpose.front
  obtain ⟨a24, h24⟩ := h.releaseDate.front
  obtain ⟨a25, h25⟩ := h.builtDate.front
  obtain ⟨a26, h26⟩ := h.validUntilDate.front
  obtain ⟨a27, h27⟩ := h.files.front
  exact ⟨{ p with
    spdxId := id, name := a1, version := a2, fileName := a3, supplier := a4, originator := a5, downloadLocation := a6,
    filesAnalyzed := a7, filesAnalyzedTagPresent := a8, verificationCode := a9, checksums := a10, homePage := a11, sourceInfo := a12,
    licenseConcluded := a13, licenseInfoFromFiles := a14, licenseDeclared := a15, licenseComments := a16, copyrightText := a17,
    summary := a18, description := a19, comment := a20, externalRefs := a21, attributionTexts := a22, primaryPurpose := a23,
    releaseDate := a24, builtDate := a25, validUntilDate := a26, files := a27 },
    ⟨h.only.front, h.unpackaged, h1, h2, h3, h4, h5, h6, h7, h8, h9, h10, h11, h12, h13, h14, h15, h16, h17, h18, h19, h20, h21, h22,
      h23, h24, h25, h26, h27, h.annotations⟩, rfl⟩

/-- Among the statements of all readings are those about the node. -/
theorem front_of {g : Graph} (hnn : NamedNodes g) {n : RNode} {ns : List RNode} (hne : ns ≠ []) (hns : ∀ m ∈ ns, m.id = n.id ∧ IsReferred g m) :
    ∃ ws, ns.flatMap g.of = g.of n ++ ws := by
  match ns, hne with
  | m :: ms, _ =>
    by_cases hn : g.of n = []
    · exact ⟨(m :: ms).flatMap g.of, by rw [hn]; rfl⟩
    · obtain ⟨t, ht⟩ := List.exists_mem_of_ne_nil _ hn
      obtain ⟨h1, h2⟩ := mem_of ht
      obtain ⟨h3, h4⟩ := hns m (by simp)
      have := hnn t h1 m h4 (by rw [h2, h3])
      rw [h2] at this
      subst this
      exact ⟨ms.flatMap g.of, rfl⟩

/-! ## The roots -/

theorem findDocNode_typed {g : Graph} {x : Option RNode} : ∀ (rs : List RNode) (found : Option RNode), findDocNode g found rs = .ok x →
    ∀ r ∈ rs, typeTriples (g.of r) r.id ≠ []
  | [], _, _ => by simp
  | r :: rs, found, e => by
    unfold findDocNode at e
    have ih := fun f => findDocNode_typed (g := g) (x := x) rs f
    match htt : typeTriples (g.of r) r.id with
    | [] => rw [htt] at e; simp at e
    | t :: more =>
      rw [htt] at e
      dsimp only at e
      have hrest : ∃ f, findDocNode g f rs = .ok x := by
        by_cases hcls : Cls.ofStr t.object.id = .spdxDocument
        · rw [if_pos hcls] at e
          by_cases hmore : more ≠ []
          · rw [if_pos hmore] at e; simp at e
          · rw [if_neg hmore] at e
            cases found with
            | none => exact ⟨_, e⟩
            | some m =>
              dsimp only at e
              split at e
              · simp at e
              · exact ⟨_, e⟩
        · rw [if_neg hcls] at e
          exact ⟨_, e⟩
      obtain ⟨f, hf⟩ := hrest
      intro y hy
      rcases List.mem_cons.1 hy with rfl | hy
      · rw [htt]; simp
      · exact ih f hf y hy

theorem load_roots {v : Version} {o : MapOrder} {g : Graph} {d : Doc} (h : loadGraph v o g = .ok d) :
    ∀ r ∈ g.roots, ∃ t, g.triples.filter (fun t => t.subject.id = r.id && t.pred = .type_) = [t] ∧ t.subject = r := by
  unfold loadGraph at h
  cases e : loadState v g o g.depth {} with
  | err => rw [e] at h; simp at h
  | panic => rw [e] at h; simp at h
  | cut => rw [e] at h; simp at h
  | ok x =>
    obtain ⟨u, s'⟩ := x
    unfold loadState at e
    obtain ⟨n0, e1, e2⟩ := bind_lift_inv e
    obtain ⟨_, s1, e3, e4⟩ := bind_inv e2
    obtain ⟨_, s2, e5, e6⟩ := bind_inv e4
    unfold docNode at e1
    rw [bind_eq_ok] at e1
    obtain ⟨x, e7, e8⟩ := e1
    intro r hr
    obtain ⟨t, ht⟩ := snippetRoots_typed g.roots s1 s2 e5 r hr
    refine ⟨t, ht, ?_⟩
    obtain ⟨u, hu⟩ := List.exists_mem_of_ne_nil _ (findDocNode_typed g.roots none e7 r hr)
    have hsub := (typeTriples_sublist g r).subset hu
    rw [ht, List.mem_singleton] at hsub
    subst hsub
    exact (mem_of (List.mem_filter.1 hu).1).2

/-! ## The parts -/

/-- What the state at the end of reading has of a part. -/
def ReadIn (g : Graph) (s : RState) : Part → Prop
  | .file n => IsReferred g n ∧ ∃ j, s.view.cached n.id (.file j)
  | .package n => IsReferred g n ∧ ∃ i, s.view.cached n.id (.pkg i)
  | .relationship t => (∃ r, RelationshipSays g t.subject (g.of t.object) r) ∧ RelatedIn g s (g.of t.object)

theorem Final.file_told {v : Version} {g : Graph} {s : RState} (h : Final v g s) (hnn : NamedNodes g) {n : RNode}
    (hr : ReadIn g s (.file n)) : ∃ f : FileV, FileIdOf n.id f.spdxId ∧ FileSays v g (g.of n) f ∧ ToldIn g s (g.of n) := by
  obtain ⟨hr, j, hj⟩ := hr
  obtain ⟨ns, h1, h2', f, h3, h4, h5⟩ := h.sound.content.files n.id j (h.black hj)
  have h2 : ∀ m ∈ ns, m.id = n.id ∧ IsReferred g m := fun m hm => ⟨(h2' m hm).1, leads_referred (.inl (h2' m hm).2)⟩
  obtain ⟨ws, hw⟩ := front_of hnn h1 h2
  rw [hw] at h4 h5
  obtain ⟨id, hid, _⟩ := h.sound.inv.fileIds h.tidy n.id j hj
  obtain ⟨f', q1, q2⟩ := fileSays_front h4 id
  exact ⟨f', by rw [q2]; exact hid, q1, fun t ht => h5.annotations t (List.mem_append_left _ ht),
    fun t ht => h5.relationships t (List.mem_append_left _ ht), fun t ht => h5.dependencies t (List.mem_append_left _ ht)⟩

theorem Final.package_told {v : Version} {g : Graph} {s : RState} (h : Final v g s) (hnn : NamedNodes g) {n : RNode}
    (hr : ReadIn g s (.package n)) : (∃ p : PackageV, PackageIdOf n.id p.spdxId ∧ PackageSays v g (fun m f => FileIdOf m.id f.spdxId) (g.of n) p) ∧
      ToldIn g s (g.of n) ∧ ∀ t ∈ g.of n, t.pred = .hasFile → ∃ j, s.view.cached t.object.id (.file j) := by
  obtain ⟨hr, i, hi⟩ := hr
  obtain ⟨ns, h1, h2', p, h3, h4, h5⟩ := h.sound.content.packages n.id i (h.black hi)
  have h2 : ∀ m ∈ ns, m.id = n.id ∧ IsReferred g m := fun m hm => ⟨(h2' m hm).1, leads_referred (.inr (h2' m hm).2)⟩
  obtain ⟨ws, hw⟩ := front_of hnn h1 h2
  rw [hw] at h4 h5
  obtain ⟨id, hid, _⟩ := h.sound.inv.pkgIds h.tidy n.id i hi
  obtain ⟨p', q1, q2⟩ := packageSays_front h4 id
  refine ⟨⟨{ p' with files := p'.files.map s.fileOf }, by dsimp only; rw [q2]; exact hid,
    { q1 with files := pointwise_map_right q1.files fun n j hj => (h.file_in ⟨fun m => m, fun _ => .refl _⟩ hj).2 }⟩,
    ⟨fun t ht => h5.annotations t (List.mem_append_left _ ht),
    fun t ht => h5.relationships t (List.mem_append_left _ ht), fun t ht => h5.dependencies t (List.mem_append_left _ ht)⟩, ?_⟩
  intro t ht hp
  exact q1.files.legal (mem_vals' ht hp)

theorem Final.relationship_read {v : Version} {g : Graph} {s : RState} (h : Final v g s) (ho : OneOwner g) {n : RNode}
    (ht : ToldIn g s (g.of n)) {t : Triple} (hm : t ∈ g.of n) (hp : t.pred = .relationship) : ReadIn g s (.relationship t) := by
  rcases (ht.relationships t hm hp).2 with hg | ⟨r, _, u, h1', h3, h4, h5⟩
  · rw [h.grey] at hg; simp at hg
  · have := ho u (leads_relationship h1').1 t (mem_of hm).1 (leads_relationship h1').2 hp h3
    subst this
    exact ⟨⟨r, h4⟩, h5⟩

theorem typeTriples_self {g : Graph} {n : RNode} {c u : Triple} (hc : c ∈ g.of n) (hp : c.pred = .type_)
    (h : typeTriples (g.of n) n.id = [u]) : c = u := by
  have : c ∈ typeTriples (g.of n) n.id := by
    simp only [typeTriples, List.mem_filter, Bool.and_eq_true, decide_eq_true_eq]
    exact ⟨hc, by rw [(mem_of hc).2], hp⟩
  rw [h] at this
  simpa using this

/-- Everything that the document and its snippets lead to was read. -/
theorem leads_read {v : Version} {g : Graph} {s : RState} {m : RNode} (h : Final v g s) (hnn : NamedNodes g) (ho : OneOwner g)
    (hm : ∀ n, IsDocumentNode g n → n = m) (hd : DocRead v g m (g.of m) s) (hs : SnipInv v g (IsSnippetNode g) s) {p : Part} (hl : Leads g p) :
    ReadIn g s p := by
  induction hl with
  | @described n t hn ht hp =>
    rw [hm n hn] at ht
    exact ⟨referred_of ht (by simp [hp]), hd.described t ht hp⟩
  | @ofDocument n t hn ht hp =>
    rw [hm n hn] at ht
    exact h.relationship_read ho hd.told ht hp
  | contained hn ht hp ih => exact ⟨referred_of ht (by simp [hp]), (h.package_told hnn ih).2.2 _ ht hp⟩
  | ofPackage hn ht hp ih => exact h.relationship_read ho (h.package_told hnn ih).2.1 ht hp
  | dependency hn ht hp ih =>
    obtain ⟨_, _, _, q⟩ := h.file_told hnn ih
    exact ⟨referred_of ht (by simp [hp]), q.dependencies _ ht hp⟩
  | ofFile hn ht hp ih =>
    obtain ⟨_, _, _, q⟩ := h.file_told hnn ih
    exact h.relationship_read ho q ht hp
  | relatedFile hu ht hp hc hcp hcls ih =>
    obtain ⟨⟨r, hr⟩, hin⟩ := ih
    refine ⟨referred_of ht (by simp [hp]), ?_⟩
    obtain ⟨y, x, _, ⟨h0, _⟩ | ⟨t', htt, _⟩⟩ := hr.refB.legal (mem_vals' ht hp)
    · rw [h0] at hc; simp at hc
    · have := typeTriples_self hc hcp htt
      subst this
      exact (hin _ ht hp _ htt).1 hcls
  | relatedPackage hu ht hp hc hcp hcls ih =>
    obtain ⟨⟨r, hr⟩, hin⟩ := ih
    refine ⟨referred_of ht (by simp [hp]), ?_⟩
    obtain ⟨y, x, _, ⟨h0, _⟩ | ⟨t', htt, _⟩⟩ := hr.refB.legal (mem_vals' ht hp)
    · rw [h0] at hc; simp at hc
    · have := typeTriples_self hc hcp htt
      subst this
      exact (hin _ ht hp _ htt).2 hcls
  | snippetFile hn ht hp => exact ⟨referred_of ht (by simp [hp]), (hs.files _ hn).1 _ ht hp⟩
  | rangeFile hn hr hrp hp hpp ht htp hst =>
    refine ⟨referred_of ht (by simp [htp]), (hs.files _ hn).2 _ hr hrp _ hp hpp _ ht htp fun h0 => ?_⟩
    exact about_nil.1 h0 _ hst

/-- The name of a file that can be read as one is read as the same in a snippet. -/
theorem snippetFile_same {v : Version} {m : RNode} {id y : Str} (ht : trimSpace m.id = m.id) (hid : FileIdOf m.id id) (hy : SnippetFileSays v m y) :
    y = id := by
  unfold FileIdOf at hid
  rw [ht] at hid
  obtain ⟨h1, h2, h3⟩ := extractElementID_eq_ok.1 hid
  have hr : extractDocElementID (lastPart m.id) = .ok { elementRefID := id } := by
    rw [extractDocElementID_eq_ok]
    exact ⟨rfl, h2, h3, by simp, by simp [renderDocElementID, h1]⟩
  have := (snippetFile_iff v m y).1 hy
  unfold snippetFileOf at this
  rw [hr] at this
  injection this with this
  exact this.symm

theorem load_legal {v : Version} {o : MapOrder} {g : Graph} {d : Doc} (ht : Tidy g) (hnn : NamedNodes g) (ho : OneOwner g)
    (htr : SnippetFilesTrimmed g) (h : loadGraph v o g = .ok d) : Legal v g := by
  obtain ⟨m, s, hm, hd, hg, hs, rfl⟩ := load_content ht h
  have hfin : Final v g s := ⟨ht, hd.sound, hg⟩
  have hone : ∀ n, IsDocumentNode g n → n = m := fun n hn => one_document h hn hm
  have hread : ∀ {p}, Leads g p → ReadIn g s p := leads_read hfin hnn ho hone hd hs
  refine ⟨load_roots h, ⟨m, hm, hone, s.docOf o, { hd.says with }⟩, ?_, ?_, ?_, ?_, ?_⟩
  · intro n hn
    obtain ⟨f, h1, h2, _⟩ := hfin.file_told hnn (hread hn)
    exact ⟨f, h1, h2⟩
  · exact fun n hn => (hfin.package_told hnn (hread hn)).1
  · exact fun t hl => (hread hl).1
  · intro n hn t htn hp
    have told : ToldIn g s (g.of n) := by
      cases hn with
      | document hn => rw [hone n hn]; exact hd.told
      | file hn => obtain ⟨_, _, _, q⟩ := hfin.file_told hnn (hread hn); exact q
      | package hn => exact (hfin.package_told hnn (hread hn)).2.1
    obtain ⟨a, _, ha⟩ := told.annotations t htn hp
    exact ⟨a, ha⟩
  · intro n hn
    obtain ⟨j, f, x, y, q1, q2, q3, q4, q5, q6⟩ := hs.complete n hn
    refine ⟨y, q4, q3, ?_⟩
    obtain ⟨xs, hxs, hy⟩ := q3.fromFile
    cases hl : xs.getLast? with
    | none =>
      -- no file is named by the empty name
      exfalso
      rw [List.getLast?_eq_none_iff] at hl
      subst hl
      obtain ⟨id, hid, e1⟩ := hfin.sound.inv.fileIds ht x j q2
      simp only [RState.view, List.getElem?_map, q1, Option.map_some, Option.some.injEq] at e1
      rw [← e1, ← q5, hy] at hid
      exact (extractElementID_eq_ok.1 hid).2.1 rfl
    | some z =>
      have hyz : y.fromFile = z := by rw [hy, List.getLastD_eq_getLast?, hl]; rfl
      obtain ⟨k, hk, hkz⟩ := hxs.source (List.mem_of_getLast? hl)
      obtain ⟨t, ht1, ht2, rfl⟩ := vals_source hk
      obtain ⟨j', hj'⟩ := (hs.files n hn).1 t ht1 ht2
      obtain ⟨id, hid, _⟩ := hfin.sound.inv.fileIds ht _ j' hj'
      refine ⟨t.object, hk, ?_⟩
      rw [hyz, snippetFile_same (htr t (mem_of ht1).1 ht2) hid hkz]
      exact hid

end Verif
