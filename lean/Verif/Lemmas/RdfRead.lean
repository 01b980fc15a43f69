import Verif.Lemmas.RdfSnippets
import Verif.Spec.RdfRead

/-!
# The document that the RDF reader returns and the statements of the graph
-/

namespace Verif
open RdfM Spec Spec.Rdf

theorem DocRead.mono {v : Version} {g : Graph} {n : RNode} {ts : List Triple} {s s' : RState} (h : DocRead v g n ts s) (hs : Sound v g s')
    (hg : Grows g s s') (hc : core s'.doc = core s.doc) : DocRead v g n ts s' :=
  ⟨hs, by rw [documentSays_core, hc, ← documentSays_core]; exact h.says, h.told.grow hg,
    fun t ht hp => (h.described t ht hp).imp fun _ => hg.cached _ _⟩

/-- A snippet is added to a file. -/
theorem Sound.addSnippet {v : Version} {g : Graph} {s : RState} {i : Nat} {f : FileV → FileV} (hs : Sound v g s)
    (hi : RInv g ({ s with fileHeap := s.fileHeap.modify i f } : RState).view) (hf : ∀ y ts, FileSays v g ts y → FileSays v g ts (f y))
    (hid : ∀ y, (f y).spdxId = y.spdxId) :
    Sound v g { s with fileHeap := s.fileHeap.modify i f } ∧ Grows g s { s with fileHeap := s.fileHeap.modify i f } := by
  have hg : Grows g s { s with fileHeap := s.fileHeap.modify i f } := ⟨fun _ _ h => h, fun _ _ h => .inl h, List.prefix_refl _, List.prefix_refl _⟩
  refine ⟨⟨hi, hs.content.step hg (fun x j e => ?_) (fun _ _ e => .inl ⟨e, rfl⟩) (fun r h => .inl h) (fun r h => .inl h)
    (hs.content.assoc_of (fun _ _ h => h) (List.prefix_refl _) ?_ rfl)⟩, hg⟩
  · refine .inr ?_
    obtain ⟨ns, h1, h2, y, h3, h4, h5⟩ := hs.content.files x j e
    refine ⟨ns, h1, h2, if i = j then f y else y, ?_, ?_, h5.grow hg⟩
    · simp only [List.getElem?_modify, h3]
      split <;> simp
    · split
      · exact hf _ _ h4
      · exact h4
  · have : ({ s with fileHeap := s.fileHeap.modify i f } : RState).view.fids = s.view.fids :=
      map_modify_same (fun y : FileV => y.spdxId) f hid _ _
    rw [this]; exact List.prefix_refl _

theorem content_addSnippet {v : Version} {g : Graph} {c : RCalls} (hg : Good g c) (hc : CGood v g c) (hk : KeepSnips c) {n : RNode}
    (hsn : IsSnippetNode g n) {s s' : RState} {u : Unit} (hs : Sound v g s) (e : addSnippet v g c n s = .ok (u, s')) :
    ∃ x i s1, extractElementID (lastPart n.id) = .ok x.spdxId ∧ SnippetSays v g (g.of n) x ∧ Sound v g s1 ∧ Calm s s1 ∧ SameSnips s s1 ∧
      mapGet x.fromFile s1.files = some i ∧
      s' = { s1 with fileHeap := s1.fileHeap.modify i fun f => { f with snippets := mapInsert x.spdxId x f.snippets } } ∧
      Sound v g s' ∧ Grows g s1 s' ∧ Ext s.view s'.view ∧ SnipFiles g s1 (g.of n) := by
  have hkeep := (keeps_addSnippet v hg n s.view).ok hs.inv (.refl _) e
  unfold addSnippet at e
  obtain ⟨id, e1, e2⟩ := bind_lift_inv e
  obtain ⟨x, s1, e3, e4⟩ := bind_inv e2
  obtain ⟨s2, s3, e5, e6⟩ := bind_inv e4
  have e7 : s2 = s1 ∧ s3 = s1 := by injection e5 with e5; injection e5 with a b; exact ⟨a.symm, b.symm⟩
  rw [e7.1, e7.2] at e6
  have hsm := KeepsSnips.fold (fun x t => snips_snippetStep (v := v) (g := g) hk x t) _ _ _ _ _ e3
  have hl := fold_inv (us := []) (I := fun us x s1 => Sound v g s1 ∧ Calm s s1 ∧ SnippetSays v g us x ∧ x.spdxId = id ∧ SnipFiles g s1 us)
    (fun us t x x' s1 s2 hm h e => by
      obtain ⟨h1, h2, h3, h4, h5⟩ := h
      obtain ⟨q1, q2, q3, q4⟩ := content_snippetStep hc hsn hm h1 h3 e
      exact ⟨q1, h2.trans q2, q3, q4.trans h4, files_snippetStep hc hsn hm h1 h3 h5 e⟩)
    ⟨hs, .refl _ _, by constructor <;> first | exact Only.nil | exact .nil | exact EachOf.nil | exact ⟨fun _ h => by simp [vals] at h, .inl ⟨rfl, rfl⟩⟩ | rfl, rfl, by simp, by simp⟩ e3
  obtain ⟨h1, h2, h3, h4, h5⟩ := hl
  cases hi : mapGet x.fromFile s1.files with
  | none => rw [hi] at e6; exact (err_inv e6).elim
  | some i =>
    rw [hi] at e6
    have e6 := modify_inv e6
    subst e6
    obtain ⟨q1, q2⟩ := h1.addSnippet (i := i) (f := fun f => { f with snippets := mapInsert x.spdxId x f.snippets }) hkeep.1
      (fun y ts h => { h with }) (fun _ => rfl)
    exact ⟨x, i, s1, by rw [h4]; exact e1, h3, h1, h2, hsm, hi, rfl, q1, q2, hkeep.2.1, h5⟩

/-- Where the snippets of the files come from, and the nodes whose snippets were added. -/
structure SnipInv (v : Version) (g : Graph) (done : RNode → Prop) (s : RState) : Prop where
  sound : ∀ (j : Nat) (f : FileV), s.fileHeap[j]? = some f → ∀ e ∈ f.snippets, ∃ n, IsSnippetNode g n ∧
    extractElementID (lastPart n.id) = .ok e.1 ∧ e.2.spdxId = e.1 ∧ SnippetSays v g (g.of n) e.2 ∧ e.2.fromFile = f.spdxId
  complete : ∀ n, done n → ∃ (j : Nat) (f : FileV) (x : Str) (y : Snippet), s.fileHeap[j]? = some f ∧ s.view.cached x (.file j) ∧
    SnippetSays v g (g.of n) y ∧ extractElementID (lastPart n.id) = .ok y.spdxId ∧ y.fromFile = f.spdxId ∧ y.spdxId ∈ f.snippets.map (·.1)
  files : ∀ n, done n → SnipFiles g s (g.of n)
  keys : ∀ (j : Nat) (f : FileV), s.fileHeap[j]? = some f → (f.snippets.map (·.1)).Nodup

theorem SnipInv.imp {v : Version} {g : Graph} {P Q : RNode → Prop} {s : RState} (h : SnipInv v g P s) (hq : ∀ n, Q n → P n) : SnipInv v g Q s :=
  ⟨h.sound, fun n hn => h.complete n (hq n hn), fun n hn => h.files n (hq n hn), h.keys⟩

theorem get_append_replicate {α : Type} {l : List α} {k j : Nat} {z x : α} (h : (l ++ List.replicate k z)[j]? = some x) :
    l[j]? = some x ∨ (x = z ∧ l.length ≤ j) := by
  by_cases hj : j < l.length
  · rw [List.getElem?_append_left hj] at h; exact .inl h
  · rw [List.getElem?_append_right (by omega)] at h
    rw [List.getElem?_replicate] at h
    split at h
    · injection h with h; exact .inr ⟨h.symm, by omega⟩
    · simp at h

theorem SnipInv.same {v : Version} {g : Graph} {done : RNode → Prop} {s s' : RState} (h : SnipInv v g done s) (hs : SameSnips s s')
    (he : Ext s.view s'.view) : SnipInv v g done s' := by
  obtain ⟨k, hk⟩ := hs
  constructor
  · intro j f' hf' e hm
    have h1 : (s'.fileHeap.map (·.snippets))[j]? = some f'.snippets := by simp [hf']
    rw [hk] at h1
    rcases get_append_replicate h1 with h1 | ⟨h1, _⟩
    · simp only [List.getElem?_map, Option.map_eq_some_iff] at h1
      obtain ⟨f, hf, e1⟩ := h1
      rw [← e1] at hm
      obtain ⟨n, q1, q2, q3, q4, q5⟩ := h.sound j f hf e hm
      have h2 : s'.view.fids[j]? = some f.spdxId := prefix_get he.fids (by simp [RState.view, hf])
      simp only [RState.view, List.getElem?_map, hf', Option.map_some, Option.some.injEq] at h2
      exact ⟨n, q1, q2, q3, q4, q5.trans h2.symm⟩
    · rw [h1] at hm; simp at hm
  · intro n hn
    obtain ⟨j, f, x, y, q1, q2, q3, q4, q5, q6⟩ := h.complete n hn
    have h2 : s'.view.fids[j]? = some f.spdxId := prefix_get he.fids (by simp [RState.view, q1])
    simp only [RState.view, List.getElem?_map, Option.map_eq_some_iff] at h2
    obtain ⟨f', hf', e2⟩ := h2
    have h3 : (s'.fileHeap.map (·.snippets))[j]? = some f.snippets := by
      rw [hk]
      have : (s.fileHeap.map (·.snippets))[j]? = some f.snippets := by simp [q1]
      rw [List.getElem?_append_left (get_lt this)]; exact this
    simp only [List.getElem?_map, hf', Option.map_some, Option.some.injEq] at h3
    exact ⟨j, f', x, y, hf', he.cache _ _ q2, q3, q4, q5.trans e2.symm, by rw [h3]; exact q6⟩
  · exact fun n hn => (h.files n hn).grow he.cache
  · intro j f' hf'
    have h1 : (s'.fileHeap.map (·.snippets))[j]? = some f'.snippets := by simp [hf']
    rw [hk] at h1
    rcases get_append_replicate h1 with h1 | ⟨h1, _⟩
    · simp only [List.getElem?_map, Option.map_eq_some_iff] at h1
      obtain ⟨f, hf, e1⟩ := h1
      rw [← e1]
      exact h.keys j f hf
    · rw [h1]; exact .nil

theorem key_mapInsert {β : Type} {k k' : Str} {x : β} {m : List (Str × β)} :
    k' ∈ (mapInsert k x m).map (·.1) ↔ k' = k ∨ k' ∈ m.map (·.1) := by
  induction m with
  | nil => simp [mapInsert]
  | cons p m ih =>
    obtain ⟨a, b⟩ := p
    unfold mapInsert
    split
    · next h => subst h; simp
    · simp only [List.map_cons, List.mem_cons, ih]
      constructor
      · rintro (h | h | h) <;> simp [h]
      · rintro (h | h | h) <;> simp [h]

/-- One snippet is added. -/
theorem SnipInv.add {v : Version} {g : Graph} (ht : Tidy g) {c : RCalls} (hg : Good g c) (hc : CGood v g c) (hk : KeepSnips c)
    {done : RNode → Prop} {n : RNode} (hn : IsSnippetNode g n) {s s' : RState} {u : Unit} (hs : Sound v g s) (h : SnipInv v g done s)
    (e : addSnippet v g c n s = .ok (u, s')) : SnipInv v g (fun m => done m ∨ m = n) s' := by
  obtain ⟨x, i, s1, q1, q2, q3, q4, q5, q6, q7, q8, q9, q10, q11⟩ := content_addSnippet hg hc hk hn hs e
  obtain ⟨y, hy⟩ := q3.inv.filesCanon ht _ (pair_of_mapGet q6)
  have hfid := q3.inv.files _ (pair_of_mapGet q6)
  have hc1 : s'.cache = s1.cache := by rw [q7]
  have hy' : s'.view.cached y (.file i) := by
    obtain ⟨b, hb⟩ := hy
    exact ⟨b, by change mapGet y s'.cache = _; rw [hc1]; exact hb⟩
  have hidEq : s'.view.fids = s1.view.fids := by
    rw [q7]; exact map_modify_same (fun y : FileV => y.spdxId) (fun f => { f with snippets := mapInsert x.spdxId x f.snippets }) (fun _ => rfl) _ _
  have he1 : Ext s.view s1.view := by
    refine ⟨?_, ?_, ?_, ?_, ?_⟩
    · rw [← hidEq]; exact q10.fids
    · have : s'.view.pids = s1.view.pids := by rw [q7]; rfl
      rw [← this]; exact q10.pids
    · have : s'.view.packages = s1.view.packages := by rw [q7]; rfl
      rw [← this]; exact q10.packages
    · exact q4.cached
    · have : s'.view.files = s1.view.files := by rw [q7]; rfl
      rw [← this]; exact q10.keys
  have h1 := h.same q5 he1
  simp only [RState.view, List.getElem?_map, Option.map_eq_some_iff] at hfid
  obtain ⟨f, hf, hfid⟩ := hfid
  have heap : ∀ j f', s'.fileHeap[j]? = some f' → (j ≠ i ∧ s1.fileHeap[j]? = some f') ∨
      (j = i ∧ f' = { f with snippets := mapInsert x.spdxId x f.snippets }) := by
    intro j f' h
    rw [q7] at h
    simp only [List.getElem?_modify] at h
    by_cases hj : i = j
    · subst hj
      rw [hf] at h
      simp at h
      exact .inr ⟨rfl, h.symm⟩
    · refine .inl ⟨fun e => hj e.symm, ?_⟩
      simpa [hj] using h
  have heapi : s'.fileHeap[i]? = some { f with snippets := mapInsert x.spdxId x f.snippets } := by
    rw [q7]; simp [hf]
  have heapo : ∀ (j : Nat) (f' : FileV), j ≠ i → s1.fileHeap[j]? = some f' → s'.fileHeap[j]? = some f' := by
    intro j f' hj h
    rw [q7]; simp [Ne.symm hj, h]
  constructor
  · intro j f' hf' p hp
    rcases heap j f' hf' with ⟨_, h⟩ | ⟨rfl, rfl⟩
    · exact h1.sound j f' h p hp
    · rcases mem_mapInsert (k := x.spdxId) (x := x) (m := f.snippets) (k' := p.1) (y := p.2) hp with h | h
      · have h : p = (x.spdxId, x) := h
        subst h
        exact ⟨n, hn, q1, rfl, q2, hfid.symm⟩
      · exact h1.sound _ f hf p h
  · intro m hm
    rcases hm with hm | rfl
    · obtain ⟨j, f', x', y', r1, r2, r3, r4, r5, r6⟩ := h1.complete m hm
      have r2' : s'.view.cached x' (.file j) := by
        obtain ⟨b, hb⟩ := r2
        exact ⟨b, by change mapGet x' s'.cache = _; rw [hc1]; exact hb⟩
      by_cases hj : j = i
      · subst hj
        rw [hf] at r1
        injection r1 with r1
        subst r1
        exact ⟨j, _, x', y', heapi, r2', r3, r4, r5, key_mapInsert.2 (.inr r6)⟩
      · exact ⟨j, f', x', y', heapo j f' hj r1, r2', r3, r4, r5, r6⟩
    · exact ⟨i, _, y, x, heapi, hy', q2, q1, hfid.symm, key_mapInsert.2 (.inl rfl)⟩
  · intro m hm
    rcases hm with hm | rfl
    · exact (h1.files m hm).grow q9.cached
    · exact q11.grow q9.cached
  · intro j f' hf'
    rcases heap j f' hf' with ⟨_, h⟩ | ⟨rfl, rfl⟩
    · exact h1.keys j f' h
    · exact nodup_keys_mapInsert _ _ _ (h1.keys _ f hf)

theorem content_snippetRoots {v : Version} {g : Graph} (ht : Tidy g) {c : RCalls} (hg : Good g c) (hc : CGood v g c) (hk : KeepSnips c)
    {n : RNode} {u : Unit} : ∀ (rs : List RNode) (done : RNode → Prop) (s s' : RState), (∀ r ∈ rs, r ∈ g.roots) →
      DocRead v g n (g.of n) s → SnipInv v g done s → snippetRoots v g c rs s = .ok (u, s') →
      DocRead v g n (g.of n) s' ∧ SnipInv v g (fun m => done m ∨ (IsSnippetNode g m ∧ ∃ r ∈ rs, r.id = m.id)) s'
  | [], done, s, s', _, hd, hi, e => by
    obtain ⟨_, rfl⟩ := pure_inv e
    exact ⟨hd, hi.sound, fun m hm => by
      rcases hm with hm | ⟨_, r, hr, _⟩
      · exact hi.complete m hm
      · simp at hr, fun m hm => by
      rcases hm with hm | ⟨_, r, hr, _⟩
      · exact hi.files m hm
      · simp at hr, hi.keys⟩
  | r :: rs, done, s, s', hr, hd, hi, e => by
    unfold snippetRoots at e
    have ih := content_snippetRoots ht hg hc hk (n := n) (u := u) rs
    have hrs : ∀ x ∈ rs, x ∈ g.roots := fun x hx => hr x (by simp [hx])
    match htt : typeTriples g.triples r.id with
    | [] => rw [htt] at e; exact (err_inv e).elim
    | _ :: _ :: _ => rw [htt] at e; exact (err_inv e).elim
    | [t] =>
      rw [htt] at e
      dsimp only at e
      have hmt : t ∈ typeTriples g.triples r.id := by rw [htt]; simp
      simp only [typeTriples, List.mem_filter, Bool.and_eq_true, decide_eq_true_eq] at hmt
      -- the node of the only class of the root
      have huniq : ∀ m, IsSnippetNode g m → r.id = m.id → m = t.subject ∧ Cls.ofStr t.object.id = .snippet := by
        rintro m ⟨_, t', h1, h2, h3, h4⟩ hm
        have : t' ∈ typeTriples g.triples r.id := by
          simp only [typeTriples, List.mem_filter, Bool.and_eq_true, decide_eq_true_eq]
          exact ⟨h1, by rw [h2, hm], h3⟩
        rw [htt, List.mem_singleton] at this
        subst this
        exact ⟨h2.symm, h4⟩
      by_cases hcls : Cls.ofStr t.object.id = .snippet
      · rw [if_pos hcls] at e
        obtain ⟨_, s1, e1, e2⟩ := bind_inv e
        have hsn : IsSnippetNode g t.subject := ⟨⟨r, hr r (by simp), hmt.2.1.symm⟩, t, hmt.1, rfl, hmt.2.2, hcls⟩
        have hi1 := hi.add ht hg hc hk hsn hd.sound e1
        obtain ⟨x, i, s2, q1, q2, q3, q4, q5, q6, q7, q8, q9, q10, q11⟩ := content_addSnippet hg hc hk hsn hd.sound e1
        have hd1 := (hd.mono q3 q4.grows q4.doc).mono q8 q9 (by rw [q7])
        obtain ⟨h1, h2⟩ := ih _ s1 s' hrs hd1 hi1 e2
        refine ⟨h1, h2.imp fun m hm => ?_⟩
        rcases hm with hm | ⟨hm, r', hr', he⟩
        · exact .inl (.inl hm)
        · rcases List.mem_cons.1 hr' with rfl | hr'
          · exact .inl (.inr (huniq m hm he).1)
          · exact .inr ⟨hm, r', hr', he⟩
      · rw [if_neg hcls] at e
        obtain ⟨h1, h2⟩ := ih done s s' hrs hd hi e
        refine ⟨h1, h2.imp fun m hm => ?_⟩
        rcases hm with hm | ⟨hm, r', hr', he⟩
        · exact .inl hm
        · rcases List.mem_cons.1 hr' with rfl | hr'
          · exact absurd (huniq m hm he).2 hcls
          · exact .inr ⟨hm, r', hr', he⟩

/-- The state at the end of reading. -/
theorem load_content {v : Version} {o : MapOrder} {g : Graph} {d : Doc} (ht : Tidy g) (h : loadGraph v o g = .ok d) :
    ∃ n s, IsDocumentNode g n ∧ DocRead v g n (g.of n) s ∧ s.grey = (fun _ => false) ∧ SnipInv v g (IsSnippetNode g) s ∧ d = s.docOf o := by
  have hg := Good.ofDepth v g g.depth
  have hc := CGood.ofDepth v ht g.depth
  have hk := snips_depth v g g.depth
  unfold loadGraph at h
  cases e : loadState v g o g.depth {} with
  | err => rw [e] at h; simp at h
  | panic => rw [e] at h; simp at h
  | cut => rw [e] at h; simp at h
  | ok x =>
    obtain ⟨u, s'⟩ := x
    rw [e] at h
    unfold loadState at e
    obtain ⟨n, e1, e2⟩ := bind_lift_inv e
    obtain ⟨_, s1, e3, e4⟩ := bind_inv e2
    obtain ⟨_, s2, e5, e6⟩ := bind_inv e4
    have e6 := modify_inv e6
    have hd := content_documentAt hg hc (docNode_ok e1) e3
    have hsn := snips_documentAt hk n _ _ _ e3
    have hi : SnipInv v g (fun _ => False) s1 := by
      constructor
      · intro j f hf p hp
        obtain ⟨k, hk⟩ := hsn
        have h1 : (s1.fileHeap.map (·.snippets))[j]? = some f.snippets := by simp [hf]
        rw [hk] at h1
        rcases get_append_replicate h1 with h1 | ⟨h1, _⟩
        · simp at h1
        · rw [h1] at hp; simp at hp
      · intro m hm; exact hm.elim
      · intro m hm; exact hm.elim
      · intro j f hf
        obtain ⟨k, hk⟩ := hsn
        have h1 : (s1.fileHeap.map (·.snippets))[j]? = some f.snippets := by simp [hf]
        rw [hk] at h1
        rcases get_append_replicate h1 with h1 | ⟨h1, _⟩
        · simp at h1
        · rw [h1]; exact .nil
    obtain ⟨h1, h2⟩ := content_snippetRoots ht hg hc hk g.roots _ s1 s2 (fun _ h => h) hd hi e5
    have hg1 := RTrip.ok (free_documentAt (free_depth v g) n) (s := {}) (by funext x; rfl) e3
    have hg2 := RTrip.ok (free_snippetRoots v (free_depth v g) g.roots) hg1 e5
    have hdf : s2.doc.files = [] := h1.sound.inv.docFiles
    have e7 : s' = s2.collected o := by rw [e6, hdf]; rfl
    refine ⟨n, s2, docNode_ok e1, h1, hg2, h2.imp fun m hm => .inr ⟨hm, ?_⟩, ?_⟩
    · obtain ⟨r, hr, he⟩ := hm.1
      exact ⟨r, hr, he⟩
    · subst e7
      simp only [deref_collected o h1.sound.inv] at h
      injection h with h
      exact h.symm


/-! ## The end of reading -/

/-- The state at the end of reading: nothing is being read. -/
structure Final (v : Version) (g : Graph) (s : RState) : Prop where
  tidy : Tidy g
  sound : Sound v g s
  grey : s.grey = fun _ => false

theorem Final.black {v : Version} {g : Graph} {s : RState} (h : Final v g s) {x : Str} {o : CObj} (hc : s.view.cached x o) :
    mapGet x s.cache = some ⟨o, false⟩ := by
  obtain ⟨b, hb⟩ := hc
  have hb : mapGet x s.cache = some ⟨o, b⟩ := hb
  have := congrFun h.grey x
  simp only [RState.grey, hb] at this
  rw [hb, this]

/-- Nodes of files with the same identifier are the same. -/
theorem Final.same {v : Version} {g : Graph} {s : RState} (h : Final v g s) {x y : Str} {j k : Nat} {id : Str}
    (hx : s.view.cached x (.file j)) (hy : s.view.cached y (.file k)) (ej : s.view.fids[j]? = some id) (ek : s.view.fids[k]? = some id) :
    x = y ∧ j = k := by
  have hi := h.sound.inv
  obtain ⟨a, ha, ea⟩ := hi.fileIds h.tidy x j hx
  obtain ⟨b, hb, eb⟩ := hi.fileIds h.tidy y k hy
  rw [ej] at ea; injection ea with ea
  rw [ek] at eb; injection eb with eb
  subst ea eb
  have := h.tidy.2.file x y _ (hi.kinds h.tidy.1 _ _ hx) (hi.kinds h.tidy.1 _ _ hy) ha hb
  subst this
  have := cached_unique hx hy
  injection this with this
  exact ⟨rfl, this⟩

theorem mem_allFiles {d : Doc} {f : FileV} : f ∈ allFiles d ↔ f ∈ d.files ∨ ∃ p ∈ d.packages, f ∈ p.files := by
  simp [allFiles]

/-- Every file that was read is in the document. -/
theorem Final.file_in {v : Version} {g : Graph} {s : RState} (h : Final v g s) (o : MapOrder) {x : Str} {j : Nat}
    (hx : s.view.cached x (.file j)) : s.fileOf j ∈ allFiles (s.docOf o) ∧ FileIdOf x (s.fileOf j).spdxId := by
  have hi := h.sound.inv
  obtain ⟨id, hid, ej⟩ := hi.fileIds h.tidy x j hx
  refine ⟨?_, by rw [(fileOf_get ej).2]; exact hid⟩
  obtain ⟨e, he, hk⟩ := List.mem_map.1 (hi.filesDone h.tidy x j id (h.black hx) hid)
  obtain ⟨y, hy⟩ := hi.filesCanon h.tidy e he
  have ee := hi.files e he
  rw [hk] at ee
  have hj := (h.same hx hy ej ee).2
  rw [mem_allFiles]
  by_cases ha : id ∈ s.assoc
  · obtain ⟨z, i, l, k, h1, h2, h3, h4⟩ := h.sound.content.assoc id ha
    obtain ⟨w, hw⟩ := hi.pkgFilesCanon h.tidy l (List.mem_iff_getElem?.2 ⟨i, h2⟩) k h3
    have hk := (h.same hx hw ej h4).2
    refine .inr ⟨s.packageOf i, List.mem_map.2 ⟨i, hi.pkgsDone h.tidy z i (h.black h1), rfl⟩, ?_⟩
    simp only [RState.view, List.getElem?_map, Option.map_eq_some_iff] at h2
    obtain ⟨p, hp, rfl⟩ := h2
    simp only [RState.packageOf, hp, Option.getD_some, List.mem_map]
    exact ⟨k, h3, by rw [hk]⟩
  · refine .inl (List.mem_map.2 ⟨e, List.mem_filter.2 ⟨(o.perm _).mem_iff.2 he, ?_⟩, by rw [hj]⟩)
    rw [hk]
    simpa using ha

/-- Every file of the document was read from a node. -/
theorem Final.file_of {v : Version} {g : Graph} {s : RState} (h : Final v g s) {o : MapOrder} {f : FileV} (hf : f ∈ allFiles (s.docOf o)) :
    ∃ x j, f = s.fileOf j ∧ s.view.cached x (.file j) := by
  have hi := h.sound.inv
  rcases mem_allFiles.1 hf with hf | ⟨p, hp, hf⟩
  · obtain ⟨e, he, rfl⟩ := List.mem_map.1 hf
    obtain ⟨x, hx⟩ := hi.filesCanon h.tidy e ((o.perm _).mem_iff.1 (List.mem_filter.1 he).1)
    exact ⟨x, e.2, rfl, hx⟩
  · obtain ⟨i, hi', rfl⟩ := List.mem_map.1 hp
    obtain ⟨l, hl, e2⟩ := packageOf_files (hi.packages i hi')
    rw [e2] at hf
    obtain ⟨j, hj, rfl⟩ := List.mem_map.1 hf
    obtain ⟨x, hx⟩ := hi.pkgFilesCanon h.tidy l hl j hj
    exact ⟨x, j, rfl, hx⟩

/-- Every package that was read is in the document. -/
theorem Final.package_in {v : Version} {g : Graph} {s : RState} (h : Final v g s) (o : MapOrder) {x : Str} {i : Nat}
    (hx : s.view.cached x (.pkg i)) : s.packageOf i ∈ (s.docOf o).packages ∧ PackageIdOf x (s.packageOf i).spdxId := by
  obtain ⟨id, hid, ej⟩ := h.sound.inv.pkgIds h.tidy x i hx
  exact ⟨List.mem_map.2 ⟨i, h.sound.inv.pkgsDone h.tidy x i (h.black hx), rfl⟩, by rw [packageOf_id ej]; exact hid⟩

theorem Final.told {v : Version} {g : Graph} {s : RState} (h : Final v g s) (o : MapOrder) {ts : List Triple} (ht : ToldIn g s ts) :
    Told g (s.docOf o) ts where
  annotations := ht.annotations
  relationships t hm hp := by
    rcases (ht.relationships t hm hp).2 with hg | ⟨r, hr, u, h1, h3, h4, _⟩
    · rw [h.grey] at hg; simp at hg
    · exact ⟨r, hr, u, h3, (leads_relationship h1).1, (leads_relationship h1).2, h4⟩
  dependencies t hm hp := by
    obtain ⟨j, hj⟩ := ht.dependencies t hm hp
    exact ⟨_, (h.file_in o hj).1, (h.file_in o hj).2⟩

theorem Final.related {v : Version} {g : Graph} {s : RState} (h : Final v g s) (o : MapOrder) {ts : List Triple} (hr : RelatedIn g s ts) :
    Related g (s.docOf o) ts := by
  intro t ht hp u hu
  obtain ⟨h1, h2⟩ := hr t ht hp u hu
  constructor
  · intro hc
    obtain ⟨j, hj⟩ := h1 hc
    exact ⟨_, (h.file_in o hj).1, (h.file_in o hj).2⟩
  · intro hc
    obtain ⟨j, hj⟩ := h2 hc
    exact ⟨_, (h.package_in o hj).1, (h.package_in o hj).2⟩

/-- Every file of the document is what the statements about its node say. -/
theorem Final.file_says {v : Version} {g : Graph} {s : RState} (h : Final v g s) {o : MapOrder} {f : FileV} (hf : f ∈ allFiles (s.docOf o)) :
    ∃ x ts, FileFrom v g f x ts ∧ Told g (s.docOf o) ts := by
  obtain ⟨x, j, rfl, hx⟩ := h.file_of hf
  obtain ⟨ns, h1, h2, f, h3, h4, h5⟩ := h.sound.content.files x j (h.black hx)
  have e : s.fileOf j = f := by simp [RState.fileOf, h3]
  exact ⟨x, ns.flatMap g.of, ⟨h.sound.inv.kinds h.tidy.1 _ _ hx, (h.file_in o hx).2, ⟨ns, h1, fun n hn => ⟨(h2 n hn).1, leads_referred (.inl (h2 n hn).2)⟩, rfl⟩, by rw [e]; exact h4⟩, h.told o h5⟩

theorem pointwise_map_right {α β γ : Type} {R : α → β → Prop} {S : α → γ → Prop} {f : β → γ} {as : List α} {bs : List β}
    (h : Pointwise R as bs) (hf : ∀ a b, R a b → S a (f b)) : Pointwise S as (bs.map f) := by
  induction h with
  | nil => exact .nil
  | cons h1 _ ih => exact .cons (hf _ _ h1) ih

/-- Every package of the document is what the statements about its node say. -/
theorem Final.package_says {v : Version} {g : Graph} {s : RState} (h : Final v g s) {o : MapOrder} {p : PackageV}
    (hp : p ∈ (s.docOf o).packages) : ∃ x ts, PackageFrom v g p x ts ∧ Told g (s.docOf o) ts := by
  obtain ⟨i, hi, rfl⟩ := List.mem_map.1 hp
  obtain ⟨x, hx⟩ := h.sound.inv.pkgsCanon h.tidy i hi
  obtain ⟨ns, h1, h2, q, h3, h4, h5⟩ := h.sound.content.packages x i (h.black hx)
  have e : s.packageOf i = { q with files := q.files.map s.fileOf } := by simp [RState.packageOf, h3]
  refine ⟨x, ns.flatMap g.of, ⟨h.sound.inv.kinds h.tidy.1 _ _ hx, (h.package_in o hx).2, ⟨ns, h1, fun n hn => ⟨(h2 n hn).1, leads_referred (.inr (h2 n hn).2)⟩, rfl⟩, ?_⟩, h.told o h5⟩
  rw [e]
  exact { h4 with files := pointwise_map_right h4.files fun n j hj => (h.file_in o hj).2 }


/-! ## The only document -/

theorem snippetRoots_typed {v : Version} {g : Graph} {c : RCalls} {u : Unit} : ∀ (rs : List RNode) (s s' : RState),
    snippetRoots v g c rs s = .ok (u, s') → ∀ r ∈ rs, ∃ t, typeTriples g.triples r.id = [t]
  | [], _, _, _ => by simp
  | r :: rs, s, s', e => by
    unfold snippetRoots at e
    match htt : typeTriples g.triples r.id with
    | [] => rw [htt] at e; exact (err_inv e).elim
    | _ :: _ :: _ => rw [htt] at e; exact (err_inv e).elim
    | [t] =>
      rw [htt] at e
      dsimp only at e
      intro x hx
      rcases List.mem_cons.1 hx with rfl | hx
      · exact ⟨t, htt⟩
      · by_cases hcls : Cls.ofStr t.object.id = .snippet
        · rw [if_pos hcls] at e
          obtain ⟨_, s1, _, e2⟩ := bind_inv e
          exact snippetRoots_typed rs _ _ e2 x hx
        · rw [if_neg hcls] at e
          exact snippetRoots_typed rs _ _ e x hx

theorem findDocNode_same {g : Graph} {n : RNode} : ∀ (rs : List RNode) (found : Option RNode), findDocNode g found rs = .ok (some n) →
    (∀ m, found = some m → m.id = n.id) ∧ ∀ r ∈ rs, ∀ t, typeTriples (g.of r) r.id = [t] → Cls.ofStr t.object.id = .spdxDocument → r.id = n.id
  | [], found, e => by
    simp only [findDocNode, Res.ok.injEq] at e
    subst e
    exact ⟨by simp, by simp⟩
  | r :: rs, found, e => by
    unfold findDocNode at e
    have ih := fun f => findDocNode_same (g := g) (n := n) rs f
    match htt : typeTriples (g.of r) r.id with
    | [] => rw [htt] at e; simp at e
    | t :: more =>
      rw [htt] at e
      have hsub : t.subject = r := by
        have hmt : t ∈ typeTriples (g.of r) r.id := by rw [htt]; simp
        exact (mem_of (List.mem_filter.1 hmt).1).2
      dsimp only at e
      by_cases hcls : Cls.ofStr t.object.id = .spdxDocument
      · rw [if_pos hcls] at e
        by_cases hmore : more ≠ []
        · rw [if_pos hmore] at e; simp at e
        · rw [if_neg hmore] at e
          have step : findDocNode g (some t.subject) rs = .ok (some n) ∧ (∀ m, found = some m → m.id = t.subject.id) := by
            cases found with
            | none => exact ⟨e, by simp⟩
            | some m =>
              dsimp only at e
              by_cases hm : m.id ≠ t.subject.id
              · rw [if_pos hm] at e; simp at e
              · rw [if_neg hm] at e
                refine ⟨e, fun m' h => ?_⟩
                injection h with h
                subst h
                simpa using hm
          obtain ⟨h1, h2⟩ := ih _ step.1
          refine ⟨fun m hm => (step.2 m hm).trans (h1 _ rfl), fun x hx t' ht' hc' => ?_⟩
          rcases List.mem_cons.1 hx with rfl | hx
          · have := h1 _ rfl
            rw [hsub] at this; exact this
          · exact h2 x hx t' ht' hc'
      · rw [if_neg hcls] at e
        obtain ⟨h1, h2⟩ := ih _ e
        refine ⟨h1, fun x hx t' ht' hc' => ?_⟩
        rcases List.mem_cons.1 hx with rfl | hx
        · rw [htt] at ht'
          injection ht' with h3 h4
          subst h3
          exact absurd hc' hcls
        · exact h2 x hx t' ht' hc'

theorem typeTriples_mem {g : Graph} {n : RNode} {t : Triple} (h : t ∈ g.triples) (hs : t.subject = n) (hp : t.pred = .type_) :
    t ∈ typeTriples g.triples n.id ∧ t ∈ typeTriples (g.of n) n.id := by
  simp only [typeTriples, Graph.of, List.mem_filter, Bool.and_eq_true, decide_eq_true_eq]
  exact ⟨⟨h, by rw [hs], hp⟩, ⟨h, hs⟩, by rw [hs], hp⟩

theorem typeTriples_sub {g : Graph} {n : RNode} {t : Triple} (h : t ∈ typeTriples (g.of n) n.id) : t ∈ typeTriples g.triples n.id := by
  simp only [typeTriples, Graph.of, List.mem_filter, Bool.and_eq_true, decide_eq_true_eq] at h ⊢
  exact ⟨h.1.1, h.2⟩

theorem typeTriples_sublist (g : Graph) (n : RNode) : (typeTriples (g.of n) n.id).Sublist (typeTriples g.triples n.id) :=
  List.filter_sublist.filter _

/-- A graph that is read has one node for the document. -/
theorem one_document {v : Version} {o : MapOrder} {g : Graph} {d : Doc} (h : loadGraph v o g = .ok d) {n m : RNode}
    (hn : IsDocumentNode g n) (hm : IsDocumentNode g m) : n = m := by
  unfold loadGraph at h
  cases e : loadState v g o g.depth {} with
  | err => rw [e] at h; simp at h
  | panic => rw [e] at h; simp at h
  | cut => rw [e] at h; simp at h
  | ok x =>
    obtain ⟨u, s'⟩ := x
    unfold loadState at e
    obtain ⟨n0, e1, e2⟩ := bind_lift_inv e
    obtain ⟨_, s1, e3, e4⟩ := bind_inv e2
    obtain ⟨_, s2, e5, e6⟩ := bind_inv e4
    have ht := snippetRoots_typed g.roots s1 s2 e5
    unfold docNode at e1
    rw [bind_eq_ok] at e1
    obtain ⟨x, e7, e8⟩ := e1
    cases x with
    | none => simp at e8
    | some n1 =>
      obtain ⟨-, hs⟩ := findDocNode_same g.roots none e7
      have key : ∀ k, IsDocumentNode g k → ∃ t, typeTriples g.triples k.id = [t] ∧ t.subject = k ∧ k.id = n1.id := by
        rintro k ⟨hk, t, q1, q2, q3, q4⟩
        obtain ⟨t', ht'⟩ := ht k hk
        obtain ⟨r1, r2⟩ := typeTriples_mem q1 q2 q3
        rw [ht', List.mem_singleton] at r1
        subst r1
        refine ⟨t, ht', q2, hs k hk t ?_ q4⟩
        have hsub := typeTriples_sublist g k
        rw [ht'] at hsub
        exact hsub.eq_of_length_le (List.length_pos_of_mem r2)
      obtain ⟨t, k1, k2, k3⟩ := key n hn
      obtain ⟨t', k1', k2', k3'⟩ := key m hm
      rw [k3] at k1
      rw [k3', k1] at k1'
      injection k1' with k1'
      rw [← k2, ← k2', k1']

end Verif
