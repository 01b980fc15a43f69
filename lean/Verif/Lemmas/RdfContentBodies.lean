import Verif.Lemmas.RdfContentCalls

/-!
# The methods of the RDF reader that read packages and relationships
-/

namespace Verif
open RdfM Spec Spec.Rdf

/-! ## Packages -/

/-- The parts of reading a package. -/
theorem packageBody_inv {v : Version} {g : Graph} (ht : Tidy g) {c : RCalls} {node : RNode} (hu : UsedAsPackage g node.id) {s s' : RState}
    {k : Nat} (hi : RInv g s.view) (e : packageBody v g c node s = .ok (k, s')) :
    (mapGet node.id s.cache = some ⟨.pkg k, true⟩ ∧ s' = { s with pkgHeap := s.pkgHeap ++ [{}] }) ∨
    ∃ id s3 s4 s5, PackageIdOf node.id id ∧ RInv g s3.view ∧
      s3 = { s with pkgHeap := s.pkgHeap ++ [{ spdxId := id }], cache := mapInsert node.id ⟨.pkg k, true⟩ s.cache } ∧
      ((mapGet node.id s.cache = none ∧ k = s.pkgHeap.length) ∨ mapGet node.id s.cache = some ⟨.pkg k, false⟩) ∧
      RdfM.each (packageStep v g c k) (g.of node) s3 = .ok ((), s4) ∧
      (s5 = s4 ∨ s5 = { s4 with doc := { s4.doc with packages := s4.doc.packages ++ [k] } }) ∧ leave node.id s5 = .ok ((), s') := by
  unfold packageBody at e
  rw [bind_at (a := s.pkgHeap.length) (s' := { s with pkgHeap := s.pkgHeap ++ [{}] }) rfl] at e
  have canon : ∀ id k0, PackageIdOf node.id id → k0 ∈ s.view.packages → s.view.pids[k0]? = some id → s.view.cached node.id (.pkg k0) := by
    intro id k0 hid hm e'
    obtain ⟨x, hx⟩ := hi.pkgsCanon ht _ hm
    obtain ⟨id', h1, h2⟩ := hi.pkgIds ht x _ hx
    rw [e'] at h2
    injection h2 with h2
    subst h2
    rw [← ht.2.package x node.id id (hi.kinds ht.1 _ _ hx) hu h1 hid]; exact hx
  have main : ∀ o', (mapGet node.id s.cache = none ∧ o' = .pkg s.pkgHeap.length ∨ mapGet node.id s.cache = some ⟨o', false⟩) →
      ∀ k s', (packageNew v g c node s.pkgHeap.length >>= fun k => leave node.id >>= fun _ => pure k)
        { s with pkgHeap := s.pkgHeap ++ [{}], cache := mapInsert node.id ⟨o', true⟩ s.cache } = .ok (k, s') →
      ∃ id s3 s4 s5, PackageIdOf node.id id ∧ RInv g s3.view ∧
        s3 = { s with pkgHeap := s.pkgHeap ++ [{ spdxId := id }], cache := mapInsert node.id ⟨.pkg k, true⟩ s.cache } ∧
        ((mapGet node.id s.cache = none ∧ k = s.pkgHeap.length) ∨ mapGet node.id s.cache = some ⟨.pkg k, false⟩) ∧
        RdfM.each (packageStep v g c k) (g.of node) s3 = .ok ((), s4) ∧
        (s5 = s4 ∨ s5 = { s4 with doc := { s4.doc with packages := s4.doc.packages ++ [k] } }) ∧ leave node.id s5 = .ok ((), s') := by
    intro o' ho k s' e
    obtain ⟨k', s5, e1, e2⟩ := bind_inv e
    obtain ⟨_, s6, e3, e4⟩ := bind_inv e2
    obtain ⟨rfl, rfl⟩ := pure_inv e4
    unfold packageNew at e1
    obtain ⟨id, hid, e5⟩ := bind_lift_inv e1
    obtain ⟨_, s8, e6, e7⟩ := bind_inv e5
    have e8 := modify_inv e6
    obtain ⟨s9, s10, e9, e10⟩ := bind_inv e7
    have e11 : s9 = s8 ∧ s10 = s8 := by injection e9 with e9; injection e9 with h1 h2; exact ⟨h1.symm, h2.symm⟩
    obtain ⟨e12, e13⟩ := e11
    rw [e12, e13] at e10
    clear e e2 e1 e5 e7
    simp only [rmodify_last] at e8
    have hpk : s8.view.packages = s.view.packages := by rw [e8]; rfl
    have hpid : s8.view.pids = s.view.pids ++ [id] := by rw [e8]; simp [RState.view]
    -- which package it is
    have hres : ∃ s4, RdfM.each (packageStep v g c k) (g.of node) s8 = .ok ((), s4) ∧
        (s5 = s4 ∨ s5 = { s4 with doc := { s4.doc with packages := s4.doc.packages ++ [k] } }) ∧
        ((∃ hk : s8.findPackage id = some k, True) ∨ (s8.findPackage id = none ∧ k = s.pkgHeap.length)) := by
      cases hfp : s8.findPackage id with
      | some k0 =>
        rw [hfp] at e10
        obtain ⟨_, s4, e14, e15⟩ := bind_inv e10
        obtain ⟨h1, h2⟩ := pure_inv e15
        rw [h1]
        exact ⟨s4, e14, .inl h2, .inl ⟨rfl, trivial⟩⟩
      | none =>
        rw [hfp] at e10
        obtain ⟨_, s4, e14, e15⟩ := bind_inv e10
        obtain ⟨_, s11, e16, e17⟩ := bind_inv e15
        obtain ⟨h1, h2⟩ := pure_inv e17
        have e18 := modify_inv e16
        rw [h1]
        exact ⟨s4, e14, .inr (by rw [h2, e18]), .inr ⟨rfl, rfl⟩⟩
    obtain ⟨s4, e14, e15, hfp⟩ := hres
    have oldOrNew : ∀ k0, k0 ∈ s.view.packages → s8.view.pids[k0]? = some id → s.view.pids[k0]? = some id := by
      intro k0 hm h
      have hlt := hi.packages k0 hm
      rw [hpid, List.getElem?_append_left hlt] at h
      exact h
    have hk' : (mapGet node.id s.cache = none ∧ k = s.pkgHeap.length ∨ mapGet node.id s.cache = some ⟨.pkg k, false⟩) ∧ o' = .pkg k := by
      rcases hfp with ⟨hk, -⟩ | ⟨hnone, hk⟩
      · obtain ⟨hm, hp⟩ := findPackage_some hk
        rw [hpk] at hm
        obtain ⟨b, hc⟩ := canon id k hid hm (oldOrNew k hm hp)
        have hc : mapGet node.id s.cache = _ := hc
        rcases ho with ⟨hn, _⟩ | hb
        · rw [hc] at hn; simp at hn
        · have hc' := hc
          rw [hb] at hc'
          injection hc' with hc'; injection hc' with h1 h2
          subst h1
          exact ⟨.inr hb, rfl⟩
      · rcases ho with ⟨hn, ho⟩ | hb
        · exact ⟨.inl ⟨hn, hk⟩, by rw [ho, hk]⟩
        · exfalso
          have hrole := hi.kinds ht.1 node.id o' ⟨false, hb⟩
          cases o' with
          | nil => exact absurd hrole (ht.1.package _ hu).1
          | file i => exact absurd hu (ht.1.file _ hrole).1
          | rel => exact absurd hrole (ht.1.package _ hu).2
          | pkg j =>
            obtain ⟨id', h1, h2⟩ := hi.pkgIds ht node.id j ⟨false, hb⟩
            have : id' = id := by unfold PackageIdOf at h1; rw [hid] at h1; injection h1 with h; exact h.symm
            subst this
            refine findPackage_none hnone (k := j) (by rw [hpk]; exact hi.pkgsDone ht node.id j hb) ?_
            rw [hpid]; exact append_get h2 _
    obtain ⟨hk', rfl⟩ := hk'
    refine ⟨id, s8, s4, s5, hid, ?_, e8, hk', e14, e15, e3⟩
    have hv3 : s8.view = View.put { s.view with pids := s.view.pids ++ [id], pfs := s.view.pfs ++ [[]] } node.id (.pkg k) true := by
      rw [e8]
      simp [RState.view, View.put]
    rw [hv3]
    refine ((hi.growPackage id).put (x := node.id) (o := .pkg k) (b := true) ?_ fun _ => .inl rfl).1
    rcases hk' with ⟨hn, rfl⟩ | hb
    · refine .inr ⟨hn, hu, by simp, fun j hj => ?_⟩
      injection hj with hj
      subst hj
      exact ⟨id, hid, by simp [RState.view]⟩
    · exact .inl ⟨_, hb⟩
  rcases enter_eq node.id (.pkg s.pkgHeap.length) { s with pkgHeap := s.pkgHeap ++ [{}] } with
    ⟨o', hc, e'⟩ | ⟨hc, e'⟩ | ⟨o', hc, e'⟩
  · rw [bind_at e'] at e
    cases o' with
    | pkg j => obtain ⟨rfl, rfl⟩ := pure_inv e; exact .inl ⟨hc, rfl⟩
    | nil => exact (panic_inv e).elim
    | file i => exact (panic_inv e).elim
    | rel => exact (panic_inv e).elim
  · rw [bind_at e'] at e
    exact .inr (main (.pkg s.pkgHeap.length) (.inl ⟨hc, rfl⟩) k s' e)
  · rw [bind_at e'] at e
    exact .inr (main o' (.inr hc) k s' e)

theorem content_packageBody {v : Version} {g : Graph} (ht : Tidy g) {c : RCalls} (hg : Good g c) (hc : CGood v g c) {node : RNode} (hv : Leads g (.package node))
    {s s' : RState} {k : Nat} (hs : Sound v g s) (e : packageBody v g c node s = .ok (k, s')) :
    Sound v g s' ∧ Calm s s' ∧ s'.view.cached node.id (.pkg k) := by
  have hu : UsedAsPackage g node.id := leads_used hv
  have hkeep := (keeps_packageBody v hg node s.view hu).ok hs.inv (.refl _) e
  rcases packageBody_inv ht hu hs.inv e with ⟨hgrey, rfl⟩ | ⟨id, s3, s4, s5, hid, hi3, es3, hk, e4, es5, e5⟩
  · obtain ⟨h1, h2⟩ := hs.grow hkeep.1 rfl (List.prefix_refl _) (List.prefix_append _ _) rfl rfl (List.prefix_refl _)
      (fun _ h => .inl h) rfl
    exact ⟨h1, h2, true, hgrey⟩
  · have hstart : InNode v g s node.id (.pkg k) s3 := by
      refine InNode.start hs hi3 (by rw [es3]) ?_ (by rw [es3]; exact List.prefix_refl _) (by rw [es3]; exact List.prefix_append _ _)
        (by rw [es3]) (by rw [es3])
      rcases hk with h | h
      · exact .inl h.1
      · exact .inr h
    obtain ⟨ns, hns, hread⟩ : ∃ ns : List RNode, (∀ n ∈ ns, n.id = node.id ∧ Leads g (.package n)) ∧ PackageRead v g s3 k (ns.flatMap g.of) := by
      rcases hk with ⟨_, hk⟩ | hb
      · exact ⟨[], by simp, { spdxId := id }, by rw [es3, hk]; simp, packageSays_nil, .nil⟩
      · obtain ⟨ns, _, h2, h3⟩ := hs.content.packages _ _ hb
        refine ⟨ns, h2, h3.grow hstart.frame.grows ?_⟩
        have := hs.inv.cachePkg node.id k ⟨_, hb⟩
        simp only [RState.view, List.length_map] at this
        rw [es3]; exact List.getElem?_append_left this
    have hloop := each_inv (I := fun ts s => InNode v g _ node.id (.pkg k) s ∧ PackageRead v g s k ts)
      (fun us t s s' a hm h e => content_packageStep ht hg hc hv hm h.1 h.2 e) ⟨hstart, hread⟩ e4
    obtain ⟨h4, hr4⟩ := hloop
    have h5 : s5.cache = s4.cache ∧ s5.fileHeap = s4.fileHeap ∧ s5.pkgHeap = s4.pkgHeap ∧ core s5.doc = core s4.doc ∧
        s5.assoc = s4.assoc ∧ s5.doc.annotations = s4.doc.annotations ∧ s5.doc.relationships = s4.doc.relationships := by
      rcases es5 with rfl | rfl <;> exact ⟨rfl, rfl, rfl, rfl, rfl, rfl, rfl⟩
    obtain ⟨c1, c2, c3, c4, c5, c6, c7⟩ := h5
    have e5 := leave_inv (s := s5) (by rw [c1]; exact h4.now) e5
    subst e5
    exact h4.stop hkeep.1 (by simp only [c1]) c2 c3 c4 c5 c6 (by simp only [c7]; exact List.prefix_refl _)
      (fun _ r h => .inl (by simp only [c7] at h; exact h))
      (fun hr => absurd hr (ht.1.package _ hu).2) (by simp) (fun hgr j hj => by
        injection hj with hj
        subst hj
        refine ⟨ns ++ [node], by simp, ?_, ?_⟩
        · intro n hn
          rcases List.mem_append.1 hn with hn | hn
          · exact hns n hn
          · rw [List.mem_singleton.1 hn]; exact ⟨rfl, hv⟩
        · have := hr4.grow hgr (by simp only [c3])
          simpa using this)

/-! ## Relationships -/

theorem refReads_iff {text : Str} {r : DocElementID} : RefReads text r ↔ extractDocElementID text = .ok r := by
  refine ⟨fun ⟨⟨⟨h2, h3⟩, h4, h1⟩, h⟩ => extractDocElementID_eq_ok.2 ⟨h1, h2, h3, h4, ?_⟩, refReads_of⟩
  rcases h with ⟨hd, rfl⟩ | ⟨hd, rfl⟩
  · simp [renderDocElementID, h1, hd, spdxRefPrefix]
  · simp [renderDocElementID, h1, hd, spdxRefPrefix, documentRefPrefix]

theorem reference_iff (n : RNode) (r : DocElementID) : ReferenceSays n r ↔ referenceOf n.id = .ok r := by
  unfold ReferenceSays referenceOf
  simp only [lastPart_iff, refReads_iff, List.mem_cons, List.not_mem_nil, or_false]
  constructor
  · rintro ⟨x, rfl, ⟨h, rfl⟩ | ⟨h, h'⟩⟩
    · rw [if_pos h]
    · rw [if_neg h]; exact h'
  · intro h
    refine ⟨_, rfl, ?_⟩
    split at h
    · next hl => injection h with h; exact .inl ⟨hl, h.symm⟩
    · next hl => exact .inr ⟨hl, h⟩

theorem relationshipType_iff (n : RNode) (x : Str) : RelationshipTypeSays n x ↔ relationshipTypeOf n.id = .ok x := by
  unfold RelationshipTypeSays relationshipTypeOf
  simp only [lastPart_iff]
  generalize g!"relationshipType_" = p
  generalize allRelationshipTypes = all
  constructor
  · rintro ⟨hx, y, e, rfl⟩
    rw [e]
    simp only [hasPrefix_append, trimPrefix_append, Bool.not_true, Bool.false_eq_true, if_false, List.contains_iff_mem]
    rw [if_pos hx]
  · intro h
    by_cases hp : hasPrefix p (lastPart (trimSpace n.id)) = true
    · obtain ⟨y, e⟩ := hasPrefix_iff.1 hp
      rw [e] at h
      simp only [hasPrefix_append, trimPrefix_append, Bool.not_true, Bool.false_eq_true, if_false, List.contains_iff_mem] at h
      split at h
      · next hm => injection h with h; subst h; exact ⟨hm, y, e, rfl⟩
      · simp at h
    · simp [hp] at h

theorem RelatedIn.nil {g : Graph} {s : RState} : RelatedIn g s [] := by intro t ht; simp at ht

theorem RelatedIn.snoc {g : Graph} {s : RState} {ts : List Triple} {t : Triple} (h : RelatedIn g s ts)
    (h' : t.pred = .relatedSpdxElement → ∀ u, typeTriples (g.of t.object) t.object.id = [u] →
      (Cls.ofStr u.object.id = .file → ∃ j, s.view.cached t.object.id (.file j)) ∧
      (Cls.ofStr u.object.id = .package → ∃ i, s.view.cached t.object.id (.pkg i))) : RelatedIn g s (ts ++ [t]) := by
  intro w hw
  rcases List.mem_append.1 hw with hw | hw
  · exact h w hw
  · rw [List.mem_singleton.1 hw]; exact h'

theorem content_relationshipStep {v : Version} {g : Graph} (ht : Tidy g) {c : RCalls} (hc : CGood v g c) {s0 s s' : RState} {x : Str}
    {o : CObj} {ts : List Triple} {t u : Triple} {subject : RNode} {r r' : Relationship} (hl' : Leads g (.relationship u)) (hm : t ∈ g.of u.object) (hn : InNode v g s0 x o s)
    (hr : Rdf.RelationshipSays g subject ts r) (hl : RelatedIn g s ts) (e : relationshipStep g c r t s = .ok (r', s')) :
    InNode v g s0 x o s' ∧ Rdf.RelationshipSays g subject (ts ++ [t]) r' ∧ RelatedIn g s' (ts ++ [t]) := by
  obtain ⟨h1, h2, h3, h4, h5⟩ := hr
  unfold relationshipStep at e
  cases hp : t.pred <;> simp only [hp] at e <;> first
    | (exact (err_inv e).elim)
    | skip
  case type_ | comment =>
    obtain ⟨rfl, rfl⟩ := pure_inv e
    exact ⟨hn, by constructor <;> says_step hp, hl.snoc (by simp [hp])⟩
  case relationshipType =>
    obtain ⟨y, e1, e2⟩ := bind_lift_inv e
    obtain ⟨rfl, rfl⟩ := pure_inv e2
    rw [← relationshipType_iff] at e1
    exact ⟨hn, by constructor <;> says_step hp, hl.snoc (by simp [hp])⟩
  case relatedSpdxElement =>
    obtain ⟨b, e1, e2⟩ := bind_lift_inv e
    rw [← reference_iff] at e1
    clear e
    by_cases hno : g.of t.object = []
    · rw [if_pos hno] at e2
      obtain ⟨rfl, rfl⟩ := pure_inv e2
      have hrel : RelatedSays g t.object b := ⟨b, e1, .inl ⟨hno, rfl⟩⟩
      exact ⟨hn, by constructor <;> says_step hp, hl.snoc fun _ u hu => by simp [hno, typeTriples] at hu⟩
    · rw [if_neg hno] at e2
      match htt : typeTriples (g.of t.object) t.object.id with
      | [] => rw [htt] at e2; exact (err_inv e2).elim
      | _ :: _ :: _ => rw [htt] at e2; exact (err_inv e2).elim
      | [tt] =>
        rw [htt] at e2
        obtain ⟨b', s1, e3, e4⟩ := bind_inv e2
        obtain ⟨rfl, e5⟩ := pure_inv e4
        have hmt : tt ∈ typeTriples (g.of t.object) t.object.id := by rw [htt]; simp
        have hsub : tt.subject = t.object := (mem_of (List.mem_filter.1 hmt).1).2
        have htp : tt.pred = .type_ := by
          have := (List.mem_filter.1 hmt).2
          simp only [Bool.and_eq_true, decide_eq_true_eq] at this
          exact this.2
        have key : Sound v g s1 ∧ Calm s s1 ∧ RelatedSays g t.object b' ∧
            (Cls.ofStr tt.object.id = .file → ∃ j, s1.view.cached t.object.id (.file j)) ∧
            (Cls.ofStr tt.object.id = .package → ∃ i, s1.view.cached t.object.id (.pkg i)) := by
          unfold relatedElement at e3
          cases hk : Cls.ofStr tt.object.id <;> simp only [hk] at e3 <;> first
            | (exact (err_inv e3).elim)
            | skip
          case file =>
            obtain ⟨j, s2, e6, e7⟩ := bind_inv e3
            obtain ⟨f, s3, e8, e9⟩ := bind_inv e7
            obtain ⟨q1, q2, q3⟩ := hc.file _ _ _ _ (hsub ▸ Leads.relatedFile hl' hm hp (List.mem_filter.1 hmt).1 htp hk) hn.sound e6
            obtain ⟨hf, q4⟩ := fileAt_inv e8
            obtain ⟨q5, q6⟩ := pure_inv e9
            rw [q4] at q6
            rw [q6]
            rw [hsub] at q3
            exact ⟨q1, q2, ⟨b, e1, .inr ⟨tt, htt, .inl ⟨hk, _, cached_file_id ht q1.inv q3 hf, q5⟩⟩⟩, fun _ => ⟨j, q3⟩, by simp⟩
          case package =>
            obtain ⟨j, s2, e6, e7⟩ := bind_inv e3
            obtain ⟨f, s3, e8, e9⟩ := bind_inv e7
            obtain ⟨q1, q2, q3⟩ := hc.package _ _ _ _ (hsub ▸ Leads.relatedPackage hl' hm hp (List.mem_filter.1 hmt).1 htp hk) hn.sound e6
            obtain ⟨hf, q4⟩ := packageAt_inv e8
            obtain ⟨q5, q6⟩ := pure_inv e9
            rw [q4] at q6
            rw [q6]
            rw [hsub] at q3
            exact ⟨q1, q2, ⟨b, e1, .inr ⟨tt, htt, .inr (.inl ⟨hk, _, cached_package_id ht q1.inv q3 hf, q5⟩)⟩⟩, by simp, fun _ => ⟨j, q3⟩⟩
          case spdxElement =>
            obtain ⟨q1, q2⟩ := lift_inv e3
            rw [q2]
            rw [hsub] at q1
            exact ⟨hn.sound, .refl _ _, ⟨b, e1, .inr ⟨tt, htt, .inr (.inr ⟨hk, _, (lastPart_iff _ _).2 rfl, refReads_of q1⟩)⟩⟩, by simp, by simp⟩
        obtain ⟨k1, k2, k3, k4, k5⟩ := key
        rw [e5]
        refine ⟨hn.move k1 k2, by constructor <;> says_step hp, (hl.grow k2.cached).snoc fun _ u hu => ?_⟩
        rw [htt] at hu
        injection hu with hu
        subst hu
        exact ⟨k4, k5⟩

theorem content_relationshipBody {v : Version} {g : Graph} (ht : Tidy g) {c : RCalls} (hg : Good g c) (hc : CGood v g c) {t : Triple}
    (hl' : Leads g (.relationship t)) {s s' : RState} {u : Unit} (hs : Sound v g s)
    (e : relationshipBody g c t s = .ok (u, s')) : Sound v g s' ∧ Calm s s' ∧ (s'.grey t.object.id = true ∨ RelRead g s' t.object.id) := by
  have hu : UsedAsRelationship g t.object.id := leads_used hl'
  have hkeep := (keeps_relationshipBody hg t s.view hu).ok hs.inv (.refl _) e
  unfold relationshipBody at e
  obtain ⟨a, ha, e1⟩ := bind_lift_inv e
  rw [← reference_iff] at ha
  have main : ∀ o, (mapGet t.object.id s.cache = none ∧ o = .rel ∨ mapGet t.object.id s.cache = some ⟨o, false⟩) → ∀ s',
      RInv g s'.view → ((RdfM.fold (relationshipStep g c) { refA := a } (g.of t.object) >>= fun r =>
          modDocument (fun d => { d with relationships := d.relationships ++ [r] }) >>= fun _ => leave t.object.id)
        { s with cache := mapInsert t.object.id ⟨o, true⟩ s.cache } = .ok (u, s')) →
      Sound v g s' ∧ Calm s s' ∧ (s'.grey t.object.id = true ∨ RelRead g s' t.object.id) := by
    intro o ho s' hi' e
    have hrole : RoleOf g t.object.id o ∧ (∀ j, o ≠ .file j) ∧ ∀ j, o ≠ .pkg j := by
      rcases ho with ⟨_, rfl⟩ | h
      · exact ⟨hu, by simp, by simp⟩
      · have hr := hs.inv.kinds ht.1 _ _ ⟨_, h⟩
        refine ⟨hr, ?_, ?_⟩
        · rintro j rfl; exact (ht.1.file _ hr).2.2 hu
        · rintro j rfl; exact (ht.1.package _ hr).2 hu
    have hv1 : RInv g ({ s with cache := mapInsert t.object.id ⟨o, true⟩ s.cache } : RState).view := by
      refine (hs.inv.put (x := t.object.id) (o := o) (b := true) ?_ fun _ => .inl rfl).1
      rcases ho with ⟨h, _⟩ | h
      · exact .inr ⟨h, hrole.1, fun j hj => absurd hj (hrole.2.1 j), fun j hj => absurd hj (hrole.2.2 j)⟩
      · exact .inl ⟨_, h⟩
    have hstart : InNode v g s t.object.id o { s with cache := mapInsert t.object.id ⟨o, true⟩ s.cache } :=
      InNode.start hs hv1 rfl (ho.imp And.left id) (List.prefix_refl _) (List.prefix_refl _) rfl rfl
    obtain ⟨r, s4, e2, e3⟩ := bind_inv e
    obtain ⟨_, s5, e4, e5⟩ := bind_inv e3
    have e4 := modify_inv e4
    have hloop := fold_inv (us := []) (I := fun ts r s4 => InNode v g s t.object.id o s4 ∧ Rdf.RelationshipSays g t.subject ts r ∧ RelatedIn g s4 ts)
      (fun us w r r' s s' hw h e => content_relationshipStep ht hc hl' hw h.1 h.2.1 h.2.2 e)
      ⟨hstart, by constructor <;> first | exact Only.nil | exact ha | exact .nil, .nil⟩ e2
    obtain ⟨h4, hsays, hrel⟩ := hloop
    have e5 := leave_inv (s := s5) (o := o) (by rw [e4]; exact h4.now) e5
    rw [e4] at e5
    subst e5
    have hread0 : ∀ s' : RState, r ∈ s'.doc.relationships → s'.cache = mapInsert t.object.id ⟨o, false⟩ s4.cache → RelRead g s' t.object.id :=
      fun s' h hc' => ⟨r, h, t, hl', rfl, hsays, hrel.grow fun y o' hy => by
        obtain ⟨b, hb⟩ := hy
        have hb : mapGet y s4.cache = _ := hb
        by_cases hy : y = t.object.id
        · subst hy
          rw [h4.now] at hb
          injection hb with hb; injection hb with hb1 _
          subst hb1
          exact ⟨false, by change mapGet _ s'.cache = _; rw [hc', mapGet_inserted, if_pos rfl]⟩
        · exact ⟨b, by change mapGet _ s'.cache = _; rw [hc', mapGet_inserted, if_neg hy]; exact hb⟩⟩
    have hread := hread0 { s4 with doc := { s4.doc with relationships := s4.doc.relationships ++ [r] }, cache := mapInsert t.object.id ⟨o, false⟩ s4.cache } (by simp) rfl
    have := h4.stop hi' rfl rfl rfl rfl rfl rfl (List.prefix_append _ _) (fun hgr r' hr' => by
      rcases List.mem_append.1 hr' with h | h
      · exact .inl h
      · rw [List.mem_singleton.1 h]
        exact .inr ⟨t, hl', hsays, hrel.grow hgr.cached⟩) (fun _ => hread) (fun _ j hj => absurd hj (hrole.2.1 j))
      (fun _ j hj => absurd hj (hrole.2.2 j))
    exact ⟨this.1, this.2.1, .inr hread⟩
  rcases enter_eq t.object.id .rel s with ⟨o', hcc, e'⟩ | ⟨hcc, e'⟩ | ⟨o', hcc, e'⟩
  · rw [bind_at e'] at e1
    obtain ⟨_, rfl⟩ := pure_inv e1
    exact ⟨hs, .refl _ _, .inl (grey_iff.2 ⟨_, hcc⟩)⟩
  · rw [bind_at e'] at e1
    exact main .rel (.inl ⟨hcc, rfl⟩) s' hkeep.1 e1
  · rw [bind_at e'] at e1
    exact main o' (.inr hcc) s' hkeep.1 e1

theorem CGood.ofDepth (v : Version) {g : Graph} (ht : Tidy g) : ∀ n, CGood v g (calls v g n)
  | 0 => ⟨fun _ _ _ _ _ _ e => by simp [calls, RdfM.cut] at e, fun _ _ _ _ _ _ e => by simp [calls, RdfM.cut] at e,
      fun _ _ _ _ _ _ e => by simp [calls, RdfM.cut] at e⟩
  | n + 1 => ⟨fun _ _ _ _ hv hs e => content_fileBody ht (Good.ofDepth v g n) (ofDepth v ht n) hv hs e,
      fun _ _ _ _ hv hs e => content_packageBody ht (Good.ofDepth v g n) (ofDepth v ht n) hv hs e,
      fun _ _ _ _ hm hs e => content_relationshipBody ht (Good.ofDepth v g n) (ofDepth v ht n) hm hs e⟩

end Verif
