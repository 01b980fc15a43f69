import Verif.Lemmas.RdfContentBodies
import Verif.Lemmas.RdfDoc

/-!
# What the RDF reader puts into the document
-/

namespace Verif
open RdfM Spec Spec.Rdf

theorem documentSays_core {g : Graph} {n : RNode} {ts : List Triple} (d : HDoc) : DocumentSays g n ts d ↔ DocumentSays g n ts (core d) := by
  constructor
  · rintro ⟨h1, h2, h3, h4, h5, h6, h7, h8, h9, h10, h11⟩; exact ⟨h1, h2, h3, h4, h5, h6, h7, h8, h9, h10, h11⟩
  · rintro ⟨h1, h2, h3, h4, h5, h6, h7, h8, h9, h10, h11⟩; exact ⟨h1, h2, h3, h4, h5, h6, h7, h8, h9, h10, h11⟩

theorem Sound.setDoc {v : Version} {g : Graph} {s : RState} {f : HDoc → HDoc} (hs : Sound v g s)
    (hi : RInv g ({ s with doc := f s.doc } : RState).view) (hr : (f s.doc).relationships = s.doc.relationships)
    (ha : (f s.doc).annotations = s.doc.annotations) : Sound v g { s with doc := f s.doc } ∧ Grows g s { s with doc := f s.doc } := by
  have hg : Grows g s { s with doc := f s.doc } := ⟨fun _ _ h => h, fun _ _ h => .inl h, by rw [hr]; exact List.prefix_refl _,
    by rw [ha]; exact List.prefix_refl _⟩
  exact ⟨⟨hi, hs.content.step hg (fun _ _ e => .inl ⟨e, rfl⟩) (fun _ _ e => .inl ⟨e, rfl⟩) (fun r h => .inl (by rw [← hr]; exact h))
    (fun r h => .inl (by rw [← ha]; exact h)) hs.content.assoc⟩, hg⟩

/-- The state after the statements `ts` about the node of the document. -/
structure DocRead (v : Version) (g : Graph) (n : RNode) (ts : List Triple) (s : RState) : Prop where
  sound : Sound v g s
  says : DocumentSays g n ts s.doc
  told : ToldIn g s ts
  described : ∀ t ∈ ts, t.pred = .describesPackage → ∃ k, s.view.cached t.object.id (.pkg k)

theorem described_snoc {s s' : RState} {ts : List Triple} {t : Triple} (h : ∀ t ∈ ts, t.pred = .describesPackage → ∃ k, s.view.cached t.object.id (.pkg k))
    (hc : ∀ x o, s.view.cached x o → s'.view.cached x o) (h' : t.pred = .describesPackage → ∃ k, s'.view.cached t.object.id (.pkg k)) :
    ∀ u ∈ ts ++ [t], u.pred = .describesPackage → ∃ k, s'.view.cached u.object.id (.pkg k) := by
  intro u hu hp
  rcases List.mem_append.1 hu with hu | hu
  · exact (h u hu hp).imp fun _ => hc _ _
  · rw [List.mem_singleton.1 hu] at hp ⊢; exact h' hp

theorem creation_snoc {g : Graph} {vs : List RNode} {n : RNode} {c c' : CreationInfo} (h : Rdf.CreationSays (vs.flatMap g.of) c)
    (e : foldTriples creationStep c (g.of n) = .ok c') : Rdf.CreationSays ((vs ++ [n]).flatMap g.of) c' := by
  rw [← creation_iff] at h ⊢
  rw [List.flatMap_append, foldTriples_append, h]
  simpa [Bind.bind, Res.bind] using e

set_option maxHeartbeats 1000000 in
theorem content_documentStep {v : Version} {g : Graph} {c : RCalls} (hg : Good g c) (hc : CGood v g c) {n : RNode} {ts : List Triple} {t : Triple}
    (hdn : IsDocumentNode g n) (hm : t ∈ g.of n) {s s' : RState} (hr : DocRead v g n ts s) {u : Unit} (e : documentStep g c t s = .ok (u, s')) :
    DocRead v g n (ts ++ [t]) s' := by
  have hkeep := ((keeps_documentStep hg hm s.view).ok hr.sound.inv (.refl _) e).1
  obtain ⟨sound, says, told, desc⟩ := hr
  have put : ∀ {s1 : RState} {f : HDoc → HDoc}, Sound v g s1 → (∀ x o, s.view.cached x o → s1.view.cached x o) →
      ToldIn g s1 ts → modDocument f s1 = .ok (u, s') → (f s1.doc).relationships = s1.doc.relationships →
      (f s1.doc).annotations = s1.doc.annotations → t.pred ≠ .annotation → t.pred ≠ .relationship → t.pred ≠ .fileDependency →
      (t.pred = .describesPackage → ∃ k, s1.view.cached t.object.id (.pkg k)) →
      DocumentSays g n (ts ++ [t]) (f s1.doc) → DocRead v g n (ts ++ [t]) s' := by
    intro s1 f hs hcc ht e h1 h2 h3 h4 h5 h6 h7
    have e := modify_inv e
    subst e
    obtain ⟨h8, h9⟩ := hs.setDoc hkeep h1 h2
    exact ⟨h8, h7, (ht.grow h9).snoc (fun h => absurd h h3) (fun h => absurd h h4) (fun h => absurd h h5),
      described_snoc desc (fun _ _ h => h9.cached _ _ (hcc _ _ h)) h6⟩
  have idc : ∀ x o, s.view.cached x o → s.view.cached x o := fun _ _ h => h
  obtain ⟨h1, h2, h3, h4, h5, h6, h7, h8, h9, h10, h11⟩ := says
  unfold documentStep at e
  cases hp : t.pred <;> simp only [hp] at e <;> first
    | (exact (err_inv e).elim)
    | skip
  case type_ =>
    obtain ⟨rfl, rfl⟩ := pure_inv e
    refine ⟨sound, ?_, told.snoc (by simp [hp]) (by simp [hp]) (by simp [hp]), described_snoc desc idc (by simp [hp])⟩
    constructor <;> first | exact Only.snoc h1 (by rw [hp]; simp) | field_step hp
  case specVersion | name | comment =>
    refine put sound idc told e rfl rfl (by simp [hp]) (by simp [hp]) (by simp [hp]) (by simp [hp]) ?_
    constructor <;> first | exact Only.snoc h1 (by rw [hp]; simp) | field_step hp
  case dataLicense =>
    obtain ⟨l, s1, e1, e2⟩ := bind_inv e
    obtain ⟨q1, q2, q3⟩ := sound.license (used_of hm (by simp [hp])) e1
    have d1 : DocumentSays g n ts s1.doc := by
      rw [documentSays_core, q2.doc, ← documentSays_core]; exact ⟨h1, h2, h3, h4, h5, h6, h7, h8, h9, h10, h11⟩
    obtain ⟨h1, h2, h3, h4, h5, h6, h7, h8, h9, h10, h11⟩ := d1
    refine put q1 q2.cached (told.grow q2.grows) e2 rfl rfl (by simp [hp]) (by simp [hp]) (by simp [hp]) (by simp [hp]) ?_
    constructor <;> first | exact Only.snoc h1 (by rw [hp]; simp) | field_step hp
  case externalDocumentRef =>
    obtain ⟨l, e1, e2⟩ := bind_lift_inv e
    rw [externalDocument_iff] at e1
    refine put sound idc told e2 rfl rfl (by simp [hp]) (by simp [hp]) (by simp [hp]) (by simp [hp]) ?_
    constructor <;> first | exact Only.snoc h1 (by rw [hp]; simp) | field_step hp
  case reviewed =>
    obtain ⟨l, e1, e2⟩ := bind_lift_inv e
    rw [review_iff] at e1
    refine put sound idc told e2 rfl rfl (by simp [hp]) (by simp [hp]) (by simp [hp]) (by simp [hp]) ?_
    constructor <;> first | exact Only.snoc h1 (by rw [hp]; simp) | field_step hp
  case hasExtractedLicensingInfo =>
    obtain ⟨l, e1, e2⟩ := bind_lift_inv e
    rw [otherLicense_iff] at e1
    refine put sound idc told e2 rfl rfl (by simp [hp]) (by simp [hp]) (by simp [hp]) (by simp [hp]) ?_
    constructor <;> first | exact Only.snoc h1 (by rw [hp]; simp) | field_step hp
  case creationInfo =>
    obtain ⟨s1, s2, e1, e2⟩ := bind_inv e
    have e3 : s1 = s ∧ s2 = s := by injection e1 with e1; injection e1 with a b; exact ⟨a.symm, b.symm⟩
    rw [e3.1, e3.2] at e2
    obtain ⟨ci, hci, hcs⟩ := h8
    rw [hci] at e2
    obtain ⟨c', e4, e5⟩ := bind_lift_inv e2
    have hcs' := creation_snoc hcs e4
    refine put sound idc told e5 rfl rfl (by simp [hp]) (by simp [hp]) (by simp [hp]) (by simp [hp]) ?_
    constructor <;> first
      | exact Only.snoc h1 (by rw [hp]; simp)
      | field_step hp
      | (rw [vals_snoc_same hp]; exact ⟨c', rfl, hcs'⟩)
      | (rw [vals_snoc_other (by rw [hp]; simp)]; exact ⟨ci, hci, hcs⟩)
  case describesPackage =>
    obtain ⟨k, s1, e1, e2⟩ := bind_inv e
    obtain ⟨q1, q2, q3⟩ := hc.package _ _ _ _ (.described hdn hm hp) sound e1
    have d1 : DocumentSays g n ts s1.doc := by
      rw [documentSays_core, q2.doc, ← documentSays_core]; exact ⟨h1, h2, h3, h4, h5, h6, h7, h8, h9, h10, h11⟩
    obtain ⟨h1, h2, h3, h4, h5, h6, h7, h8, h9, h10, h11⟩ := d1
    refine put q1 q2.cached (told.grow q2.grows) e2 rfl rfl (by simp [hp]) (by simp [hp]) (by simp [hp]) (fun _ => ⟨k, q3⟩) ?_
    constructor <;> first | exact Only.snoc h1 (by rw [hp]; simp) | field_step hp
  case relationship =>
    obtain ⟨q1, q2, q3⟩ := hc.relationship _ _ _ _ (.ofDocument hdn hm hp) sound e
    have d1 : DocumentSays g n ts s'.doc := by
      rw [documentSays_core, q2.doc, ← documentSays_core]; exact ⟨h1, h2, h3, h4, h5, h6, h7, h8, h9, h10, h11⟩
    obtain ⟨h1, h2, h3, h4, h5, h6, h7, h8, h9, h10, h11⟩ := d1
    refine ⟨q1, ?_, (told.grow q2.grows).snoc (by simp [hp]) (fun _ => ⟨used_of hm (by simp [hp]), q3⟩) (by simp [hp]),
      described_snoc desc q2.cached (by simp [hp])⟩
    constructor <;> first | exact Only.snoc h1 (by rw [hp]; simp) | field_step hp
  case annotation =>
    obtain ⟨q1, q2, q3⟩ := sound.annotation (.document hdn) hm hp e
    have d1 : DocumentSays g n ts s'.doc := by
      rw [documentSays_core, q2.doc, ← documentSays_core]; exact ⟨h1, h2, h3, h4, h5, h6, h7, h8, h9, h10, h11⟩
    obtain ⟨h1, h2, h3, h4, h5, h6, h7, h8, h9, h10, h11⟩ := d1
    refine ⟨q1, ?_, (told.grow q2.grows).snoc (fun _ => q3) (by simp [hp]) (by simp [hp]),
      described_snoc desc q2.cached (by simp [hp])⟩
    constructor <;> first | exact Only.snoc h1 (by rw [hp]; simp) | field_step hp

theorem sound_initial (v : Version) (g : Graph) : Sound v g {} := by
  refine ⟨initial_inv g, ?_⟩
  constructor <;> (intros; simp_all [mapGet])

theorem content_documentAt {v : Version} {g : Graph} {c : RCalls} (hg : Good g c) (hc : CGood v g c) {n : RNode} (hdn : IsDocumentNode g n) {s' : RState} {u : Unit}
    (e : documentAt g c n {} = .ok (u, s')) : DocRead v g n (g.of n) s' := by
  unfold documentAt at e
  obtain ⟨x, e1, e2⟩ := bind_lift_inv e
  obtain ⟨base, offset⟩ := x
  obtain ⟨_, s1, e3, e4⟩ := bind_inv e2
  have hi := ((keeps_modDocument (g := g) (w0 := ({} : RState).view) (f := fun d => { d with namespace_ := base, spdxId := offset }) (fun _ => rfl) (fun _ => rfl) fun _ => rfl).ok (initial_inv g) (.refl _) e3).1
  have e3 := modify_inv e3
  subst e3
  have hs := (sound_initial v g).setDoc (f := fun d => { d with namespace_ := base, spdxId := offset }) hi rfl rfl
  have := each_inv (us := []) (I := fun ts s => DocRead v g n ts s) (fun us t s s' a hm h e => content_documentStep hg hc hdn hm h e) ⟨hs.1, ?_, .nil, by simp⟩ e4
  · exact this
  · constructor <;> first | exact Only.nil | exact .nil | exact EachOf.nil | skip
    · unfold extractSubs at e1
      cases hcut : Verif.cut g!"#" n.id with
      | none => rw [hcut] at e1; simp at e1
      | some p =>
        obtain ⟨a, b⟩ := p
        rw [hcut] at e1
        injection e1 with e1
        injection e1 with e1 e2
        obtain ⟨h1, h2⟩ := cut_single_eq.1 hcut
        exact ⟨a, b, h1, h2, e1.symm, e2.symm⟩
    · exact ⟨{}, rfl, (creation_iff _ _).1 rfl⟩
    · rfl

end Verif
