import Verif.Lemmas.RdfInvCalls

/-!
# The whole reader keeps its invariant
-/

namespace Verif
open RdfM Spec

theorem keeps_documentStep {g : Graph} {c : RCalls} (h : Good g c) {n : RNode} {t : Triple} (ht : t ∈ g.of n) (w0 : View) :
    KeepsFrom g w0 (documentStep g c t) := by
  have md : ∀ {w : View} {f : HDoc → HDoc}, (∀ d, (f d).packages = d.packages) → (∀ d, (f d).files = d.files) →
      (∀ d, (f d).creationInfo.isSome = d.creationInfo.isSome) → KeepsFrom g w (modDocument f) :=
    fun h1 h2 h3 => keeps_modDocument h1 h2 h3
  unfold documentStep
  cases hp : t.pred <;> first
    | exact .pure'
    | exact .err
    | exact md (fun _ => rfl) (fun _ => rfl) fun _ => rfl
    | exact (keeps_licenseText (used_of ht (by simp [hp]))).seq fun _ _ => md (fun _ => rfl) (fun _ => rfl) fun _ => rfl
    | exact (KeepsFrom.lift (externalDocumentRefAt_ne_panic _ _)).seq fun _ _ => md (fun _ => rfl) (fun _ => rfl) fun _ => rfl
    | exact (KeepsFrom.lift (reviewAt_ne_panic _ _)).seq fun _ _ => md (fun _ => rfl) (fun _ => rfl) fun _ => rfl
    | exact (KeepsFrom.lift (otherLicenseAt_ne_panic _ _)).seq fun _ _ => md (fun _ => rfl) (fun _ => rfl) fun _ => rfl
    | exact keeps_addAnnotation _
    | exact h.relationship _ _ (used_of ht (by simp [hp]))
    | skip
  · -- creation information
    refine RTrip.bind (R := fun s' s => s' = s ∧ RInv g s.view ∧ Ext w0 s.view) (RTrip.get fun s hs => ⟨rfl, hs⟩) fun s' => ?_
    intro s ⟨e, hs⟩
    subst e
    have hci := hs.1.ci
    simp only [RState.view] at hci
    cases hc : s'.doc.creationInfo with
    | none => rw [hc] at hci; simp at hci
    | some ci =>
      have : KeepsFrom g w0 (do
          let ci' ← lift (foldTriples creationStep ci (g.of t.object))
          modDocument fun d => { d with creationInfo := some ci' }) := by
        refine (KeepsFrom.lift (foldTriples_ne_panic creationStep_ne_panic _ _)).seq fun ci' w1 => ?_
        refine RTrip.modify fun s4 ⟨hs4, he4⟩ => ⟨⟨?_, he4.trans (.of_cache rfl rfl rfl rfl fun _ h => h)⟩, trivial⟩
        have : ({ s4 with doc := { s4.doc with creationInfo := some ci' } } : RState).view = { s4.view with ci := true } := rfl
        rw [this, show ({ s4.view with ci := true } : View) = s4.view by rw [← hs4.ci]]
        exact hs4
      exact this s' hs
  · -- described packages
    refine (h.package _ _ (.inl (used_of ht (by simp [hp])))).bind fun i w1 _ hi => ?_
    refine RTrip.modify fun s4 ⟨hs4, he4⟩ => ⟨⟨hs4.addPackage ?_ fun ht => ?_, he4.trans ?_⟩, trivial⟩
    · have := he4.pids.length_le; have := hi.1; omega
    · exact ⟨_, he4.cache _ _ (hi.2.1 ht)⟩
    · exact ⟨List.prefix_refl _, List.prefix_refl _, List.prefix_append _ _, fun _ _ h => h, fun _ h => h⟩

theorem keeps_documentAt {g : Graph} {c : RCalls} (h : Good g c) (n : RNode) (w0 : View) :
    KeepsFrom g w0 (documentAt g c n) := by
  unfold documentAt
  refine (KeepsFrom.lift (extractSubs_ne_panic _ _)).seq fun x w0 => ?_
  obtain ⟨base, offset⟩ := x
  refine KeepsFrom.seq (Q := fun _ _ => True) ?_ fun _ w0 => KeepsFrom.each fun t ht => keeps_documentStep h ht w0
  exact keeps_modDocument (fun _ => rfl) (fun _ => rfl) fun _ => rfl

theorem keeps_pointerAt {g : Graph} {c : RCalls} (h : Good g c) (n : RNode) (w0 : View) :
    KeepsFrom g w0 (pointerAt g c n) := by
  refine (KeepsFrom.fold fun t ht a => ?_).seq fun a _ => ?_
  · unfold pointerStep
    cases hp : t.pred <;> first
      | exact .err
      | exact .pure'
      | exact .ite (fun _ => .pure') fun _ => (h.file _ _ (.inl (used_of ht (by simp [hp])))).seq fun _ _ => .pure'
      | (simp only []; cases atoi t.object.id <;> first | exact .err | exact .pure')
  · cases a.1 <;> first | exact .err | exact .pure'

theorem keeps_rangeAt {g : Graph} {c : RCalls} (h : Good g c) (f : Str) (n : RNode) (w0 : View) :
    KeepsFrom g w0 (rangeAt g c f n) := by
  simp only [rangeAt]
  refine .ite (fun _ => .err) fun _ => ?_
  split
  · refine (keeps_pointerAt h _ _).seq fun _ _ => ?_
    split
    · exact (keeps_pointerAt h _ _).seq fun _ _ => .ite (fun _ => .pure') fun _ => .err
    · exact .err
  · exact .err

theorem keeps_addSnippet (v : Version) {g : Graph} {c : RCalls} (h : Good g c) (n : RNode) (w0 : View) :
    KeepsFrom g w0 (addSnippet v g c n) := by
  refine (KeepsFrom.lift (extractElementID_ne_panic _)).seq fun id w0 => (KeepsFrom.fold fun t ht a => ?_).seq fun x w0 => ?_
  · unfold snippetStep
    cases hp : t.pred <;> first
      | exact .err
      | exact .pure'
      | exact (h.file _ _ (.inl (used_of ht (by simp [hp])))).seq fun _ _ =>
          (KeepsFrom.lift (snippetFileOf_ne_panic _ _)).seq fun _ _ => .pure'
      | exact (keeps_rangeAt h _ _ _).seq fun _ _ => .pure'
      | exact (keeps_licenseText (used_of ht (by simp [hp]))).seq fun _ _ => .pure'
  · refine KeepsFrom.seq (Q := fun _ _ => True) (RTrip.get fun s hs => ⟨hs, trivial⟩) fun s w0 => ?_
    cases mapGet x.fromFile s.files with
    | none => exact .err
    | some i => exact keeps_modFileAt _ fun _ => rfl

theorem keeps_snippetRoots (v : Version) {g : Graph} {c : RCalls} (h : Good g c) : ∀ rs w0, KeepsFrom g w0 (snippetRoots v g c rs)
  | [], _ => .pure'
  | r :: rs, w0 => by
    unfold snippetRoots
    split
    · exact .ite (fun _ => (keeps_addSnippet v h _ _).seq fun _ _ => keeps_snippetRoots v h rs _) fun _ => keeps_snippetRoots v h rs _
    · exact .err

theorem findDocNode_ne_panic {g : Graph} : ∀ (rs : List RNode) (found : Option RNode),
    (∀ r ∈ rs, ∃ t ∈ g.triples, t.subject = r ∧ t.pred = .type_) → findDocNode g found rs ≠ .panic
  | [], _, _ => by simp [findDocNode]
  | r :: rs, found, h => by
    unfold findDocNode
    have ih := fun f => findDocNode_ne_panic rs f fun x hx => h x (by simp [hx])
    split
    · next e =>
      obtain ⟨t, h1, h2, h3⟩ := h r (by simp)
      have : t ∈ typeTriples (g.of r) r.id := by
        simp only [typeTriples, Graph.of, List.mem_filter, Bool.and_eq_true, decide_eq_true_eq]
        exact ⟨⟨h1, h2⟩, by rw [h2], h3⟩
      rw [e] at this; simp at this
    · split
      · split
        · simp
        · split
          · split
            · simp
            · exact ih _
          · exact ih _
      · exact ih _

theorem docNode_ne_panic {g : Graph} (h : RootsTyped g) : docNode g ≠ .panic :=
  Res.bind_ne_panic (findDocNode_ne_panic _ _ h) fun o => by cases o <;> simp

theorem initial_inv (g : Graph) : RInv g ({} : RState).view := by
  have nc : ∀ x o, ¬ ({} : RState).view.cached x o := by
    rintro x o ⟨b, h⟩; simp [RState.view, mapGet] at h
  constructor <;> first
    | (intro x j h; exact absurd h (nc _ _))
    | (intro _ x j h; exact absurd h (nc _ _))
    | (intro _ x h; simp [RState.view] at h; done)
    | (intro x h; simp [RState.view] at h; done)
    | (intro _ x j id h; simp [RState.view, mapGet] at h; done)
    | (intro _ x j h; simp [RState.view, mapGet] at h; done)
    | (simp [RState.view]; done)
    | rfl

/-- The state before the files without package are collected. -/
theorem load_inv (v : Version) (g : Graph) (o : MapOrder) :
    RTrip (¬OneRole g ∨ ¬RootsTyped g) True (fun s => s = {}) (loadState v g o g.depth) fun _ s =>
      ∃ s1 : RState, RInv g s1.view ∧ s = { s1 with doc := { s1.doc with
        files := ((o.order s1.files).filter fun e => !s1.assoc.contains e.1).map (·.2) } } := by
  have hg := Good.ofDepth v g g.depth
  unfold loadState
  refine RTrip.bind (R := fun _ s => s = {}) (RTrip.lift (fun hp => .inr fun hr => docNode_ne_panic hr hp) fun _ _ _ h => h) fun n => ?_
  have main : KeepsFrom g ({} : RState).view (do
      documentAt g (calls v g g.depth) n
      snippetRoots v g (calls v g g.depth) g.roots) :=
    (keeps_documentAt hg n _).seq fun _ _ => keeps_snippetRoots v hg _ _
  have main' : RTrip (¬OneRole g ∨ ¬RootsTyped g) True (fun s => s = {}) (do
      documentAt g (calls v g g.depth) n
      snippetRoots v g (calls v g g.depth) g.roots) fun _ s => RInv g s.view := by
    intro s hs
    subst hs
    have := main {} ⟨initial_inv g, .refl _⟩
    cases e : (do
      documentAt g (calls v g g.depth) n
      snippetRoots v g (calls v g g.depth) g.roots : RdfM Unit) {} with
    | ok x => rw [e] at this; exact this.1.1
    | err => trivial
    | panic => rw [e] at this; exact .inl this
    | cut => trivial
  have e : (do
      documentAt g (calls v g g.depth) n
      snippetRoots v g (calls v g g.depth) g.roots
      setUnpackagedFiles o : RdfM Unit) = ((do
      documentAt g (calls v g g.depth) n
      snippetRoots v g (calls v g g.depth) g.roots) >>= fun _ => setUnpackagedFiles o) := by
    funext s
    change RdfM.bind _ _ s = RdfM.bind (RdfM.bind _ _) _ s
    unfold RdfM.bind
    cases documentAt g (calls v g g.depth) n s <;> rfl
  rw [e]
  refine main'.bind fun _ => RTrip.modify fun s hs => ⟨s, hs, ?_⟩
  have : s.doc.files = [] := hs.docFiles
  rw [this]; rfl

end Verif
