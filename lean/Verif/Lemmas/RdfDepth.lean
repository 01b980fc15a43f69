import Verif.Lemmas.RdfLogic
import Verif.Lemmas.Map

/-!
# The recursion of the RDF reader is never cut

Every call makes a node grey for its duration, and only nodes that are objects of triples are visited.
-/

namespace Verif
open RdfM

theorem mapGet_inserted {α : Type} (k k' : Str) (x : α) (m : List (Str × α)) :
    mapGet k (mapInsert k' x m) = if k = k' then some x else mapGet k m := by
  rw [mapGet_mapInsert]
  by_cases h : k' = k
  · simp [h]
  · simp [h, Ne.symm h]

/-- The node is being read. -/
def RState.grey (s : RState) (id : Str) : Bool := match mapGet id s.cache with
  | some e => e.grey
  | none => false

/-- The identifiers of the objects of the graph. -/
def Graph.objects (g : Graph) : List Str := g.triples.map (·.object.id)

/-- The number of objects that are not being read. -/
def Graph.free (g : Graph) (G : Str → Bool) : Nat := (g.objects.filter fun x => !G x).length

/-- The grey nodes after one more has become grey. -/
def addGrey (G : Str → Bool) (id : Str) : Str → Bool := fun x => x = id || G x

theorem Graph.free_le (g : Graph) (G : Str → Bool) : g.free G ≤ g.triples.length := by
  unfold Graph.free Graph.objects
  exact Nat.le_trans (List.length_filter_le _ _) (by simp)

theorem filter_length_lt {α : Type} (p q : α → Bool) (x : α) : ∀ {l : List α}, (∀ y, q y = true → p y = true) →
    p x = true → q x = false → x ∈ l → (l.filter q).length < (l.filter p).length
  | [], _, _, _, hx => by simp at hx
  | a :: l, himp, hp, hq, hx => by
    have hle : ∀ l : List α, (l.filter q).length ≤ (l.filter p).length := by
      intro l
      induction l with
      | nil => simp
      | cons a l ih =>
        simp only [List.filter_cons]
        cases hqa : q a
        · cases p a <;> simp <;> omega
        · simp [himp a hqa]; omega
    simp only [List.filter_cons]
    rcases List.mem_cons.1 hx with rfl | hx
    · simp [hp, hq]; have := hle l; omega
    · have := filter_length_lt p q x (l := l) himp hp hq hx
      cases hqa : q a
      · cases p a <;> simp <;> omega
      · simp [himp a hqa]; omega

theorem Graph.free_addGrey (g : Graph) (G : Str → Bool) (id : Str) (h : id ∈ g.objects) (hG : G id = false) :
    g.free (addGrey G id) < g.free G := by
  refine filter_length_lt _ _ id ?_ (by simp [hG]) (by simp [addGrey]) h
  intro y hy
  simp only [addGrey, Bool.not_eq_true', Bool.or_eq_false_iff, decide_eq_false_iff_not] at hy
  simp [hy.2]

theorem Graph.free_addGrey_le (g : Graph) (G : Str → Bool) (id : Str) : g.free (addGrey G id) ≤ g.free G := by
  unfold Graph.free
  induction g.objects with
  | nil => simp
  | cons a l ih =>
    simp only [List.filter_cons]
    cases hG : G a
    · cases hG' : addGrey G id a <;> simp <;> omega
    · have : addGrey G id a = true := by simp [addGrey, hG]
      simp [this]; exact ih

/-! ## Grey nodes -/

theorem rtrip_enter (bp bc : Prop) (G : Str → Bool) (id : Str) (obj : CObj) :
    RTrip bp bc (fun s => s.grey = G) (enter id obj) fun o s => match o with
      | some _ => s.grey = G
      | none => G id = false ∧ s.grey = addGrey G id := by
  intro s hs
  unfold enter
  cases h : mapGet id s.cache with
  | none =>
    refine ⟨?_, ?_⟩
    · rw [← hs]; simp [RState.grey, h]
    · funext x
      simp only [RState.grey, mapGet_inserted, addGrey, ← hs]
      by_cases hx : x = id <;> simp [hx]
  | some e =>
    dsimp only
    by_cases hg : e.grey = true
    · simp only [hg, if_true]; exact hs
    · rw [if_neg hg]
      refine ⟨?_, ?_⟩
      · rw [← hs]; simp [RState.grey, h, hg]
      · funext x
        simp only [RState.grey, mapGet_inserted, addGrey, ← hs]
        by_cases hx : x = id <;> simp [hx]

theorem rtrip_leave (bp bc : Prop) (G : Str → Bool) (id : Str) (hG : G id = false) :
    RTrip bp bc (fun s => s.grey = addGrey G id) (leave id) fun _ s => s.grey = G := by
  refine RTrip.modify fun s hs => ?_
  have hid : s.grey id = true := by rw [hs]; simp [addGrey]
  cases h : mapGet id s.cache with
  | none => simp [RState.grey, h] at hid
  | some e =>
    funext x
    have hx : s.grey x = addGrey G id x := by rw [hs]
    simp only [RState.grey, mapGet_inserted, addGrey] at hx ⊢
    by_cases hxi : x = id
    · subst hxi; simp [hG]
    · simp only [hxi, if_false, decide_false, Bool.false_or] at hx ⊢; exact hx

/-- Changes that leave the cache alone. -/
theorem rtrip_cacheless {bp bc : Prop} {G : Str → Bool} {f : RState → RState} (h : ∀ s, (f s).cache = s.cache) :
    RTrip bp bc (fun s => s.grey = G) (modify f) fun _ s => s.grey = G := by
  refine RTrip.modify fun s hs => ?_
  rw [← hs]; funext x; simp [RState.grey, h]

theorem rtrip_modFileAt {bp bc : Prop} {G : Str → Bool} (i : Nat) (f : FileV → FileV) :
    RTrip bp bc (fun s => s.grey = G) (modFileAt i f) fun _ s => s.grey = G := rtrip_cacheless fun _ => rfl

theorem rtrip_modPackage {bp bc : Prop} {G : Str → Bool} (i : Nat) (f : Package Nat → Package Nat) :
    RTrip bp bc (fun s => s.grey = G) (modPackage i f) fun _ s => s.grey = G := rtrip_cacheless fun _ => rfl

theorem rtrip_modDocument {bp bc : Prop} {G : Str → Bool} (f : HDoc → HDoc) :
    RTrip bp bc (fun s => s.grey = G) (modDocument f) fun _ s => s.grey = G := rtrip_cacheless fun _ => rfl

theorem rtrip_allocFile {bp bc : Prop} {G : Str → Bool} :
    RTrip bp bc (fun s => s.grey = G) allocFile fun _ s => s.grey = G := fun _ hs => hs

theorem rtrip_allocPackage {bp bc : Prop} {G : Str → Bool} :
    RTrip bp bc (fun s => s.grey = G) allocPackage fun _ s => s.grey = G := fun _ hs => hs

theorem rtrip_fileAt {bc : Prop} {G : Str → Bool} (i : Nat) :
    RTrip True bc (fun s => s.grey = G) (fileAt i) fun _ s => s.grey = G := by
  intro s hs
  unfold fileAt
  cases s.fileHeap[i]? <;> first | exact hs | exact True.intro

theorem rtrip_packageAt {bc : Prop} {G : Str → Bool} (i : Nat) :
    RTrip True bc (fun s => s.grey = G) (packageAt i) fun _ s => s.grey = G := by
  intro s hs
  unfold packageAt
  cases s.pkgHeap[i]? <;> first | exact hs | exact True.intro

theorem rtrip_lift {α : Type} {bc : Prop} {P : RState → Prop} (r : Res α) :
    RTrip True bc P (lift r) fun _ => P := RTrip.lift (fun _ => True.intro) fun _ _ _ h => h

theorem rtrip_get {bp bc : Prop} {P : RState → Prop} : RTrip bp bc P RdfM.get fun _ => P := RTrip.get fun _ h => h

/-! ## Licenses -/

theorem mem_of {g : Graph} {n : RNode} {t : Triple} (h : t ∈ g.of n) : t ∈ g.triples ∧ t.subject = n := by
  simpa [Graph.of] using h

theorem obj_mem {g : Graph} {n : RNode} {t : Triple} (h : t ∈ g.of n) : t.object.id ∈ g.objects :=
  List.mem_map.2 ⟨t, (mem_of h).1, rfl⟩

theorem free_licenseBody (g : Graph) (r : RNode → RdfM License) (G : Str → Bool)
    (h : ∀ n, n.id ∈ g.objects → RTrip True False (fun s => s.grey = G) (r n) fun _ s => s.grey = G) (n : RNode) :
    RTrip True False (fun s => s.grey = G) (licenseBody g r n) fun _ s => s.grey = G := by
  unfold licenseBody
  refine RTrip.ite (fun _ => rtrip_lift _) fun _ => (rtrip_lift _).bind fun ty => ?_
  have hm : ∀ st, ∀ t ∈ g.of n, ∀ a, RTrip True False (fun s => s.grey = G) (memberStep r st a t) fun _ s => s.grey = G := by
    intro st t ht a
    unfold memberStep
    cases t.pred <;> first
      | exact RTrip.pure fun _ h => h
      | exact (h _ (obj_mem ht)).bind fun _ => RTrip.pure fun _ h => h
      | exact RTrip.ite (fun _ => RTrip.err) fun _ => RTrip.pure fun _ h => h
  cases Cls.ofStr ty <;> first
    | exact RTrip.err
    | exact rtrip_lift _
    | exact (rtrip_lift _).bind fun _ => RTrip.pure fun _ h => h
    | exact (RTrip.fold (I := fun _ s => s.grey = G) (hm _)).bind fun _ => RTrip.pure fun _ h => h

theorem free_getAnyLicense (g : Graph) : ∀ (n : Nat) (G : Str → Bool) (node : RNode),
    (node.id ∈ g.objects ∧ g.free G < n) ∨ g.free G + 1 < n →
    RTrip True False (fun s => s.grey = G) (getAnyLicense g n node) fun _ s => s.grey = G
  | 0, _, _, h => by omega
  | n + 1, G, node, h => by
    unfold getAnyLicense
    refine (rtrip_enter _ _ G node.id .nil).bind fun o => ?_
    cases o with
    | some x => exact RTrip.err
    | none =>
      refine RTrip.of_pre fun hG => ?_
      refine (free_licenseBody g _ _ (fun m hm => free_getAnyLicense g n _ m (.inl ⟨hm, ?_⟩)) node).bind
        fun l => (rtrip_leave _ _ G _ hG).bind fun _ => RTrip.pure fun _ h => h
      rcases h with ⟨h, h'⟩ | h
      · have := g.free_addGrey G node.id h hG; omega
      · have := g.free_addGrey_le G node.id; omega

theorem free_licenseText (g : Graph) (G : Str → Bool) (node : RNode) :
    RTrip True False (fun s => s.grey = G) (licenseText g node) fun _ s => s.grey = G :=
  (free_getAnyLicense g g.depth G node (.inr (by have := g.free_le G; unfold Graph.depth; omega))).bind
    fun _ => RTrip.pure fun _ h => h

/-! ## Files, packages, relationships -/

structure FreeCalls (g : Graph) (G : Str → Bool) (c : RCalls) : Prop where
  file : ∀ n, n.id ∈ g.objects → RTrip True False (fun s => s.grey = G) (c.file n) fun _ s => s.grey = G
  package : ∀ n, n.id ∈ g.objects → RTrip True False (fun s => s.grey = G) (c.package n) fun _ s => s.grey = G
  relationship : ∀ t, t.object.id ∈ g.objects →
    RTrip True False (fun s => s.grey = G) (c.relationship t) fun _ s => s.grey = G

theorem free_addAnnotation (g : Graph) (G : Str → Bool) (n : RNode) :
    RTrip True False (fun s => s.grey = G) (addAnnotation g n) fun _ s => s.grey = G :=
  (rtrip_lift _).bind fun _ => rtrip_modDocument _

theorem free_fileStep (v : Version) {g : Graph} {G : Str → Bool} {c : RCalls} (h : FreeCalls g G c) (i : Nat) {n : RNode} {t : Triple}
    (ht : t ∈ g.of n) : RTrip True False (fun s => s.grey = G) (fileStep v g c i t) fun _ s => s.grey = G := by
  unfold fileStep
  cases t.pred <;> first
    | exact RTrip.err
    | exact RTrip.pure fun _ h => h
    | exact rtrip_modFileAt _ _
    | exact (rtrip_lift _).bind fun _ => rtrip_modFileAt _ _
    | exact (free_licenseText g G _).bind fun _ => rtrip_modFileAt _ _
    | exact (h.file _ (obj_mem ht)).bind fun _ => (rtrip_fileAt _).bind fun _ => rtrip_modFileAt _ _
    | exact free_addAnnotation g G _
    | exact h.relationship _ (obj_mem ht)

theorem free_fileNew (v : Version) {g : Graph} {G : Str → Bool} {c : RCalls} (h : FreeCalls g G c) (n : RNode) (i : Nat) :
    RTrip True False (fun s => s.grey = G) (fileNew v g c n i) fun _ s => s.grey = G :=
  (rtrip_lift _).bind fun _ => (rtrip_modFileAt _ _).bind fun _ => rtrip_get.bind fun _ =>
    (RTrip.each fun _ ht => free_fileStep v h _ ht).bind fun _ => (rtrip_fileAt _).bind fun _ =>
      (by exact rtrip_cacheless fun _ => rfl : RTrip _ _ _ (modify _) fun _ s => s.grey = G).bind fun _ => RTrip.pure fun _ h => h

theorem free_packageStep (v : Version) {g : Graph} {G : Str → Bool} {c : RCalls} (h : FreeCalls g G c) (i : Nat) {n : RNode} {t : Triple}
    (ht : t ∈ g.of n) : RTrip True False (fun s => s.grey = G) (packageStep v g c i t) fun _ s => s.grey = G := by
  unfold packageStep
  cases t.pred <;> first
    | exact RTrip.err
    | exact RTrip.pure fun _ h => h
    | exact rtrip_modPackage _ _
    | exact RTrip.ite (fun _ => rtrip_modPackage _ _) fun _ => RTrip.err
    | exact (rtrip_lift _).bind fun _ => rtrip_modPackage _ _
    | exact (rtrip_packageAt _).bind fun _ => (rtrip_lift _).bind fun _ => rtrip_modPackage _ _
    | exact (free_licenseText g G _).bind fun _ => rtrip_modPackage _ _
    | exact (h.file _ (obj_mem ht)).bind fun _ => (rtrip_fileAt _).bind fun _ => (rtrip_modPackage _ _).bind
        fun _ => rtrip_cacheless fun _ => rfl
    | exact free_addAnnotation g G _
    | exact h.relationship _ (obj_mem ht)

theorem free_packageNew (v : Version) {g : Graph} {G : Str → Bool} {c : RCalls} (h : FreeCalls g G c) (n : RNode) (i : Nat) :
    RTrip True False (fun s => s.grey = G) (packageNew v g c n i) fun _ s => s.grey = G :=
  (rtrip_lift _).bind fun id => (rtrip_modPackage _ _).bind fun _ => rtrip_get.bind fun s => by
    cases s.findPackage id with
    | none =>
      exact (RTrip.each fun _ ht => free_packageStep v h _ ht).bind fun _ => (rtrip_modDocument _).bind fun _ => RTrip.pure fun _ h => h
    | some k => exact (RTrip.each fun _ ht => free_packageStep v h _ ht).bind fun _ => RTrip.pure fun _ h => h

theorem free_relatedElement {g : Graph} {G : Str → Bool} {c : RCalls} (h : FreeCalls g G c) (t : Triple)
    (ht : t.subject.id ∈ g.objects) :
    RTrip True False (fun s => s.grey = G) (relatedElement c t) fun _ s => s.grey = G := by
  unfold relatedElement
  cases Cls.ofStr t.object.id <;> first
    | exact RTrip.err
    | exact rtrip_lift _
    | exact (h.file _ ht).bind fun _ => (rtrip_fileAt _).bind fun _ => RTrip.pure fun _ h => h
    | exact (h.package _ ht).bind fun _ => (rtrip_packageAt _).bind fun _ => RTrip.pure fun _ h => h

theorem typeTriples_subject {ts : List Triple} {id : Str} {t : Triple} (h : t ∈ typeTriples ts id) :
    t ∈ ts ∧ t.subject.id = id ∧ t.pred = .type_ := by
  simp only [typeTriples, List.mem_filter, Bool.and_eq_true, decide_eq_true_eq] at h
  exact ⟨h.1, h.2.1, h.2.2⟩

theorem free_relationshipStep {g : Graph} {G : Str → Bool} {c : RCalls} (h : FreeCalls g G c) (r : Relationship) {n : RNode} {t : Triple}
    (ht : t ∈ g.of n) : RTrip True False (fun s => s.grey = G) (relationshipStep g c r t) fun _ s => s.grey = G := by
  unfold relationshipStep
  cases t.pred <;> first
    | exact RTrip.err
    | exact RTrip.pure fun _ h => h
    | exact (rtrip_lift _).bind fun _ => RTrip.pure fun _ h => h
    | refine (rtrip_lift _).bind fun b => RTrip.ite (fun _ => RTrip.pure fun _ h => h) fun _ => ?_
      split
      · next tt hx =>
        have := typeTriples_subject (t := tt) (by rw [hx]; simp)
        exact (free_relatedElement h _ (by rw [this.2.1]; exact obj_mem ht)).bind fun _ => RTrip.pure fun _ h => h
      · exact RTrip.err

theorem FreeCalls.ofDepth (v : Version) (g : Graph) : ∀ (n : Nat) (G : Str → Bool), g.free G < n → FreeCalls g G (calls v g n)
  | 0, _, h => by omega
  | n + 1, G, h => by
    have hrec : ∀ id, id ∈ g.objects → G id = false → FreeCalls g (addGrey G id) (calls v g n) := fun id h1 h2 =>
      ofDepth v g n _ (by have := g.free_addGrey G id h1 h2; omega)
    refine ⟨fun m hm => ?_, fun m hm => ?_, fun t ht => ?_⟩
    · refine rtrip_allocFile.bind fun i => (rtrip_enter _ _ G _ _).bind fun o => ?_
      cases o with
      | none => exact RTrip.of_pre fun hG => (free_fileNew v (hrec _ hm hG) _ _).bind fun _ =>
          (rtrip_leave _ _ G _ hG).bind fun _ => RTrip.pure fun _ h => h
      | some x => cases x <;> first | exact RTrip.pure fun _ h => h | exact RTrip.panic fun _ _ => True.intro
    · refine rtrip_allocPackage.bind fun i => (rtrip_enter _ _ G _ _).bind fun o => ?_
      cases o with
      | none => exact RTrip.of_pre fun hG => (free_packageNew v (hrec _ hm hG) _ _).bind fun _ =>
          (rtrip_leave _ _ G _ hG).bind fun _ => RTrip.pure fun _ h => h
      | some x => cases x <;> first | exact RTrip.pure fun _ h => h | exact RTrip.panic fun _ _ => True.intro
    · refine (rtrip_lift _).bind fun a => (rtrip_enter _ _ G _ _).bind fun o => ?_
      cases o with
      | none => exact RTrip.of_pre fun hG =>
          (RTrip.fold (I := fun _ s => s.grey = addGrey G t.object.id)
            fun _ ht r => free_relationshipStep (hrec _ ‹_› hG) r ht).bind fun _ =>
              (rtrip_modDocument _).bind fun _ => rtrip_leave _ _ G _ hG
      | some x => exact RTrip.pure fun _ h => h

/-! ## The document -/

theorem free_pointerAt {g : Graph} {G : Str → Bool} {c : RCalls} (h : FreeCalls g G c) (n : RNode) :
    RTrip True False (fun s => s.grey = G) (pointerAt g c n) fun _ s => s.grey = G := by
  refine (RTrip.fold (I := fun _ s => s.grey = G) fun t ht a => ?_).bind fun a => ?_
  · unfold pointerStep
    cases t.pred <;> first
      | exact RTrip.err
      | exact RTrip.pure fun _ h => h
      | exact RTrip.ite (fun _ => RTrip.pure fun _ h => h) fun _ => (h.file _ (obj_mem ht)).bind fun _ => RTrip.pure fun _ h => h
      | (simp only []; cases atoi t.object.id <;> first | exact RTrip.err | exact RTrip.pure fun _ h => h)
  · cases a.1 <;> first | exact RTrip.err | exact RTrip.pure fun _ h => h

theorem free_rangeAt {g : Graph} {G : Str → Bool} {c : RCalls} (h : FreeCalls g G c) (f : Str) (n : RNode) :
    RTrip True False (fun s => s.grey = G) (rangeAt g c f n) fun _ s => s.grey = G := by
  simp only [rangeAt]
  refine RTrip.ite (fun _ => RTrip.err) fun _ => ?_
  split
  · refine (free_pointerAt h _).bind fun _ => ?_
    split
    · exact (free_pointerAt h _).bind fun _ => RTrip.ite (fun _ => RTrip.pure fun _ h => h) fun _ => RTrip.err
    · exact RTrip.err
  · exact RTrip.err

theorem free_addSnippet (v : Version) {g : Graph} {G : Str → Bool} {c : RCalls} (h : FreeCalls g G c) (n : RNode) :
    RTrip True False (fun s => s.grey = G) (addSnippet v g c n) fun _ s => s.grey = G := by
  refine (rtrip_lift _).bind fun id => (RTrip.fold (I := fun _ s => s.grey = G) fun t ht a => ?_).bind
    fun x => rtrip_get.bind fun s => ?_
  · unfold snippetStep
    cases t.pred <;> first
      | exact RTrip.err
      | exact RTrip.pure fun _ h => h
      | exact (h.file _ (obj_mem ht)).bind fun _ => (rtrip_lift _).bind fun _ => RTrip.pure fun _ h => h
      | exact (free_rangeAt h _ _).bind fun _ => RTrip.pure fun _ h => h
      | exact (free_licenseText g G _).bind fun _ => RTrip.pure fun _ h => h
  · cases mapGet x.fromFile s.files <;> first | exact RTrip.err | exact rtrip_modFileAt _ _

theorem free_snippetRoots (v : Version) {g : Graph} {G : Str → Bool} {c : RCalls} (h : FreeCalls g G c) :
    ∀ rs, RTrip True False (fun s => s.grey = G) (snippetRoots v g c rs) fun _ s => s.grey = G
  | [] => RTrip.pure fun _ h => h
  | r :: rs => by
    unfold snippetRoots
    split
    · exact RTrip.ite (fun _ => (free_addSnippet v h _).bind fun _ => free_snippetRoots v h rs) fun _ => free_snippetRoots v h rs
    · exact RTrip.err

theorem free_documentStep {g : Graph} {G : Str → Bool} {c : RCalls} (h : FreeCalls g G c) {n : RNode} {t : Triple}
    (ht : t ∈ g.of n) : RTrip True False (fun s => s.grey = G) (documentStep g c t) fun _ s => s.grey = G := by
  unfold documentStep
  cases t.pred <;> first
    | exact RTrip.err
    | exact RTrip.pure fun _ h => h
    | exact rtrip_modDocument _
    | exact (rtrip_lift _).bind fun _ => rtrip_modDocument _
    | exact (free_licenseText g G _).bind fun _ => rtrip_modDocument _
    | exact (h.package _ (obj_mem ht)).bind fun _ => rtrip_modDocument _
    | exact h.relationship _ (obj_mem ht)
    | exact free_addAnnotation g G _
    | (refine rtrip_get.bind fun s => ?_
       cases s.doc.creationInfo <;> first
         | exact RTrip.panic fun _ _ => True.intro
         | exact (rtrip_lift _).bind fun _ => rtrip_modDocument _)

theorem free_documentAt {g : Graph} {G : Str → Bool} {c : RCalls} (h : FreeCalls g G c) (n : RNode) :
    RTrip True False (fun s => s.grey = G) (documentAt g c n) fun _ s => s.grey = G :=
  (rtrip_lift _).bind fun _ => (rtrip_modDocument _).bind fun _ => RTrip.each fun _ ht => free_documentStep h ht

theorem free_loadState (v : Version) (g : Graph) (o : MapOrder) (n : Nat) (G : Str → Bool) (h : g.free G < n) :
    RTrip True False (fun s => s.grey = G) (loadState v g o n) fun _ s => s.grey = G :=
  (rtrip_lift _).bind fun _ => (free_documentAt (.ofDepth v g n G h) _).bind fun _ =>
    (free_snippetRoots v (.ofDepth v g n G h) _).bind fun _ => rtrip_cacheless fun _ => rfl

end Verif
