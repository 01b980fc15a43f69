import Verif.Lemmas.RdfLicense
import Verif.Spec.RdfRoles

/-!
# The invariant of the RDF reader

What matters about a state is its view: the cache, the pointers and the identifiers they lead to.
-/

namespace Verif
open RdfM Spec

structure View where
  cache : List (Str × NodeState)
  files : List (Str × Nat)
  assoc : List Str
  fids : List Str
  pids : List Str
  pfs : List (List Nat)
  packages : List Nat
  docFiles : List Nat
  ci : Bool

def RState.view (s : RState) : View where
  cache := s.cache
  files := s.files
  assoc := s.assoc
  fids := s.fileHeap.map (·.spdxId)
  pids := s.pkgHeap.map (·.spdxId)
  pfs := s.pkgHeap.map (·.files)
  packages := s.doc.packages
  docFiles := s.doc.files
  ci := s.doc.creationInfo.isSome

/-- What an object in the cache says about the use of its node. -/
def RoleOf (g : Graph) (x : Str) : CObj → Prop
  | .nil => UsedAsLicense g x
  | .file _ => UsedAsFile g x
  | .pkg _ => UsedAsPackage g x
  | .rel => UsedAsRelationship g x

def View.cached (w : View) (x : Str) (o : CObj) : Prop := ∃ b, mapGet x w.cache = some ⟨o, b⟩

/-- The assumptions under which nodes and elements correspond. -/
def Tidy (g : Graph) : Prop := OneRole g ∧ DistinctNames g

/-- The invariant. -/
structure RInv (g : Graph) (w : View) : Prop where
  cacheFile : ∀ x j, w.cached x (.file j) → j < w.fids.length
  cachePkg : ∀ x i, w.cached x (.pkg i) → i < w.pids.length
  files : ∀ e ∈ w.files, w.fids[e.2]? = some e.1
  keys : (w.files.map (·.1)).Nodup
  packages : ∀ i ∈ w.packages, i < w.pids.length
  docFiles : w.docFiles = []
  pkgFiles : ∀ l ∈ w.pfs, ∀ j ∈ l, ∃ id, w.fids[j]? = some id ∧ id ∈ w.assoc
  ci : w.ci = true
  kinds : OneRole g → ∀ x o, w.cached x o → RoleOf g x o
  fileIds : Tidy g → ∀ x j, w.cached x (.file j) → ∃ id, FileIdOf x id ∧ w.fids[j]? = some id
  pkgIds : Tidy g → ∀ x i, w.cached x (.pkg i) → ∃ id, PackageIdOf x id ∧ w.pids[i]? = some id
  filesCanon : Tidy g → ∀ e ∈ w.files, ∃ x, w.cached x (.file e.2)
  pkgFilesCanon : Tidy g → ∀ l ∈ w.pfs, ∀ j ∈ l, ∃ x, w.cached x (.file j)
  pkgsCanon : Tidy g → ∀ i ∈ w.packages, ∃ x, w.cached x (.pkg i)
  filesDone : Tidy g → ∀ x j id, mapGet x w.cache = some ⟨.file j, false⟩ → FileIdOf x id → id ∈ w.files.map (·.1)
  pkgsDone : Tidy g → ∀ x i, mapGet x w.cache = some ⟨.pkg i, false⟩ → i ∈ w.packages

/-- What is kept by every method. -/
structure Ext (w w' : View) : Prop where
  fids : w.fids <+: w'.fids
  pids : w.pids <+: w'.pids
  packages : w.packages <+: w'.packages
  cache : ∀ x o, w.cached x o → w'.cached x o
  keys : ∀ k ∈ w.files.map (·.1), k ∈ w'.files.map (·.1)

theorem Ext.refl (w : View) : Ext w w := ⟨List.prefix_refl _, List.prefix_refl _, List.prefix_refl _, fun _ _ h => h, fun _ h => h⟩

theorem Ext.trans {a b c : View} (h : Ext a b) (h' : Ext b c) : Ext a c :=
  ⟨h.fids.trans h'.fids, h.pids.trans h'.pids, h.packages.trans h'.packages, fun x o e => h'.cache x o (h.cache x o e), fun k e => h'.keys k (h.keys k e)⟩

theorem prefix_get {α : Type} {l l' : List α} (h : l <+: l') {i : Nat} {x : α} (e : l[i]? = some x) : l'[i]? = some x := by
  obtain ⟨t, rfl⟩ := h
  have : i < l.length := by
    rw [List.getElem?_eq_some_iff] at e; exact e.1
  rw [List.getElem?_append_left this]; exact e

theorem get_some {α : Type} {l : List α} {i : Nat} (h : i < l.length) : ∃ x, l[i]? = some x :=
  ⟨l[i], List.getElem?_eq_getElem h⟩

theorem get_lt {α : Type} {l : List α} {i : Nat} {x : α} (h : l[i]? = some x) : i < l.length := by
  rw [List.getElem?_eq_some_iff] at h; exact h.1

/-! ## Methods that keep the invariant -/

/-- From views that extend `w0`, the method keeps the invariant and its result has `Q`. -/
def KeepsFrom {α : Type} (g : Graph) (w0 : View) (m : RdfM α) (Q : α → View → Prop := fun _ _ => True) : Prop :=
  RTrip (¬OneRole g) True (fun s => RInv g s.view ∧ Ext w0 s.view) m
    fun a s => (RInv g s.view ∧ Ext w0 s.view) ∧ Q a s.view

namespace KeepsFrom
variable {α β : Type} {g : Graph} {w0 : View}

theorem bind {m : RdfM α} {f : α → RdfM β} {Q : α → View → Prop} {Q' : β → View → Prop} (hm : KeepsFrom g w0 m Q)
    (hf : ∀ a w1, Ext w0 w1 → Q a w1 → KeepsFrom g w1 (f a) Q') : KeepsFrom g w0 (m >>= f) Q' := by
  refine RTrip.bind hm fun a => ?_
  intro s hs
  obtain ⟨⟨hi, he⟩, hq⟩ := hs
  have := hf a s.view he hq s ⟨hi, .refl _⟩
  cases e : f a s with
  | ok x =>
    rw [e] at this
    exact ⟨⟨this.1.1, he.trans this.1.2⟩, this.2⟩
  | err => trivial
  | panic => rw [e] at this; exact this
  | cut => trivial

theorem pure {a : α} {Q : α → View → Prop} (h : ∀ w, Ext w0 w → Q a w) : KeepsFrom g w0 (Pure.pure a) Q :=
  RTrip.pure fun _ hs => ⟨hs, h _ hs.2⟩

theorem pure' {a : α} : KeepsFrom g w0 (Pure.pure a) := pure fun _ _ => trivial

theorem err {Q : α → View → Prop} : KeepsFrom g w0 (RdfM.err : RdfM α) Q := RTrip.err

theorem weaken {m : RdfM α} {Q Q' : α → View → Prop} (h : KeepsFrom g w0 m Q) (hq : ∀ a w, Q a w → Q' a w) :
    KeepsFrom g w0 m Q' := RTrip.post h fun _ _ h => ⟨h.1, hq _ _ h.2⟩

theorem drop {m : RdfM α} {Q : α → View → Prop} (h : KeepsFrom g w0 m Q) : KeepsFrom g w0 m := h.weaken fun _ _ _ => trivial

theorem lift {r : Res α} (hr : r ≠ .panic) : KeepsFrom g w0 (RdfM.lift r) fun a _ => r = .ok a :=
  RTrip.lift (fun h => absurd h hr) fun _ _ e hs => ⟨hs, e⟩

theorem quiet {f : RState → RState} (h : ∀ s, (f s).view = s.view) : KeepsFrom g w0 (modify f) :=
  RTrip.modify fun s hs => ⟨by rw [h]; exact hs, trivial⟩

theorem ite {c : Prop} [Decidable c] {m m' : RdfM α} {Q : α → View → Prop} (h : c → KeepsFrom g w0 m Q)
    (h' : ¬c → KeepsFrom g w0 m' Q) : KeepsFrom g w0 (if c then m else m') Q := by
  split
  · exact h ‹_›
  · exact h' ‹_›

theorem each {body : Triple → RdfM Unit} : ∀ {ts : List Triple}, (∀ t ∈ ts, KeepsFrom g w0 (body t)) →
    KeepsFrom g w0 (RdfM.each body ts)
  | [], _ => pure'
  | t :: ts, h => by
    refine RTrip.bind (R := fun _ s => RInv g s.view ∧ Ext w0 s.view) (RTrip.post (h t (by simp)) fun _ _ h => h.1) fun _ => ?_
    exact each fun u hu => h u (by simp [hu])

theorem fold {body : α → Triple → RdfM α} : ∀ {ts : List Triple} {a : α}, (∀ t ∈ ts, ∀ a, KeepsFrom g w0 (body a t)) →
    KeepsFrom g w0 (RdfM.fold body a ts)
  | [], _, _ => pure'
  | t :: ts, a, h => by
    refine RTrip.bind (R := fun _ s => RInv g s.view ∧ Ext w0 s.view) (RTrip.post (h t (by simp) a) fun _ _ h => h.1) fun _ => ?_
    exact fold fun u hu => h u (by simp [hu])

/-- A method is followed by one that starts anywhere. -/
theorem seq {m : RdfM α} {f : α → RdfM β} {Q : α → View → Prop} {Q' : β → View → Prop} (hm : KeepsFrom g w0 m Q)
    (hf : ∀ a w1, KeepsFrom g w1 (f a) Q') : KeepsFrom g w0 (m >>= f) Q' := hm.bind fun a w1 _ _ => hf a w1

end KeepsFrom

theorem map_modify_same {α β : Type} (h : α → β) (f : α → α) (hf : ∀ a, h (f a) = h a) :
    ∀ (l : List α) (i : Nat), (l.modify i f).map h = l.map h
  | [], i => by simp
  | a :: l, 0 => by simp [hf]
  | a :: l, i + 1 => by simp [map_modify_same h f hf l i]

theorem keeps_modFileAt {g : Graph} {w0 : View} (i : Nat) {f : FileV → FileV} (hf : ∀ x, (f x).spdxId = x.spdxId) :
    KeepsFrom g w0 (modFileAt i f) :=
  .quiet fun s => by
    simp only [RState.view, map_modify_same (fun x : FileV => x.spdxId) f hf]

theorem keeps_modPackage {g : Graph} {w0 : View} (i : Nat) {f : Package Nat → Package Nat}
    (hf : ∀ x, (f x).spdxId = x.spdxId) (hf' : ∀ x, (f x).files = x.files) : KeepsFrom g w0 (modPackage i f) :=
  .quiet fun s => by
    simp only [RState.view, map_modify_same (fun x : Package Nat => x.spdxId) f hf,
      map_modify_same (fun x : Package Nat => x.files) f hf']

theorem keeps_modDocument {g : Graph} {w0 : View} {f : HDoc → HDoc} (h1 : ∀ d, (f d).packages = d.packages)
    (h2 : ∀ d, (f d).files = d.files) (h3 : ∀ d, (f d).creationInfo.isSome = d.creationInfo.isSome) :
    KeepsFrom g w0 (modDocument f) :=
  .quiet fun s => by simp only [RState.view, h1, h2, h3]

theorem keeps_fileAt {g : Graph} {w0 : View} {i : Nat} (hi : i < w0.fids.length) :
    KeepsFrom g w0 (fileAt i) fun f w => w.fids[i]? = some f.spdxId := by
  intro s ⟨h, he⟩
  have hl : i < s.fileHeap.length := by
    have := he.fids.length_le
    simp only [RState.view, List.length_map] at this
    omega
  obtain ⟨f, hf⟩ := get_some hl
  unfold fileAt
  rw [hf]
  refine ⟨⟨h, he⟩, ?_⟩
  simp [RState.view, hf]

theorem keeps_packageAt {g : Graph} {w0 : View} {i : Nat} (hi : i < w0.pids.length) :
    KeepsFrom g w0 (packageAt i) := by
  intro s ⟨h, he⟩
  have hl : i < s.pkgHeap.length := by
    have := he.pids.length_le
    simp only [RState.view, List.length_map] at this
    omega
  obtain ⟨f, hf⟩ := get_some hl
  unfold packageAt
  rw [hf]
  exact ⟨⟨h, he⟩, trivial⟩

/-! ## The cache -/

/-- `enter`, in detail: the cache before and after. -/
theorem enter_eq (x : Str) (o : CObj) (s : RState) :
    (∃ o', mapGet x s.cache = some ⟨o', true⟩ ∧ enter x o s = .ok (some o', s)) ∨
    (mapGet x s.cache = none ∧ enter x o s = .ok (none, { s with cache := mapInsert x ⟨o, true⟩ s.cache })) ∨
    (∃ o', mapGet x s.cache = some ⟨o', false⟩ ∧ enter x o s = .ok (none, { s with cache := mapInsert x ⟨o', true⟩ s.cache })) := by
  unfold enter
  cases h : mapGet x s.cache with
  | none => exact .inr (.inl ⟨rfl, rfl⟩)
  | some e =>
    obtain ⟨o', b⟩ := e
    cases b with
    | true => exact .inl ⟨o', rfl, rfl⟩
    | false => exact .inr (.inr ⟨o', rfl, rfl⟩)

/-- The view with a cache entry set. -/
def View.put (w : View) (x : Str) (o : CObj) (b : Bool) : View := { w with cache := mapInsert x ⟨o, b⟩ w.cache }

theorem cached_put {w : View} {x y : Str} {o o' : CObj} {b : Bool} :
    (w.put x o b).cached y o' ↔ (y = x ∧ o' = o) ∨ (y ≠ x ∧ w.cached y o') := by
  unfold View.cached View.put
  simp only [mapGet_inserted]
  by_cases h : y = x
  · subst h
    simp only [if_true, Option.some.injEq, NodeState.mk.injEq, true_and, ne_eq, not_true_eq_false, false_and, or_false]
    constructor
    · rintro ⟨_, rfl, _⟩; rfl
    · rintro rfl; exact ⟨b, rfl, rfl⟩
  · simp [h]

theorem cached_unique {w : View} {x : Str} {o o' : CObj} (h : w.cached x o) (h' : w.cached x o') : o = o' := by
  obtain ⟨b, h⟩ := h
  obtain ⟨b', h'⟩ := h'
  rw [h] at h'
  injection h' with h'
  injection h'

/-- An object that fits its node. -/
structure ObjOk (g : Graph) (w : View) (x : Str) (o : CObj) : Prop where
  role : RoleOf g x o
  file : ∀ j, o = .file j → ∃ id, FileIdOf x id ∧ w.fids[j]? = some id
  package : ∀ i, o = .pkg i → ∃ id, PackageIdOf x id ∧ w.pids[i]? = some id

/-- A cache entry is added or repainted. -/
theorem RInv.put {g : Graph} {w : View} (h : RInv g w) {x : Str} {o : CObj} {b : Bool}
    (ho : w.cached x o ∨ (mapGet x w.cache = none ∧ ObjOk g w x o))
    (hb : Tidy g → b = true ∨ ((∀ j id, o = .file j → FileIdOf x id → id ∈ w.files.map (·.1)) ∧ ∀ i, o = .pkg i → i ∈ w.packages)) :
    RInv g (w.put x o b) ∧ Ext w (w.put x o b) := by
  have back : ∀ y o', (w.put x o b).cached y o' → w.cached y o' ∨ ObjOk g w y o' := by
    intro y o' hc
    rcases cached_put.1 hc with ⟨rfl, rfl⟩ | ⟨_, hc⟩
    · rcases ho with ho | ⟨_, ho⟩
      · exact .inl ho
      · exact .inr ho
    · exact .inl hc
  have forth : ∀ y o', w.cached y o' → (w.put x o b).cached y o' := by
    intro y o' hc
    refine cached_put.2 ?_
    by_cases hy : y = x
    · subst hy
      refine .inl ⟨rfl, ?_⟩
      rcases ho with ho | ⟨e', _⟩
      · exact cached_unique hc ho
      · obtain ⟨b', e⟩ := hc
        rw [e] at e'; simp at e'
    · exact .inr ⟨hy, hc⟩
  refine ⟨?_, ⟨List.prefix_refl _, List.prefix_refl _, List.prefix_refl _, forth, fun _ h => h⟩⟩
  exact
    { cacheFile := fun y j hc => by
        rcases back _ _ hc with hc | ⟨_, hf, _⟩
        · exact h.cacheFile _ _ hc
        · obtain ⟨id, _, e⟩ := hf j rfl; exact get_lt e
      cachePkg := fun y j hc => by
        rcases back _ _ hc with hc | ⟨_, _, hf⟩
        · exact h.cachePkg _ _ hc
        · obtain ⟨id, _, e⟩ := hf j rfl; exact get_lt e
      files := h.files, keys := h.keys, packages := h.packages, docFiles := h.docFiles, pkgFiles := h.pkgFiles, ci := h.ci
      kinds := fun hr y o' hc => by
        rcases back _ _ hc with hc | ⟨hr', _, _⟩
        · exact h.kinds hr _ _ hc
        · exact hr'
      fileIds := fun hf y j hc => by
        rcases back _ _ hc with hc | ⟨_, hf', _⟩
        · exact h.fileIds hf _ _ hc
        · exact hf' j rfl
      pkgIds := fun hf y j hc => by
        rcases back _ _ hc with hc | ⟨_, _, hf'⟩
        · exact h.pkgIds hf _ _ hc
        · exact hf' j rfl
      filesCanon := fun hf e he => by obtain ⟨y, hy⟩ := h.filesCanon hf e he; exact ⟨y, forth y _ hy⟩
      pkgFilesCanon := fun hf l hl j hj => by obtain ⟨y, hy⟩ := h.pkgFilesCanon hf l hl j hj; exact ⟨y, forth y _ hy⟩
      pkgsCanon := fun hf i hi => by obtain ⟨y, hy⟩ := h.pkgsCanon hf i hi; exact ⟨y, forth y _ hy⟩
      filesDone := fun hf y j id hc hid => by
        simp only [View.put, mapGet_inserted] at hc
        by_cases hy : y = x
        · subst hy
          simp only [if_true, Option.some.injEq, NodeState.mk.injEq] at hc
          obtain ⟨e1, e2⟩ := hc
          rcases hb hf with hb | ⟨hb, _⟩
          · rw [hb] at e2; simp at e2
          · exact hb j id e1 hid
        · simp only [hy, if_false] at hc
          exact h.filesDone hf y j id hc hid
      pkgsDone := fun hf y i hc => by
        simp only [View.put, mapGet_inserted] at hc
        by_cases hy : y = x
        · subst hy
          simp only [if_true, Option.some.injEq, NodeState.mk.injEq] at hc
          obtain ⟨e1, e2⟩ := hc
          rcases hb hf with hb | ⟨_, hb⟩
          · rw [hb] at e2; simp at e2
          · exact hb i e1
        · simp only [hy, if_false] at hc
          exact h.pkgsDone hf y i hc }

theorem keeps_leave {g : Graph} {w0 : View} (x : Str)
    (h : ∀ w, Ext w0 w → RInv g w → Tidy g → ∀ o, w.cached x o →
      (∀ j id, o = .file j → FileIdOf x id → id ∈ w.files.map (·.1)) ∧ ∀ i, o = .pkg i → i ∈ w.packages) :
    RTrip (¬OneRole g) True (fun s => RInv g s.view ∧ s.view = w0) (leave x) fun _ s => RInv g s.view ∧ Ext w0 s.view ∧
      s.view.packages = w0.packages := by
  refine RTrip.modify fun s ⟨hi, he⟩ => ?_
  subst he
  cases e : mapGet x s.cache with
  | none => exact ⟨hi, .refl _, rfl⟩
  | some n =>
    obtain ⟨o, b⟩ := n
    have := hi.put (x := x) (o := o) (b := false) (.inl ⟨b, e⟩) fun ht => .inr (h _ (.refl _) hi ht o ⟨b, e⟩)
    exact ⟨this.1, this.2, rfl⟩

/-- The end of a method for a license or a relationship. -/
theorem keeps_leave_plain {g : Graph} {w0 : View} {x : Str} (hx : UsedAsLicense g x ∨ UsedAsRelationship g x) :
    KeepsFrom g w0 (leave x) := by
  intro s ⟨hi, he⟩
  have := keeps_leave (g := g) (w0 := s.view) x (fun w _ hw ht o ho => by
    have hk := hw.kinds ht.1 x o ho
    cases o with
    | nil => exact ⟨by simp, by simp⟩
    | rel => exact ⟨by simp, by simp⟩
    | file j =>
      rcases hx with hx | hx
      · exact absurd hx (ht.1.file x hk).2.1
      · exact absurd hx (ht.1.file x hk).2.2
    | pkg j =>
      rcases hx with hx | hx
      · exact absurd hx (ht.1.package x hk).1
      · exact absurd hx (ht.1.package x hk).2) s ⟨hi, rfl⟩
  cases e : leave x s with
  | ok r => rw [e] at this; exact ⟨⟨this.1, he.trans this.2.1⟩, trivial⟩
  | err => trivial
  | panic => rw [e] at this; exact this
  | cut => trivial

/-- The beginning of a method for a license or a relationship. -/
theorem keeps_enter_plain {g : Graph} {w0 : View} {x : Str} {o : CObj} (ho : RoleOf g x o) (hf : ∀ j, o ≠ .file j)
    (hp : ∀ i, o ≠ .pkg i) : KeepsFrom g w0 (enter x o) := by
  intro s ⟨hi, he⟩
  rcases enter_eq x o s with ⟨o', _, e⟩ | ⟨h, e⟩ | ⟨o', h, e⟩
  · rw [e]; exact ⟨⟨hi, he⟩, trivial⟩
  · rw [e]
    have := hi.put (x := x) (o := o) (b := true) (.inr ⟨h, ho, fun j e => absurd e (hf j), fun i e => absurd e (hp i)⟩)
      fun _ => .inl rfl
    exact ⟨⟨this.1, he.trans this.2⟩, trivial⟩
  · rw [e]
    have := hi.put (x := x) (o := o') (b := true) (.inl ⟨_, h⟩) fun _ => .inl rfl
    exact ⟨⟨this.1, he.trans this.2⟩, trivial⟩

/-! ## Licenses -/

theorem used_of {g : Graph} {n : RNode} {t : Triple} (ht : t ∈ g.of n) {ps : List Pred} (hp : t.pred ∈ ps) :
    UsedBy g ps t.object.id := ⟨t, (mem_of ht).1, hp, rfl⟩

theorem keeps_getAnyLicense (g : Graph) : ∀ (n : Nat) (node : RNode) (w0 : View), UsedAsLicense g node.id →
    KeepsFrom g w0 (getAnyLicense g n node)
  | 0, _, _, _ => RTrip.cut fun _ _ => True.intro
  | n + 1, node, w0, hu => by
    unfold getAnyLicense
    refine (keeps_enter_plain (o := .nil) hu (by simp) (by simp)).seq fun o w0 => ?_
    cases o with
    | some _ => exact .err
    | none =>
      refine KeepsFrom.seq (Q := fun _ _ => True) ?_ fun _ w1 => (keeps_leave_plain (.inl hu)).seq fun _ _ => .pure'
      have hm : ∀ st, ∀ t ∈ g.of node, ∀ a, KeepsFrom g w0 (memberStep (getAnyLicense g n) st a t) := by
        intro st t ht a
        unfold memberStep
        cases hp : t.pred <;> first
          | exact .pure'
          | exact (keeps_getAnyLicense g n _ _ (used_of ht (by simp [hp]))).seq fun _ _ => .pure'
          | exact .ite (fun _ => .err) fun _ => .pure'
      rcases body_cases g node with hc | hc | ⟨l, x, e, _⟩ | e
      · rw [hc.body]
        exact (KeepsFrom.fold (hm _)).seq fun _ _ => .pure'
      · rw [hc.body]
        exact (KeepsFrom.fold (hm _)).seq fun _ _ => .pure'
      · rw [e]; exact .pure'
      · rw [e]; exact .err

theorem keeps_licenseText {g : Graph} {node : RNode} {w0 : View} (hu : UsedAsLicense g node.id) :
    KeepsFrom g w0 (licenseText g node) := (keeps_getAnyLicense g _ _ _ hu).seq fun _ _ => .pure'

end Verif
