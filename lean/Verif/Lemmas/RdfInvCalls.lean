import Verif.Lemmas.RdfInv
import Verif.Lemmas.RdfPure

/-!
# The methods of the RDF reader keep its invariant
-/

namespace Verif
open RdfM Spec

/-! ## Changes of the view -/

theorem Ext.of_cache {w w' : View} (h1 : w'.fids = w.fids) (h2 : w'.pids = w.pids) (h3 : w'.packages = w.packages)
    (h4 : w'.cache = w.cache) (h5 : ∀ k ∈ w.files.map (·.1), k ∈ w'.files.map (·.1)) : Ext w w' :=
  ⟨h1 ▸ List.prefix_refl _, h2 ▸ List.prefix_refl _, h3 ▸ List.prefix_refl _, fun x o h => by unfold View.cached; rw [h4]; exact h, h5⟩

theorem append_get {α : Type} {l : List α} {i : Nat} {x : α} (e : l[i]? = some x) (t : List α) : (l ++ t)[i]? = some x :=
  prefix_get (List.prefix_append l t) e

/-- A new file. -/
theorem RInv.growFile {g : Graph} {w : View} (h : RInv g w) (id : Str) : RInv g { w with fids := w.fids ++ [id] } :=
  { cacheFile := fun x j hc => by have := h.cacheFile x j hc; simp; omega
    cachePkg := h.cachePkg
    files := fun e he => append_get (h.files e he) _
    keys := h.keys, packages := h.packages, docFiles := h.docFiles
    pkgFiles := fun l hl j hj => by obtain ⟨id', e, ha⟩ := h.pkgFiles l hl j hj; exact ⟨id', append_get e _, ha⟩
    ci := h.ci, kinds := h.kinds
    fileIds := fun hf x j hc => by obtain ⟨id', hi, e⟩ := h.fileIds hf x j hc; exact ⟨id', hi, append_get e _⟩
    pkgIds := h.pkgIds, filesCanon := h.filesCanon, pkgFilesCanon := h.pkgFilesCanon, pkgsCanon := h.pkgsCanon
    filesDone := h.filesDone, pkgsDone := h.pkgsDone }

/-- A new package. -/
theorem RInv.growPackage {g : Graph} {w : View} (h : RInv g w) (id : Str) :
    RInv g { w with pids := w.pids ++ [id], pfs := w.pfs ++ [[]] } :=
  { cacheFile := h.cacheFile
    cachePkg := fun x j hc => by have := h.cachePkg x j hc; simp; omega
    files := h.files
    keys := h.keys
    packages := fun i hi => by have := h.packages i hi; simp; omega
    docFiles := h.docFiles
    pkgFiles := fun l hl j hj => by
      rcases List.mem_append.1 hl with hl | hl
      · exact h.pkgFiles l hl j hj
      · rw [List.mem_singleton.1 hl] at hj; simp at hj
    ci := h.ci, kinds := h.kinds
    fileIds := h.fileIds
    pkgIds := fun hf x j hc => by obtain ⟨id', hi, e⟩ := h.pkgIds hf x j hc; exact ⟨id', hi, append_get e _⟩
    filesCanon := h.filesCanon
    pkgFilesCanon := fun hf l hl j hj => by
      rcases List.mem_append.1 hl with hl | hl
      · exact h.pkgFilesCanon hf l hl j hj
      · rw [List.mem_singleton.1 hl] at hj; simp at hj
    pkgsCanon := h.pkgsCanon
    filesDone := h.filesDone, pkgsDone := h.pkgsDone }

theorem mem_keys_mapInsert {α : Type} {k k' : Str} {x : α} {m : List (Str × α)} :
    k' ∈ (mapInsert k x m).map (·.1) ↔ k' = k ∨ k' ∈ m.map (·.1) := by
  induction m with
  | nil => simp [mapInsert]
  | cons e m ih =>
    obtain ⟨k0, x0⟩ := e
    simp only [mapInsert]
    by_cases h : k0 = k
    · subst h; simp
    · simp only [h, if_false, List.map_cons, List.mem_cons, ih]
      constructor
      · rintro (h | h | h) <;> simp [h]
      · rintro (h | h | h) <;> simp [h]

theorem mem_of_mapInsert {α : Type} {k : Str} {x : α} {m : List (Str × α)} {e : Str × α} (h : e ∈ mapInsert k x m) :
    e = (k, x) ∨ e ∈ m := by
  induction m with
  | nil => exact .inl (by simpa [mapInsert] using h)
  | cons e0 m ih =>
    obtain ⟨k0, x0⟩ := e0
    simp only [mapInsert] at h
    by_cases hk : k0 = k
    · subst hk
      simp only [if_true, List.mem_cons] at h
      rcases h with h | h
      · exact .inl h
      · exact .inr (by simp [h])
    · simp only [hk, if_false, List.mem_cons] at h
      rcases h with h | h
      · exact .inr (by simp [h])
      · rcases ih h with h | h
        · exact .inl h
        · exact .inr (by simp [h])

theorem nodup_keys_mapInsert {α : Type} (k : Str) (x : α) : ∀ m : List (Str × α), (m.map (·.1)).Nodup →
    ((mapInsert k x m).map (·.1)).Nodup
  | [], _ => by simp [mapInsert]
  | (k0, x0) :: m, h => by
    simp only [List.map_cons, List.nodup_cons] at h
    simp only [mapInsert]
    by_cases hk : k0 = k
    · subst hk; simpa using h
    · simp only [hk, if_false, List.map_cons, List.nodup_cons]
      refine ⟨fun hm => ?_, nodup_keys_mapInsert k x m h.2⟩
      rcases mem_keys_mapInsert.1 hm with e | e
      · exact hk e
      · exact h.1 e

theorem pair_of_mapGet {α : Type} {k : Str} {x : α} : ∀ {m : List (Str × α)}, mapGet k m = some x → (k, x) ∈ m
  | [], h => by simp [mapGet] at h
  | (k0, x0) :: m, h => by
    simp only [mapGet] at h
    split at h
    · next hk => injection h with h; subst hk; subst h; simp
    · exact List.mem_cons_of_mem _ (pair_of_mapGet h)

theorem not_mem_of_mapGet {α : Type} {k : Str} : ∀ {m : List (Str × α)}, mapGet k m = none → k ∉ m.map (·.1)
  | [], _ => by simp
  | (k0, x0) :: m, h => by
    simp only [mapGet] at h
    split at h
    · simp at h
    · next hk =>
      simp only [List.map_cons, List.mem_cons, not_or]
      exact ⟨fun e => hk e.symm, not_mem_of_mapGet h⟩

/-- A file is entered into the map of files. -/
theorem RInv.addFile {g : Graph} {w : View} (h : RInv g w) {id : Str} {k : Nat} (hk : w.fids[k]? = some id)
    (hc : Tidy g → ∃ x, w.cached x (.file k)) : RInv g { w with files := mapInsert id k w.files } :=
  { cacheFile := h.cacheFile, cachePkg := h.cachePkg
    files := fun e he => by
      rcases mem_of_mapInsert he with rfl | he
      · exact hk
      · exact h.files e he
    keys := nodup_keys_mapInsert id k _ h.keys
    packages := h.packages, docFiles := h.docFiles, pkgFiles := h.pkgFiles, ci := h.ci, kinds := h.kinds
    fileIds := h.fileIds, pkgIds := h.pkgIds
    filesCanon := fun hf e he => by
      rcases mem_of_mapInsert he with rfl | he
      · exact hc hf
      · exact h.filesCanon hf e he
    pkgFilesCanon := h.pkgFilesCanon, pkgsCanon := h.pkgsCanon
    filesDone := fun hf x j id' hx hi => mem_keys_mapInsert.2 (.inr (h.filesDone hf x j id' hx hi))
    pkgsDone := h.pkgsDone }

/-- A package is added to the document. -/
theorem RInv.addPackage {g : Graph} {w : View} (h : RInv g w) {i : Nat} (hi : i < w.pids.length)
    (hc : Tidy g → ∃ x, w.cached x (.pkg i)) : RInv g { w with packages := w.packages ++ [i] } :=
  { cacheFile := h.cacheFile, cachePkg := h.cachePkg, files := h.files, keys := h.keys
    packages := fun j hj => by
      rcases List.mem_append.1 hj with hj | hj
      · exact h.packages j hj
      · rw [List.mem_singleton.1 hj]; exact hi
    docFiles := h.docFiles, pkgFiles := h.pkgFiles, ci := h.ci, kinds := h.kinds
    fileIds := h.fileIds, pkgIds := h.pkgIds, filesCanon := h.filesCanon, pkgFilesCanon := h.pkgFilesCanon
    pkgsCanon := fun hf j hj => by
      rcases List.mem_append.1 hj with hj | hj
      · exact h.pkgsCanon hf j hj
      · rw [List.mem_singleton.1 hj]; exact hc hf
    filesDone := h.filesDone
    pkgsDone := fun hf x j hx => List.mem_append.2 (.inl (h.pkgsDone hf x j hx)) }

/-- A file is added to a package. -/
theorem RInv.addPackageFile {g : Graph} {w : View} (h : RInv g w) {id : Str} {j : Nat} {pfs : List (List Nat)}
    (hj : w.fids[j]? = some id) (hc : Tidy g → ∃ x, w.cached x (.file j))
    (hp : ∀ l ∈ pfs, ∀ k ∈ l, k = j ∨ ∃ l' ∈ w.pfs, k ∈ l') : RInv g { w with pfs := pfs, assoc := id :: w.assoc } :=
  { cacheFile := h.cacheFile, cachePkg := h.cachePkg, files := h.files, keys := h.keys, packages := h.packages
    docFiles := h.docFiles
    pkgFiles := fun l hl k hk => by
      rcases hp l hl k hk with rfl | ⟨l', hl', hk'⟩
      · exact ⟨id, hj, by simp⟩
      · obtain ⟨id', e, ha⟩ := h.pkgFiles l' hl' k hk'; exact ⟨id', e, List.mem_cons_of_mem _ ha⟩
    ci := h.ci, kinds := h.kinds, fileIds := h.fileIds, pkgIds := h.pkgIds, filesCanon := h.filesCanon
    pkgFilesCanon := fun hf l hl k hk => by
      rcases hp l hl k hk with rfl | ⟨l', hl', hk'⟩
      · exact hc hf
      · exact h.pkgFilesCanon hf l' hl' k hk'
    pkgsCanon := h.pkgsCanon, filesDone := h.filesDone, pkgsDone := h.pkgsDone }

/-! ## The methods -/

/-- The document has the package, under the identifier of the node. -/
def ListedAt (x : Str) (k : Nat) (w : View) : Prop := k ∈ w.packages ∧ ∃ id, PackageIdOf x id ∧ w.pids[k]? = some id

/-- What the methods that call each other guarantee. -/
structure Good (g : Graph) (c : RCalls) : Prop where
  file : ∀ n w0, UsedAsFile g n.id → KeepsFrom g w0 (c.file n) fun k w =>
    k < w.fids.length ∧ (Tidy g → w.cached n.id (.file k))
  package : ∀ n w0, UsedAsPackage g n.id → KeepsFrom g w0 (c.package n) fun k w =>
    k < w.pids.length ∧ (Tidy g → w.cached n.id (.pkg k)) ∧
      (ListedAt n.id k w ∨ ∃ o, mapGet n.id w.cache = some ⟨o, true⟩)
  relationship : ∀ t w0, UsedAsRelationship g t.object.id → KeepsFrom g w0 (c.relationship t)

theorem keeps_addAnnotation {g : Graph} {w0 : View} (n : RNode) : KeepsFrom g w0 (addAnnotation g n) :=
  (KeepsFrom.lift (annotationAt_ne_panic _ _)).seq fun _ _ => keeps_modDocument (fun _ => rfl) (fun _ => rfl) fun _ => rfl

theorem keeps_fileStep (v : Version) {g : Graph} {c : RCalls} (h : Good g c) (i : Nat) {n : RNode} {t : Triple} (ht : t ∈ g.of n)
    (w0 : View) : KeepsFrom g w0 (fileStep v g c i t) := by
  unfold fileStep
  cases hp : t.pred <;> first
    | exact .pure'
    | exact .err
    | exact keeps_modFileAt _ fun _ => rfl
    | exact (KeepsFrom.lift (fileTypeOf_ne_panic _)).seq fun _ _ => keeps_modFileAt _ fun _ => rfl
    | exact (KeepsFrom.lift (elementChecksumAt_ne_panic _ _ _)).seq fun _ _ => keeps_modFileAt _ fun _ => rfl
    | exact (KeepsFrom.lift (artifactAt_ne_panic _ _)).seq fun _ _ => keeps_modFileAt _ fun _ => rfl
    | exact (keeps_licenseText (used_of ht (by simp [hp]))).seq fun _ _ => keeps_modFileAt _ fun _ => rfl
    | exact keeps_addAnnotation _
    | exact h.relationship _ _ (used_of ht (by simp [hp]))
    | exact (h.file _ _ (.inl (used_of ht (by simp [hp])))).bind fun j w1 _ hj =>
        (keeps_fileAt hj.1).seq fun _ _ => keeps_modFileAt _ fun _ => rfl

theorem keeps_packageStep (v : Version) {g : Graph} {c : RCalls} (h : Good g c) {i : Nat} {n : RNode} {t : Triple} (ht : t ∈ g.of n)
    {w0 : View} (hi : i < w0.pids.length) : KeepsFrom g w0 (packageStep v g c i t) := by
  have mp : ∀ {w : View} {f : Package Nat → Package Nat}, (∀ x, (f x).spdxId = x.spdxId) → (∀ x, (f x).files = x.files) →
      KeepsFrom g w (modPackage i f) := fun h h' => keeps_modPackage i h h'
  unfold packageStep
  cases hp : t.pred <;> first
    | exact .pure'
    | exact .err
    | exact mp (fun _ => rfl) fun _ => rfl
    | exact .ite (fun _ => mp (fun _ => rfl) fun _ => rfl) fun _ => .err
    | exact (KeepsFrom.lift (supplierOf_ne_panic _)).seq fun _ _ => mp (fun _ => rfl) fun _ => rfl
    | exact (KeepsFrom.lift (originatorOf_ne_panic _)).seq fun _ _ => mp (fun _ => rfl) fun _ => rfl
    | exact (KeepsFrom.lift (locationOf_ne_panic _ _)).seq fun _ _ => mp (fun _ => rfl) fun _ => rfl
    | exact (KeepsFrom.lift (boolOf_ne_panic _)).seq fun _ _ => mp (fun _ => rfl) fun _ => rfl
    | exact (KeepsFrom.lift (elementChecksumAt_ne_panic _ _ _)).seq fun _ _ => mp (fun _ => rfl) fun _ => rfl
    | exact (KeepsFrom.lift (externalRefAt_ne_panic _ _)).seq fun _ _ => mp (fun _ => rfl) fun _ => rfl
    | exact (keeps_packageAt hi).seq fun _ _ => (KeepsFrom.lift (verificationAt_ne_panic _ _ _ _)).seq fun _ _ =>
        mp (fun _ => rfl) fun _ => rfl
    | exact (keeps_licenseText (used_of ht (by simp [hp]))).seq fun _ _ => mp (fun _ => rfl) fun _ => rfl
    | exact keeps_addAnnotation _
    | exact h.relationship _ _ (used_of ht (by simp [hp]))
    | skip
  refine (h.file _ _ (.inl (used_of ht (by simp [hp])))).bind fun j w1 _ hj =>
    (keeps_fileAt hj.1).bind fun f w2 h12 hf => ?_
  intro s ⟨hs, he⟩
  refine ⟨⟨?_, he.trans (.of_cache ?_ ?_ rfl rfl fun _ h => h)⟩, trivial⟩
  · have := hs.addPackageFile (id := f.spdxId) (j := j) (pfs := (s.pkgHeap.modify i fun p => { p with files := p.files ++ [j] }).map (·.files))
      (prefix_get he.fids hf) (fun ht => by
        exact ⟨_, he.cache _ _ (h12.cache _ _ (hj.2 ht))⟩)
      (fun l hl k hk => by
        obtain ⟨p, hp, rfl⟩ := List.mem_map.1 hl
        obtain ⟨m, hm⟩ := List.mem_iff_getElem?.1 hp
        rw [List.getElem?_modify] at hm
        cases e : s.pkgHeap[m]? with
        | none => rw [e] at hm; simp at hm
        | some q =>
          rw [e] at hm
          have hq : q.files ∈ s.view.pfs := List.mem_map.2 ⟨q, List.mem_iff_getElem?.2 ⟨m, e⟩, rfl⟩
          by_cases him : i = m
          · simp [him] at hm
            subst hm
            rcases List.mem_append.1 hk with hk | hk
            · exact .inr ⟨_, hq, hk⟩
            · exact .inl (List.mem_singleton.1 hk)
          · simp [him] at hm
            subst hm
            exact .inr ⟨_, hq, hk⟩)
    have e : (s.pkgHeap.modify i fun p => { p with files := p.files ++ [j] }).map (·.spdxId) = s.pkgHeap.map (·.spdxId) :=
      map_modify_same (fun p : Package Nat => p.spdxId) (fun p => { p with files := p.files ++ [j] }) (fun _ => rfl) _ _
    simpa only [RState.view, e] using this
  · rfl
  · exact map_modify_same (fun p : Package Nat => p.spdxId) (fun p => { p with files := p.files ++ [j] }) (fun _ => rfl) _ _

theorem related_of {g : Graph} {n : RNode} {t tt : Triple} (ht : t ∈ g.of n) (hp : t.pred = .relatedSpdxElement)
    (htt : tt ∈ typeTriples (g.of t.object) t.object.id) {k : Cls} (hk : Cls.ofStr tt.object.id = k) :
    RelatedAs g k tt.subject.id := by
  obtain ⟨h1, h2⟩ := List.mem_filter.1 htt
  obtain ⟨h3, h4⟩ := mem_of h1
  simp only [Bool.and_eq_true, decide_eq_true_eq] at h2
  exact ⟨t, (mem_of ht).1, hp, by rw [h4], tt, h3, h4, h2.2, hk⟩

theorem keeps_relationshipStep {g : Graph} {c : RCalls} (h : Good g c) (r : Relationship) {n : RNode} {t : Triple}
    (ht : t ∈ g.of n) (w0 : View) : KeepsFrom g w0 (relationshipStep g c r t) := by
  unfold relationshipStep
  cases hp : t.pred <;> first
    | exact .pure'
    | exact .err
    | exact (KeepsFrom.lift (relationshipTypeOf_ne_panic _)).seq fun _ _ => .pure'
    | skip
  refine (KeepsFrom.lift (referenceOf_ne_panic _)).seq fun b w1 => .ite (fun _ => .pure') fun _ => ?_
  cases htt : typeTriples (g.of t.object) t.object.id with
  | nil => exact .err
  | cons tt rest =>
    cases rest with
    | cons _ _ => exact .err
    | nil =>
      have hm : tt ∈ typeTriples (g.of t.object) t.object.id := by rw [htt]; simp
      refine KeepsFrom.seq (Q := fun _ _ => True) ?_ fun _ _ => .pure'
      unfold relatedElement
      cases hk : Cls.ofStr tt.object.id <;> first
        | exact .err
        | exact (KeepsFrom.lift (extractDocElementID_ne_panic _)).drop
        | exact (h.file _ _ (.inr (related_of ht hp hm hk))).bind fun j w1 _ hj => (keeps_fileAt hj.1).seq fun _ _ => .pure'
        | exact (h.package _ _ (.inr (related_of ht hp hm hk))).bind fun j w1 _ hj => (keeps_packageAt hj.1).seq fun _ _ => .pure'

theorem keeps_relationshipBody {g : Graph} {c : RCalls} (h : Good g c) (t : Triple) (w0 : View)
    (hu : UsedAsRelationship g t.object.id) : KeepsFrom g w0 (relationshipBody g c t) := by
  unfold relationshipBody
  refine (KeepsFrom.lift (referenceOf_ne_panic _)).seq fun a w0 =>
    (keeps_enter_plain (o := .rel) hu (by simp) (by simp)).seq fun o w0 => ?_
  cases o with
  | some _ => exact .pure'
  | none =>
    exact (KeepsFrom.fold fun t ht r => keeps_relationshipStep h r ht w0).seq fun _ _ =>
      KeepsFrom.seq (Q := fun _ _ => True) (keeps_modDocument (fun _ => rfl) (fun _ => rfl) fun _ => rfl) fun _ _ =>
        keeps_leave_plain (.inr hu)

/-! ## Files -/

/-- What a method that keeps the invariant may end in. -/
def Ends {α : Type} (g : Graph) (Q : α → RState → Prop) : ROut (α × RState) → Prop
  | .ok (a, s) => Q a s
  | .err => True
  | .panic => ¬OneRole g
  | .cut => True

theorem Ends.of {α : Type} {g : Graph} {P : RState → Prop} {m : RdfM α} {Q : α → RState → Prop}
    (h : RTrip (¬OneRole g) True P m Q) {s : RState} (hs : P s) : Ends g Q (m s) := by
  have := h s hs
  cases e : m s <;> (rw [e] at this; exact this)

theorem Ends.imp {α : Type} {g : Graph} {Q Q' : α → RState → Prop} {r : ROut (α × RState)} (h : Ends g Q r)
    (hq : ∀ a s, Q a s → Q' a s) : Ends g Q' r := by
  cases r with
  | ok x => exact hq _ _ h
  | err => trivial
  | panic => exact h
  | cut => trivial

theorem RTrip.of_ends {α : Type} {g : Graph} {P : RState → Prop} {m : RdfM α} {Q : α → RState → Prop}
    (h : ∀ s, P s → Ends g Q (m s)) : RTrip (¬OneRole g) True P m Q := by
  intro s hs
  have := h s hs
  cases e : m s <;> (rw [e] at this; exact this)

theorem bind_at {α β : Type} {m : RdfM α} {f : α → RdfM β} {s s' : RState} {a : α} (e : m s = .ok (a, s')) :
    (m >>= f) s = f a s' := by
  change RdfM.bind m f s = _
  unfold RdfM.bind
  rw [e]

theorem bind_same {α β : Type} {m m' : RdfM α} {f : α → RdfM β} {s s' : RState} (e : m s = m' s') :
    (m >>= f) s = (m' >>= f) s' := by
  change RdfM.bind m f s = RdfM.bind m' f s'
  unfold RdfM.bind
  rw [e]

theorem rmodify_last {α : Type} (f : α → α) (a : α) : ∀ l : List α, (l ++ [a]).modify l.length f = l ++ [f a]
  | [] => rfl
  | b :: l => by simp [rmodify_last f a l]


theorem keeps_fileBody (v : Version) {g : Graph} {c : RCalls} (h : Good g c) (node : RNode) (w0 : View)
    (hu : UsedAsFile g node.id) : KeepsFrom g w0 (fileBody v g c node) fun k w =>
      k < w.fids.length ∧ (Tidy g → w.cached node.id (.file k)) := by
  refine RTrip.of_ends fun s ⟨hi, he⟩ => ?_
  -- the end of the method, from the moment the new file has its identifier
  have rest : ∀ (s3 : RState) (id : Str) (i : Nat), FileIdOf node.id id → RInv g s3.view → s3.view.fids[i]? = some id →
      (Tidy g → (mapGet id s3.files).getD i = i → s3.view.cached node.id (.file i)) →
      KeepsFrom g s3.view (do
        let k ← (do
          each (fileStep v g c ((mapGet id s3.files).getD i)) (g.of node)
          let f ← fileAt ((mapGet id s3.files).getD i)
          modify fun s => { s with files := mapInsert f.spdxId ((mapGet id s3.files).getD i) s.files }
          pure ((mapGet id s3.files).getD i))
        leave node.id
        pure k) fun k w => k < w.fids.length ∧ (Tidy g → w.cached node.id (.file k)) := by
    intro s3 id i hid hi3 hget hnew
    generalize hk : (mapGet id s3.files).getD i = k at hnew ⊢
    have hkid : s3.view.fids[k]? = some id := by
      cases e : mapGet id s3.files with
      | none => rw [e] at hk; simp at hk; subst hk; exact hget
      | some k0 => rw [e] at hk; simp at hk; subst hk; exact hi3.files _ (pair_of_mapGet e)
    have hcan : Tidy g → s3.view.cached node.id (.file k) := by
      intro ht
      cases e : mapGet id s3.files with
      | none => rw [e] at hk; simp at hk; subst hk; exact hnew ht rfl
      | some k0 =>
        rw [e] at hk; simp at hk; subst hk
        obtain ⟨x, hx⟩ := hi3.filesCanon ht _ (pair_of_mapGet e)
        obtain ⟨id', h1, h2⟩ := hi3.fileIds ht x _ hx
        rw [hkid] at h2
        injection h2 with h2
        subst h2
        have := ht.2.file x node.id id (hi3.kinds ht.1 _ _ hx) hu h1 hid
        rw [← this]; exact hx
    refine KeepsFrom.bind (Q := fun k' w => k' = k ∧ id ∈ w.files.map (·.1) ∧ (Tidy g → w.cached node.id (.file k)) ∧
        k < w.fids.length) ?_ ?_
    · refine (KeepsFrom.each fun t ht => keeps_fileStep v h k ht _).bind fun _ w1 h1 _ =>
        (keeps_fileAt (by have := h1.fids.length_le; have := get_lt hkid; omega)).bind fun f w2 h2 hf => ?_
      have hf' : f.spdxId = id := by
        rw [prefix_get (h1.trans h2).fids hkid] at hf
        injection hf with hf; exact hf.symm
      rw [hf']
      refine KeepsFrom.bind (Q := fun _ w => id ∈ w.files.map (·.1) ∧ (Tidy g → w.cached node.id (.file k)) ∧
        k < w.fids.length) ?_ fun _ w3 _ hq => ?_
      · refine RTrip.modify fun s4 ⟨hs4, he4⟩ => ?_
        have hc4 : Tidy g → s4.view.cached node.id (.file k) := fun ht =>
          ((h1.trans h2).trans he4).cache _ _ (hcan ht)
        have hk4 := prefix_get ((h1.trans h2).trans he4).fids hkid
        have := hs4.addFile hk4 fun ht => ⟨_, hc4 ht⟩
        exact ⟨⟨this, he4.trans (.of_cache rfl rfl rfl rfl fun _ h => mem_keys_mapInsert.2 (.inr h))⟩, mem_keys_mapInsert.2 (.inl rfl), hc4, get_lt hk4⟩
      · exact .pure fun w4 h4 => ⟨rfl, h4.keys _ hq.1, fun ht => h4.cache _ _ (hq.2.1 ht), by
          have := h4.fids.length_le; omega⟩
    · intro k' w1 h1 ⟨hk', hkeys, hcan', hlt⟩
      subst hk'
      refine KeepsFrom.bind (Q := fun _ _ => True) ?_ fun _ w2 h2 _ => .pure fun w3 h3 => ⟨by
        have := (h2.trans h3).fids.length_le; omega, fun ht => (h2.trans h3).cache _ _ (hcan' ht)⟩
      intro s5 ⟨hs5, he5⟩
      have := keeps_leave (g := g) (w0 := s5.view) node.id (fun w hw _ ht o ho => by
        have := cached_unique ho ((he5.trans hw).cache _ _ (hcan' ht))
        subst this
        refine ⟨fun j id' _ hid' => ?_, by simp⟩
        have : id' = id := by unfold FileIdOf at hid hid'; rw [hid] at hid'; injection hid' with h; exact h.symm
        subst this
        exact (he5.trans hw).keys _ hkeys) s5 ⟨hs5, rfl⟩
      cases e : leave node.id s5 with
      | ok r => rw [e] at this; exact ⟨⟨this.1, he5.trans this.2.1⟩, trivial⟩
      | err => trivial
      | panic => rw [e] at this; exact this
      | cut => trivial
  have hgrow : Ext s.view { s.view with fids := s.view.fids ++ [[]] } :=
    ⟨List.prefix_append _ _, List.prefix_refl _, List.prefix_refl _, fun _ _ h => h, fun _ h => h⟩
  have hview : ({ s with fileHeap := s.fileHeap ++ [{}] } : RState).view = { s.view with fids := s.view.fids ++ [[]] } := by
    simp [RState.view]
  have hgrow' : ∀ id, Ext s.view { s.view with fids := s.view.fids ++ [id] } := fun id =>
    ⟨List.prefix_append _ _, List.prefix_refl _, List.prefix_refl _, fun _ _ h => h, fun _ h => h⟩
  -- the new file gets its identifier
  have new : ∀ (o' : CObj), (∀ id, FileIdOf node.id id →
        (s.view.cached node.id o' ∨ (mapGet node.id s.cache = none ∧ o' = .file s.fileHeap.length)) ∧
        (Tidy g → (mapGet id s.files).getD s.fileHeap.length = s.fileHeap.length → o' = .file s.fileHeap.length)) →
      ∀ s2 : RState, s2 = { s with fileHeap := s.fileHeap ++ [{}], cache := mapInsert node.id ⟨o', true⟩ s.cache } →
      Ends g (fun k s' => (RInv g s'.view ∧ Ext w0 s'.view) ∧ (k < s'.view.fids.length ∧ (Tidy g → s'.view.cached node.id (.file k))))
        ((fileNew v g c node s.fileHeap.length >>= fun k => leave node.id >>= fun _ => pure k) s2) := by
    intro o' ho s2 hs2
    have hne := extractElementID_ne_panic (lastPart (trimSpace node.id))
    cases hex : extractElementID (lastPart (trimSpace node.id)) with
    | panic => exact absurd hex hne
    | err =>
      have : (fileNew v g c node s.fileHeap.length >>= fun k => leave node.id >>= fun _ => pure k) s2 = .err := by
        unfold fileNew; rw [hex]; rfl
      rw [this]; trivial
    | ok id =>
      obtain ⟨ho1, ho2⟩ := ho id hex
      let s3 : RState := { s2 with fileHeap := s2.fileHeap.modify s.fileHeap.length fun f => { f with spdxId := id } }
      have hv3 : s3.view = View.put { s.view with fids := s.view.fids ++ [id] } node.id o' true := by
        simp only [s3, hs2, RState.view, View.put, rmodify_last, List.map_append, List.map_cons, List.map_nil]
      have hf3 : s3.files = s.files := by simp only [s3, hs2]
      have hget : s3.view.fids[s.fileHeap.length]? = some id := by
        have : s.fileHeap.length = s.view.fids.length := by simp [RState.view]
        rw [hv3, this]; simp [View.put]
      have hput := (hi.growFile id).put (x := node.id) (o := o') (b := true) (by
        rcases ho1 with ho1 | ⟨hn, ho1⟩
        · exact .inl ho1
        · subst ho1
          refine .inr ⟨hn, hu, fun j hj => ?_, by simp⟩
          injection hj with hj
          subst hj
          exact ⟨id, hex, by rw [hv3] at hget; exact hget⟩) fun _ => .inl rfl
      rw [← hv3] at hput
      have := Ends.of (rest s3 id s.fileHeap.length hex hput.1 hget fun ht hk => by
        rw [hf3] at hk
        have := ho2 ht hk
        rw [hv3, ← this]
        exact cached_put.2 (.inl ⟨rfl, rfl⟩)) (s := s3) ⟨hput.1, .refl _⟩
      have e : (fileNew v g c node s.fileHeap.length >>= fun k => leave node.id >>= fun _ => pure k) s2 =
          ((do
            let k ← (do
              each (fileStep v g c ((mapGet id s3.files).getD s.fileHeap.length)) (g.of node)
              let f ← fileAt ((mapGet id s3.files).getD s.fileHeap.length)
              modify fun u => { u with files := mapInsert f.spdxId ((mapGet id s3.files).getD s.fileHeap.length) u.files }
              pure ((mapGet id s3.files).getD s.fileHeap.length))
            leave node.id
            pure k) : RdfM Nat) s3 := by
        refine bind_same ?_
        unfold fileNew
        rw [hex, bind_at (a := id) (s' := s2) rfl, bind_at (a := ()) (s' := s3) rfl, bind_at (a := s3) (s' := s3) rfl]
      rw [e]
      exact this.imp fun _ _ this => ⟨⟨this.1.1, (he.trans (hgrow' id)).trans (hput.2.trans this.1.2)⟩, this.2⟩
  unfold fileBody
  rw [bind_at (a := s.fileHeap.length) (s' := { s with fileHeap := s.fileHeap ++ [{}] }) rfl]
  rcases enter_eq node.id (.file s.fileHeap.length) { s with fileHeap := s.fileHeap ++ [{}] } with
    ⟨o', hc, e⟩ | ⟨hc, e⟩ | ⟨o', hc, e⟩
  · rw [bind_at e]
    have hcached : s.view.cached node.id o' := ⟨true, hc⟩
    have hinv := hi.growFile []
    rw [← hview] at hinv hgrow
    cases o' with
    | file j =>
      refine ⟨⟨hinv, he.trans hgrow⟩, ?_, fun _ => hgrow.cache _ _ hcached⟩
      have := hi.cacheFile _ _ hcached
      have := hgrow.fids.length_le
      omega
    | nil => exact fun hr => (hr.file _ hu).2.1 (hi.kinds hr _ _ hcached)
    | pkg i => exact fun hr => (hr.file _ hu).1 (hi.kinds hr _ _ hcached)
    | rel => exact fun hr => (hr.file _ hu).2.2 (hi.kinds hr _ _ hcached)
  · rw [bind_at e]
    exact new (.file s.fileHeap.length) (fun id _ => ⟨.inr ⟨hc, rfl⟩, fun _ _ => rfl⟩) _ rfl
  · rw [bind_at e]
    refine new o' (fun id hid => ⟨.inl ⟨false, hc⟩, fun ht hk => ?_⟩) _ rfl
    have hrole := hi.kinds ht.1 node.id o' ⟨false, hc⟩
    cases o' with
    | nil => exact absurd hrole (ht.1.file _ hu).2.1
    | pkg i => exact absurd hrole (ht.1.file _ hu).1
    | rel => exact absurd hrole (ht.1.file _ hu).2.2
    | file j =>
      have hdone := hi.filesDone ht node.id j id hc hid
      cases e' : mapGet id s.files with
      | none => exact absurd hdone (not_mem_of_mapGet e')
      | some k0 =>
        rw [e'] at hk
        have := get_lt (hi.files _ (pair_of_mapGet e'))
        simp only [RState.view, List.length_map] at this
        simp at hk
        omega

/-! ## Packages -/

theorem findPackage_some {s : RState} {id : Str} {k : Nat} (h : s.findPackage id = some k) :
    k ∈ s.view.packages ∧ s.view.pids[k]? = some id := by
  unfold RState.findPackage at h
  refine ⟨List.mem_of_find?_eq_some h, ?_⟩
  have := List.find?_some h
  simp only [RState.view, List.getElem?_map]
  cases e : s.pkgHeap[k]? with
  | none => rw [e] at this; simp at this
  | some p => rw [e] at this; simpa using this

theorem findPackage_none {s : RState} {id : Str} (h : s.findPackage id = none) {k : Nat} (hk : k ∈ s.view.packages) :
    s.view.pids[k]? ≠ some id := by
  unfold RState.findPackage at h
  have := List.find?_eq_none.1 h k hk
  simp only [RState.view, List.getElem?_map]
  intro e
  cases e' : s.pkgHeap[k]? with
  | none => rw [e'] at e; simp at e
  | some p => rw [e'] at e this; simp at e this; exact this e

theorem keeps_packageBody (v : Version) {g : Graph} {c : RCalls} (h : Good g c) (node : RNode) (w0 : View)
    (hu : UsedAsPackage g node.id) : KeepsFrom g w0 (packageBody v g c node) fun k w =>
      k < w.pids.length ∧ (Tidy g → w.cached node.id (.pkg k)) ∧
        (ListedAt node.id k w ∨ ∃ o, mapGet node.id w.cache = some ⟨o, true⟩) := by
  refine RTrip.of_ends fun s ⟨hi, he⟩ => ?_
  -- the end of the method, from the moment the new package has its identifier
  have rest : ∀ (s3 : RState) (id : Str) (i : Nat), PackageIdOf node.id id → RInv g s3.view → s3.view.pids[i]? = some id →
      (Tidy g → s3.findPackage id = none → s3.view.cached node.id (.pkg i)) →
      KeepsFrom g s3.view (do
        let k ← (match s3.findPackage id with
          | some k => do
            each (packageStep v g c k) (g.of node)
            pure k
          | none => do
            each (packageStep v g c i) (g.of node)
            modDocument fun d => { d with packages := d.packages ++ [i] }
            pure i)
        leave node.id
        pure k) fun k w => k < w.pids.length ∧ (Tidy g → w.cached node.id (.pkg k)) ∧ ListedAt node.id k w := by
    intro s3 id i hid hi3 hget hnew
    refine KeepsFrom.bind (Q := fun k w => k ∈ w.packages ∧ (Tidy g → w.cached node.id (.pkg k)) ∧ w.pids[k]? = some id) ?_ ?_
    · cases e : s3.findPackage id with
      | some k =>
        obtain ⟨hmem, hpid⟩ := findPackage_some e
        refine KeepsFrom.bind (Q := fun _ _ => True) (KeepsFrom.each fun t ht => keeps_packageStep v h ht (get_lt hpid))
          fun _ w1 h1 _ => .pure fun w2 h2 => ⟨(h1.trans h2).packages.subset hmem, fun ht => (h1.trans h2).cache _ _ ?_, ?_⟩
        · obtain ⟨x, hx⟩ := hi3.pkgsCanon ht _ hmem
          obtain ⟨id', h1, h2⟩ := hi3.pkgIds ht x _ hx
          rw [hpid] at h2
          injection h2 with h2
          subst h2
          have := ht.2.package x node.id id (hi3.kinds ht.1 _ _ hx) hu h1 hid
          rw [← this]; exact hx
        · exact prefix_get (h1.trans h2).pids hpid
      | none =>
        refine KeepsFrom.bind (Q := fun _ _ => True) (KeepsFrom.each fun t ht => keeps_packageStep v h ht (get_lt hget))
          fun _ w1 h1 _ => ?_
        refine KeepsFrom.bind (Q := fun _ w => i ∈ w.packages ∧ (Tidy g → w.cached node.id (.pkg i)) ∧ w.pids[i]? = some id) ?_
          fun _ w2 h2 hq => .pure fun w3 h3 => ⟨h3.packages.subset hq.1, fun ht => h3.cache _ _ (hq.2.1 ht),
            prefix_get h3.pids hq.2.2⟩
        refine RTrip.modify fun s4 ⟨hs4, he4⟩ => ?_
        have hc4 : Tidy g → s4.view.cached node.id (.pkg i) := fun ht => (h1.trans he4).cache _ _ (hnew ht e)
        have hlt : i < s4.view.pids.length := by
          have := (h1.trans he4).pids.length_le; have := get_lt hget; omega
        refine ⟨⟨hs4.addPackage hlt fun ht => ⟨_, hc4 ht⟩, he4.trans ?_⟩, by simp [RState.view], hc4, prefix_get (h1.trans he4).pids hget⟩
        exact ⟨List.prefix_refl _, List.prefix_refl _, List.prefix_append _ _, fun _ _ h => h, fun _ h => h⟩
    · intro k w1 h1 ⟨hk, hcan', hlt⟩
      refine KeepsFrom.bind (Q := fun _ _ => True) ?_ fun _ w2 h2 _ => .pure fun w3 h3 =>
        ⟨get_lt (prefix_get (h2.trans h3).pids hlt), fun ht => (h2.trans h3).cache _ _ (hcan' ht),
        (h2.trans h3).packages.subset hk, id, hid, prefix_get (h2.trans h3).pids hlt⟩
      intro s5 ⟨hs5, he5⟩
      have := keeps_leave (g := g) (w0 := s5.view) node.id (fun w hw _ ht o ho => by
        have := cached_unique ho ((he5.trans hw).cache _ _ (hcan' ht))
        subst this
        refine ⟨by simp, fun j hj => ?_⟩
        injection hj with hj
        subst hj
        exact (he5.trans hw).packages.subset hk) s5 ⟨hs5, rfl⟩
      cases e : leave node.id s5 with
      | ok r => rw [e] at this; exact ⟨⟨this.1, he5.trans this.2.1⟩, trivial⟩
      | err => trivial
      | panic => rw [e] at this; exact this
      | cut => trivial
  have hgrow : ∀ id, Ext s.view { s.view with pids := s.view.pids ++ [id], pfs := s.view.pfs ++ [[]] } := fun id =>
    ⟨List.prefix_refl _, List.prefix_append _ _, List.prefix_refl _, fun _ _ h => h, fun _ h => h⟩
  have hview : ({ s with pkgHeap := s.pkgHeap ++ [{}] } : RState).view =
      { s.view with pids := s.view.pids ++ [[]], pfs := s.view.pfs ++ [[]] } := by
    simp [RState.view]
  -- the new package gets its identifier
  have new : ∀ (o' : CObj), (∀ id, PackageIdOf node.id id →
        (s.view.cached node.id o' ∨ (mapGet node.id s.cache = none ∧ o' = .pkg s.pkgHeap.length)) ∧
        (Tidy g → (∀ k ∈ s.view.packages, s.view.pids[k]? ≠ some id) → o' = .pkg s.pkgHeap.length)) →
      ∀ s2 : RState, s2 = { s with pkgHeap := s.pkgHeap ++ [{}], cache := mapInsert node.id ⟨o', true⟩ s.cache } →
      Ends g (fun k s' => (RInv g s'.view ∧ Ext w0 s'.view) ∧ (k < s'.view.pids.length ∧ (Tidy g → s'.view.cached node.id (.pkg k)) ∧
          (ListedAt node.id k s'.view ∨ ∃ o, mapGet node.id s'.view.cache = some ⟨o, true⟩)))
        ((packageNew v g c node s.pkgHeap.length >>= fun k => leave node.id >>= fun _ => pure k) s2) := by
    intro o' ho s2 hs2
    have hne := extractElementID_ne_panic (lastPart node.id)
    cases hex : extractElementID (lastPart node.id) with
    | panic => exact absurd hex hne
    | err =>
      have : (packageNew v g c node s.pkgHeap.length >>= fun k => leave node.id >>= fun _ => pure k) s2 = .err := by
        unfold packageNew; rw [hex]; rfl
      rw [this]; trivial
    | ok id =>
      obtain ⟨ho1, ho2⟩ := ho id hex
      let s3 : RState := { s2 with pkgHeap := s2.pkgHeap.modify s.pkgHeap.length fun f => { f with spdxId := id } }
      have hv3 : s3.view = View.put { s.view with pids := s.view.pids ++ [id], pfs := s.view.pfs ++ [[]] } node.id o' true := by
        simp only [s3, hs2, RState.view, View.put, rmodify_last, List.map_append, List.map_cons, List.map_nil]
      have hf3 : s3.view.packages = s.view.packages := by simp only [s3, hs2, RState.view]
      have hget : s3.view.pids[s.pkgHeap.length]? = some id := by
        have : s.pkgHeap.length = s.view.pids.length := by simp [RState.view]
        rw [hv3, this]; simp [View.put]
      have hput := (hi.growPackage id).put (x := node.id) (o := o') (b := true) (by
        rcases ho1 with ho1 | ⟨hn, ho1⟩
        · exact .inl ho1
        · subst ho1
          refine .inr ⟨hn, hu, by simp, fun j hj => ?_⟩
          injection hj with hj
          subst hj
          exact ⟨id, hex, by rw [hv3] at hget; exact hget⟩) fun _ => .inl rfl
      rw [← hv3] at hput
      have := Ends.of (rest s3 id s.pkgHeap.length hex hput.1 hget fun ht hk => by
        have := ho2 ht fun k hk' e => findPackage_none hk (k := k) (by rw [hf3]; exact hk') (by
          rw [hv3]
          exact prefix_get ((hgrow id).pids) e)
        rw [hv3, ← this]
        exact cached_put.2 (.inl ⟨rfl, rfl⟩)) (s := s3) ⟨hput.1, .refl _⟩
      have e : (packageNew v g c node s.pkgHeap.length >>= fun k => leave node.id >>= fun _ => pure k) s2 =
          ((do
            let k ← (match s3.findPackage id with
              | some k => do
                each (packageStep v g c k) (g.of node)
                pure k
              | none => do
                each (packageStep v g c s.pkgHeap.length) (g.of node)
                modDocument fun d => { d with packages := d.packages ++ [s.pkgHeap.length] }
                pure s.pkgHeap.length)
            leave node.id
            pure k) : RdfM Nat) s3 := by
        refine bind_same ?_
        unfold packageNew
        rw [hex, bind_at (a := id) (s' := s2) rfl, bind_at (a := ()) (s' := s3) rfl, bind_at (a := s3) (s' := s3) rfl]
        cases s3.findPackage id <;> rfl
      rw [e]
      exact this.imp fun _ _ this =>
        ⟨⟨this.1.1, (he.trans (hgrow id)).trans (hput.2.trans this.1.2)⟩, this.2.1, this.2.2.1, .inl this.2.2.2⟩
  unfold packageBody
  rw [bind_at (a := s.pkgHeap.length) (s' := { s with pkgHeap := s.pkgHeap ++ [{}] }) rfl]
  rcases enter_eq node.id (.pkg s.pkgHeap.length) { s with pkgHeap := s.pkgHeap ++ [{}] } with
    ⟨o', hc, e⟩ | ⟨hc, e⟩ | ⟨o', hc, e⟩
  · rw [bind_at e]
    have hcached : s.view.cached node.id o' := ⟨true, hc⟩
    have hinv := hi.growPackage []
    have hgrow := hgrow []
    rw [← hview] at hinv hgrow
    cases o' with
    | pkg j =>
      refine ⟨⟨hinv, he.trans hgrow⟩, ?_, fun _ => hgrow.cache _ _ hcached, .inr ⟨_, hc⟩⟩
      have := hi.cachePkg _ _ hcached
      have := hgrow.pids.length_le
      omega
    | nil => exact fun hr => (hr.package _ hu).1 (hi.kinds hr _ _ hcached)
    | file i => exact fun hr => (hr.file _ (hi.kinds hr _ _ hcached)).1 hu
    | rel => exact fun hr => (hr.package _ hu).2 (hi.kinds hr _ _ hcached)
  · rw [bind_at e]
    exact new (.pkg s.pkgHeap.length) (fun id _ => ⟨.inr ⟨hc, rfl⟩, fun _ _ => rfl⟩) _ rfl
  · rw [bind_at e]
    refine new o' (fun id hid => ⟨.inl ⟨false, hc⟩, fun ht hk => ?_⟩) _ rfl
    have hrole := hi.kinds ht.1 node.id o' ⟨false, hc⟩
    cases o' with
    | nil => exact absurd hrole (ht.1.package _ hu).1
    | file i => exact absurd hu (ht.1.file _ hrole).1
    | rel => exact absurd hrole (ht.1.package _ hu).2
    | pkg j =>
      obtain ⟨id', h1, h2⟩ := hi.pkgIds ht node.id j ⟨false, hc⟩
      have : id' = id := by unfold PackageIdOf at h1 hid; rw [hid] at h1; injection h1 with h; exact h.symm
      subst this
      exact absurd h2 (hk j (hi.pkgsDone ht node.id j hc))

theorem Good.ofDepth (v : Version) (g : Graph) : ∀ n, Good g (calls v g n)
  | 0 => ⟨fun _ _ _ => RTrip.cut fun _ _ => True.intro, fun _ _ _ => RTrip.cut fun _ _ => True.intro,
      fun _ _ _ => RTrip.cut fun _ _ => True.intro⟩
  | n + 1 => ⟨fun m w hu => keeps_fileBody v (ofDepth v g n) m w hu, fun m w hu => keeps_packageBody v (ofDepth v g n) m w hu,
      fun t w hu => keeps_relationshipBody (ofDepth v g n) t w hu⟩

end Verif
