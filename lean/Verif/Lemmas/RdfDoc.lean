import Verif.Lemmas.RdfInvDoc
import Verif.Lemmas.OptionList

/-!
# The document that the RDF reader returns, in terms of its last state
-/

namespace Verif
open RdfM Spec

/-! ## The document as a value -/

def RState.fileOf (s : RState) (j : Nat) : FileV := (s.fileHeap[j]?).getD {}

def RState.packageOf (s : RState) (i : Nat) : PackageV :=
  let p := (s.pkgHeap[i]?).getD {}
  { p with files := p.files.map s.fileOf }

theorem fileOf_get {s : RState} {j : Nat} {id : Str} (h : s.view.fids[j]? = some id) :
    s.fileHeap[j]? = some (s.fileOf j) ∧ (s.fileOf j).spdxId = id := by
  simp only [RState.view, List.getElem?_map, Option.map_eq_some_iff] at h
  obtain ⟨f, e, h⟩ := h
  simp [RState.fileOf, e, h]

theorem packageOf_id {s : RState} {i : Nat} {id : Str} (h : s.view.pids[i]? = some id) : (s.packageOf i).spdxId = id := by
  simp only [RState.view, List.getElem?_map, Option.map_eq_some_iff] at h
  obtain ⟨f, e, h⟩ := h
  simp [RState.packageOf, e, h]

theorem packageOf_files {s : RState} {i : Nat} (h : i < s.view.pids.length) :
    ∃ l ∈ s.view.pfs, (s.packageOf i).files = l.map s.fileOf := by
  have h : i < s.pkgHeap.length := by simpa [RState.view] using h
  obtain ⟨p, e⟩ := get_some h
  exact ⟨p.files, List.mem_map.2 ⟨p, List.mem_iff_getElem?.2 ⟨i, e⟩, rfl⟩, by simp [RState.packageOf, e]⟩

theorem derefPackage_eq {g : Graph} {s : RState} (hs : RInv g s.view) {i : Nat} (h : i < s.view.pids.length) :
    s.derefPackage i = some (s.packageOf i) := by
  have hl : i < s.pkgHeap.length := by simpa [RState.view] using h
  obtain ⟨p, e⟩ := get_some hl
  have hf : p.files.mapM (fun j => s.fileHeap[j]?) = some (p.files.map s.fileOf) :=
    mapM_eq_some_map fun j hj => by
      obtain ⟨id, h, _⟩ := hs.pkgFiles p.files (List.mem_map.2 ⟨p, List.mem_iff_getElem?.2 ⟨i, e⟩, rfl⟩) j hj
      exact (fileOf_get h).1
  simp [RState.derefPackage, RState.packageOf, e, hf]

/-- The state with the files without package collected. -/
def RState.collected (o : MapOrder) (s : RState) : RState :=
  { s with doc := { s.doc with files := ((o.order s.files).filter fun e => !s.assoc.contains e.1).map (·.2) } }

/-- The document it denotes. -/
def RState.docOf (o : MapOrder) (s : RState) : Doc :=
  { s.doc with
    packages := s.doc.packages.map s.packageOf
    files := ((o.order s.files).filter fun e => !s.assoc.contains e.1).map fun e => s.fileOf e.2 }

theorem deref_collected {g : Graph} {s : RState} (o : MapOrder) (hs : RInv g s.view) : (s.collected o).deref = some (s.docOf o) := by
  have hp : s.doc.packages.mapM s.derefPackage = some (s.doc.packages.map s.packageOf) :=
    mapM_eq_some_map fun i hi => derefPackage_eq hs (hs.packages i hi)
  have hf : (((o.order s.files).filter fun e => !s.assoc.contains e.1).map (·.2)).mapM (fun j => s.fileHeap[j]?) =
      some ((((o.order s.files).filter fun e => !s.assoc.contains e.1).map (·.2)).map s.fileOf) :=
    mapM_eq_some_map fun j hj => by
      obtain ⟨e, he, rfl⟩ := List.mem_map.1 hj
      exact (fileOf_get (hs.files e ((o.perm _).mem_iff.1 (List.mem_filter.1 he).1))).1
  have e3 : (s.collected o).derefPackage = s.derefPackage := rfl
  unfold RState.deref
  rw [e3]
  simp only [RState.collected, hp, hf, List.map_map]
  rfl

/-- The document that is read, in terms of the state before the files without package are collected. -/
theorem loadGraph_ok {v : Version} {o : MapOrder} {g : Graph} {d : Doc} (h : loadGraph v o g = .ok d) :
    ∃ s : RState, RInv g s.view ∧ loadState v g o g.depth {} = .ok ((), s.collected o) ∧ d = s.docOf o := by
  have hl := load_inv v g o {} rfl
  unfold loadGraph at h
  cases e : loadState v g o g.depth {} with
  | err => rw [e] at h; simp at h
  | panic => rw [e] at h; simp at h
  | cut => rw [e] at h; simp at h
  | ok x =>
    rw [e] at hl h
    obtain ⟨s, hs, e2⟩ := hl
    obtain ⟨u, s'⟩ := x
    change s' = s.collected o at e2
    subst e2
    refine ⟨s, hs, rfl, ?_⟩
    simp only [deref_collected o hs] at h
    injection h with h
    exact h.symm

/-! ## The node of the document -/

theorem findDocNode_ok {g : Graph} {n : RNode} : ∀ (rs : List RNode) (found : Option RNode), (∀ r ∈ rs, r ∈ g.roots) →
    (∀ m, found = some m → IsDocumentNode g m) → findDocNode g found rs = .ok (some n) → IsDocumentNode g n
  | [], found, _, hf, h => by
    simp only [findDocNode, Res.ok.injEq] at h
    exact hf n h
  | r :: rs, found, hr, hf, h => by
    unfold findDocNode at h
    have hrs : ∀ x ∈ rs, x ∈ g.roots := fun x hx => hr x (by simp [hx])
    split at h
    · simp at h
    · next t more e =>
      have ht : t ∈ typeTriples (g.of r) r.id := by rw [e]; simp
      simp only [typeTriples, Graph.of, List.mem_filter, Bool.and_eq_true, decide_eq_true_eq] at ht
      split at h
      · next hc =>
        have hn : ∀ m, some t.subject = some m → IsDocumentNode g m := by
          intro m e2
          injection e2 with e2
          subst e2
          exact ⟨by rw [ht.1.2]; exact hr r (by simp), t, ht.1.1, rfl, ht.2.2, hc⟩
        split at h
        · simp at h
        · split at h
          · split at h
            · simp at h
            · exact findDocNode_ok rs _ hrs hn h
          · exact findDocNode_ok rs _ hrs hn h
      · exact findDocNode_ok rs _ hrs hf h

theorem docNode_ok {g : Graph} {n : RNode} (h : docNode g = .ok n) : IsDocumentNode g n := by
  have h : (findDocNode g none g.roots).bind (fun x => match x with | some n => .ok n | none => .err) = .ok n := h
  cases e : findDocNode g none g.roots with
  | err => rw [e] at h; simp [Res.bind] at h
  | panic => rw [e] at h; simp [Res.bind] at h
  | ok x =>
    rw [e] at h
    cases x with
    | none => simp [Res.bind] at h
    | some m =>
      simp only [Res.bind, Res.ok.injEq] at h
      subst h
      exact findDocNode_ok g.roots none (fun _ h => h) (by simp) e

/-! ## Combining judgements -/

theorem RTrip.both {α : Type} {P P' : RState → Prop} {m : RdfM α} {bp bc bp' bc' : Prop} {Q Q' : α → RState → Prop}
    (h : RTrip bp bc P m Q) (h' : RTrip bp' bc' P' m Q') :
    RTrip True True (fun s => P s ∧ P' s) m fun a s => Q a s ∧ Q' a s := by
  intro s hs
  have h1 := h s hs.1
  have h2 := h' s hs.2
  cases e : m s with
  | ok x => rw [e] at h1 h2; exact ⟨h1, h2⟩
  | err => trivial
  | panic => trivial
  | cut => trivial

theorem RTrip.soft {α : Type} {P : RState → Prop} {m : RdfM α} {bp bc : Prop} {Q : α → RState → Prop}
    (h : RTrip bp bc P m Q) : RTrip True True P m Q :=
  (h.both h).conseq (fun _ h => ⟨h, h⟩) fun _ _ h => h.1

theorem RTrip.at {α : Type} {bp bc : Prop} {P : RState → Prop} {m : RdfM α} {Q : α → RState → Prop}
    (h : ∀ s, P s → RTrip bp bc (fun s' => s' = s) m Q) : RTrip bp bc P m Q := fun s hs => h s hs s rfl

/-- The state between the steps of the outermost loop: nothing is being read. -/
def Rest (g : Graph) (s : RState) : Prop := RInv g s.view ∧ s.grey = fun _ => false

theorem free_depth (v : Version) (g : Graph) : FreeCalls g (fun _ => false) (calls v g g.depth) :=
  .ofDepth v g g.depth _ (by have := g.free_le (fun _ => false); unfold Graph.depth; omega)

end Verif
