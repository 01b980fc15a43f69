import Verif.Lemmas.RdfRead

/-!
# Reading leaves the snippets of the document itself as they are
-/

namespace Verif
open RdfM Spec Spec.Rdf

def SameTop (s s' : RState) : Prop := s'.doc.snippets = s.doc.snippets

theorem SameTop.refl (s : RState) : SameTop s s := rfl
theorem SameTop.trans {s s' s'' : RState} (h : SameTop s s') (h' : SameTop s' s'') : SameTop s s'' := Eq.trans h' h
theorem SameTop.of_eq {s s' : RState} (h : s'.doc.snippets = s.doc.snippets) : SameTop s s' := h

def KeepsTop {α : Type} (m : RdfM α) : Prop := ∀ s a s', m s = .ok (a, s') → SameTop s s'

namespace KeepsTop
variable {α β : Type}

theorem bind {m : RdfM α} {f : α → RdfM β} (hm : KeepsTop m) (hf : ∀ a, KeepsTop (f a)) : KeepsTop (m >>= f) := by
  intro s b s' e
  obtain ⟨a, s1, e1, e2⟩ := bind_inv e
  exact (hm _ _ _ e1).trans (hf _ _ _ _ e2)

theorem pure {a : α} : KeepsTop (Pure.pure a : RdfM α) := by
  intro s b s' e
  obtain ⟨_, rfl⟩ := pure_inv e
  exact .refl _

theorem err : KeepsTop (RdfM.err : RdfM α) := fun _ _ _ e => (err_inv e).elim
theorem panic : KeepsTop (RdfM.panic : RdfM α) := fun _ _ _ e => (panic_inv e).elim

theorem lift {m : Res α} : KeepsTop (RdfM.lift m) := by
  intro s b s' e
  obtain ⟨_, rfl⟩ := lift_inv e
  exact .refl _

theorem modify {f : RState → RState} (h : ∀ s, (f s).doc.snippets = s.doc.snippets) : KeepsTop (RdfM.modify f) := by
  intro s b s' e
  have e := modify_inv e
  subst e
  exact .of_eq (h s)

theorem modFile {i : Nat} {f : FileV → FileV} (_ : ∀ y, (f y).snippets = y.snippets) : KeepsTop (modFileAt i f) := modify fun _ => rfl

theorem ite {c : Prop} [Decidable c] {m m' : RdfM α} (h : KeepsTop m) (h' : KeepsTop m') : KeepsTop (if c then m else m') := by
  split <;> assumption

theorem each {f : Triple → RdfM Unit} (h : ∀ t, KeepsTop (f t)) : ∀ ts, KeepsTop (RdfM.each f ts)
  | [] => pure
  | _ :: ts => bind (h _) fun _ => each h ts

theorem fold {f : α → Triple → RdfM α} (h : ∀ a t, KeepsTop (f a t)) : ∀ ts a, KeepsTop (RdfM.fold f a ts)
  | [], _ => pure
  | _ :: ts, _ => bind (h _ _) fun _ => fold h ts _

theorem get : KeepsTop RdfM.get := by
  intro s b s' e
  injection e with e; injection e with _ e
  subst e; exact .refl _

theorem atFile {i : Nat} : KeepsTop (fileAt i) := by
  intro s b s' e
  obtain ⟨_, rfl⟩ := fileAt_inv e
  exact .refl _

theorem atPackage {i : Nat} : KeepsTop (packageAt i) := by
  intro s b s' e
  obtain ⟨_, rfl⟩ := packageAt_inv e
  exact .refl _

theorem license {g : Graph} {n : RNode} : KeepsTop (licenseText g n) := by
  intro s b s' e
  exact .of_eq (by rw [(licenseText_inv e).1.rest])

theorem entered {id : Str} {o : CObj} : KeepsTop (enter id o) := by
  intro s b s' e
  rcases enter_eq id o s with ⟨_, _, e'⟩ | ⟨_, e'⟩ | ⟨_, _, e'⟩ <;> (rw [e'] at e; injection e with e; injection e with _ e; subst e; exact .of_eq rfl)

theorem left {id : Str} : KeepsTop (leave id) := modify fun s => by split <;> rfl

theorem annotation {g : Graph} {n : RNode} : KeepsTop (addAnnotation g n) := bind lift fun _ => modify fun _ => rfl

end KeepsTop

structure KeepTop (c : RCalls) : Prop where
  file : ∀ n, KeepsTop (c.file n)
  package : ∀ n, KeepsTop (c.package n)
  relationship : ∀ t, KeepsTop (c.relationship t)

theorem top_fileStep {v : Version} {g : Graph} {c : RCalls} (h : KeepTop c) (i : Nat) (t : Triple) : KeepsTop (fileStep v g c i t) := by
  have m : ∀ {f : FileV → FileV}, (∀ y, (f y).snippets = y.snippets) → KeepsTop (modFileAt i f) := .modFile
  unfold fileStep
  cases t.pred <;> first
    | exact .pure
    | exact .err
    | exact m fun _ => rfl
    | exact .bind .lift fun _ => m fun _ => rfl
    | exact .bind .license fun _ => m fun _ => rfl
    | exact .bind (h.file _) fun _ => .bind .atFile fun _ => m fun _ => rfl
    | exact .annotation
    | exact h.relationship _

theorem top_packageStep {v : Version} {g : Graph} {c : RCalls} (h : KeepTop c) (i : Nat) (t : Triple) : KeepsTop (packageStep v g c i t) := by
  have m : ∀ {f : Package Nat → Package Nat}, KeepsTop (modPackage i f) := .modify fun _ => rfl
  unfold packageStep
  cases t.pred <;> first
    | exact .pure
    | exact .err
    | exact m
    | exact .bind .lift fun _ => m
    | exact .bind .atPackage fun _ => .bind .lift fun _ => m
    | exact .bind .license fun _ => m
    | exact .ite m .err
    | exact .bind (h.file _) fun _ => .bind .atFile fun _ => .bind m fun _ => .modify fun _ => rfl
    | exact .annotation
    | exact h.relationship _

theorem top_relationshipStep {g : Graph} {c : RCalls} (h : KeepTop c) (r : Relationship) (t : Triple) :
    KeepsTop (relationshipStep g c r t) := by
  have hr : ∀ t, KeepsTop (relatedElement c t) := fun t => by
    unfold relatedElement
    cases Cls.ofStr t.object.id <;> first
      | exact .err
      | exact .lift
      | exact .bind (h.file _) fun _ => .bind .atFile fun _ => .pure
      | exact .bind (h.package _) fun _ => .bind .atPackage fun _ => .pure
  unfold relationshipStep
  cases t.pred <;> first
    | exact .pure
    | exact .err
    | exact .bind .lift fun _ => .pure
    | skip
  refine .bind .lift fun _ => .ite .pure ?_
  split
  · exact .bind (hr _) fun _ => .pure
  · exact .err

theorem top_depth (v : Version) (g : Graph) : ∀ n, KeepTop (calls v g n)
  | 0 => ⟨fun _ _ _ _ e => by simp [calls, RdfM.cut] at e, fun _ _ _ _ e => by simp [calls, RdfM.cut] at e,
      fun _ _ _ _ e => by simp [calls, RdfM.cut] at e⟩
  | n + 1 => by
    have ih := top_depth v g n
    refine ⟨fun node => ?_, fun node => ?_, fun t => ?_⟩
    · refine .bind (m := allocFile) ?_ fun i => .bind .entered fun o => ?_
      · intro s a s' e
        injection e with e; injection e with _ e
        subst e
        exact .of_eq rfl
      · split
        · exact .pure
        · exact .panic
        · refine .bind ?_ fun _ => .bind .left fun _ => .pure
          exact .bind .lift fun _ => .bind (.modFile fun _ => rfl) fun _ => .bind .get fun _ => .bind (.each (top_fileStep ih _) _) fun _ =>
            .bind .atFile fun _ => .bind (.modify fun _ => rfl) fun _ => .pure
    · refine .bind (m := allocPackage) ?_ fun i => .bind .entered fun o => ?_
      · intro s a s' e
        injection e with e; injection e with _ e
        subst e
        exact .of_eq rfl
      · split
        · exact .pure
        · exact .panic
        · refine .bind ?_ fun _ => .bind .left fun _ => .pure
          refine .bind .lift fun _ => .bind (.modify fun _ => rfl) fun _ => .bind .get fun s => ?_
          split
          · exact .bind (.each (top_packageStep ih _) _) fun _ => .pure
          · exact .bind (.each (top_packageStep ih _) _) fun _ => .bind (.modify fun _ => rfl) fun _ => .pure
    · refine .bind .lift fun _ => .bind .entered fun o => ?_
      split
      · exact .pure
      · exact .bind (.fold (top_relationshipStep ih) _ _) fun _ => .bind (.modify fun _ => rfl) fun _ => .left

theorem top_documentAt {g : Graph} {c : RCalls} (h : KeepTop c) (n : RNode) : KeepsTop (documentAt g c n) := by
  have m : ∀ {f : HDoc → HDoc}, (∀ d, (f d).snippets = d.snippets) → KeepsTop (modDocument f) := fun h => .modify fun s => h s.doc
  refine .bind .lift fun _ => .bind (m fun _ => rfl) fun _ => .each (fun t => ?_) _
  unfold documentStep
  cases t.pred <;> first
    | exact .pure
    | exact .err
    | exact m fun _ => rfl
    | exact .bind .lift fun _ => m fun _ => rfl
    | exact .bind .license fun _ => m fun _ => rfl
    | exact .bind (h.package _) fun _ => m fun _ => rfl
    | exact .annotation
    | exact h.relationship _
    | skip
  refine .bind .get fun s => ?_
  split
  · exact .panic
  · exact .bind .lift fun _ => m fun _ => rfl

theorem top_snippetStep {v : Version} {g : Graph} {c : RCalls} (h : KeepTop c) (x : Snippet) (t : Triple) :
    KeepsTop (snippetStep v g c x t) := by
  have hp : ∀ n, KeepsTop (pointerAt g c n) := fun n => by
    refine .bind (.fold (fun a t => ?_) _ _) fun a => ?_
    · unfold pointerStep
      cases t.pred <;> first
        | exact .pure
        | exact .err
        | exact .ite .pure (.bind (h.file _) fun _ => .pure)
        | (simp only []; cases atoi t.object.id <;> first | exact .err | exact .pure)
    · cases a.1 <;> first | exact .err | exact .pure
  have hr : ∀ f n, KeepsTop (rangeAt g c f n) := fun f n => by
    simp only [rangeAt]
    refine .ite .err ?_
    split
    · exact .bind (hp _) fun _ => by split <;> first | exact .err | exact .bind (hp _) fun _ => .ite .pure .err
    · exact .err
  unfold snippetStep
  cases t.pred <;> first
    | exact .pure
    | exact .err
    | exact .bind (h.file _) fun _ => .bind .lift fun _ => .pure
    | exact .bind (hr _ _) fun _ => .pure
    | exact .bind .license fun _ => .pure

theorem top_snippetRoots {v : Version} {g : Graph} {c : RCalls} (h : KeepTop c) : ∀ rs, KeepsTop (snippetRoots v g c rs)
  | [] => .pure
  | r :: rs => by
    unfold snippetRoots
    split
    · refine .ite (.bind ?_ fun _ => top_snippetRoots h rs) (top_snippetRoots h rs)
      refine .bind .lift fun _ => .bind (.fold (top_snippetStep h) _ _) fun x => .bind .get fun s => ?_
      split
      · exact .err
      · exact .modify fun _ => rfl
    · exact .err

/-- The document has no snippets of its own; they are in its files. -/
theorem load_snippets {v : Version} {o : MapOrder} {g : Graph} {d : Doc} (h : loadGraph v o g = .ok d) : d.snippets = [] := by
  have hk := top_depth v g g.depth
  unfold loadGraph at h
  cases e : loadState v g o g.depth {} with
  | err => rw [e] at h; simp at h
  | panic => rw [e] at h; simp at h
  | cut => rw [e] at h; simp at h
  | ok x =>
    obtain ⟨u, s'⟩ := x
    rw [e] at h
    dsimp only at h
    have hs : KeepsTop (loadState v g o g.depth) :=
      .bind .lift fun _ => .bind (top_documentAt hk _) fun _ => .bind (top_snippetRoots hk _) fun _ => .modify fun _ => rfl
    have := hs _ _ _ e
    cases e2 : s'.deref with
    | none => rw [e2] at h; simp at h
    | some d' =>
      rw [e2] at h
      injection h with h
      subst h
      unfold RState.deref at e2
      cases e3 : s'.doc.packages.mapM s'.derefPackage with
      | none => rw [e3] at e2; simp [Bind.bind, Option.bind] at e2
      | some ps =>
        cases e4 : s'.doc.files.mapM (fun j => s'.fileHeap[j]?) with
        | none => rw [e3] at e2; simp only [Bind.bind, Option.bind, e4] at e2; simp at e2
        | some fs =>
          rw [e3] at e2
          simp only [Bind.bind, Option.bind, e4, Pure.pure, Option.some.injEq] at e2
          rw [← e2]
          exact this

end Verif
