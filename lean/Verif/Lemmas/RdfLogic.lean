import Verif.Model.Rdf

/-!
# Reasoning about the methods of the RDF reader

`RTrip P m Q bp bc`: started in a state with `P`, the method ends in a state with `Q`, or in an error; it panics only
if `bp` and is cut only if `bc`.
-/

namespace Verif
open RdfM

def RTrip {α : Type} (bp bc : Prop) (P : RState → Prop) (m : RdfM α) (Q : α → RState → Prop) : Prop :=
  ∀ s, P s → match m s with
    | .ok (a, s') => Q a s'
    | .err => True
    | .panic => bp
    | .cut => bc

namespace RTrip
variable {α β : Type} {bp bc : Prop} {P : RState → Prop}

theorem ok {m : RdfM α} {Q : α → RState → Prop} (h : RTrip bp bc P m Q) {s s' : RState} {a : α} (hp : P s)
    (e : m s = .ok (a, s')) : Q a s' := by have := h s hp; rw [e] at this; exact this

theorem pure {a : α} {Q : α → RState → Prop} (h : ∀ s, P s → Q a s) : RTrip bp bc P (Pure.pure a) Q := fun s hs => h s hs

theorem err {Q : α → RState → Prop} : RTrip bp bc P (RdfM.err : RdfM α) Q := fun _ _ => True.intro

theorem panic {Q : α → RState → Prop} (h : ∀ s, P s → bp) : RTrip bp bc P (RdfM.panic : RdfM α) Q := fun s hs => h s hs

theorem cut {Q : α → RState → Prop} (h : ∀ s, P s → bc) : RTrip bp bc P (RdfM.cut : RdfM α) Q := fun s hs => h s hs

theorem bind {m : RdfM α} {f : α → RdfM β} {R : α → RState → Prop} {Q : β → RState → Prop}
    (hm : RTrip bp bc P m R) (hf : ∀ a, RTrip bp bc (R a) (f a) Q) : RTrip bp bc P (m >>= f) Q := by
  intro s hs
  have h := hm s hs
  change match RdfM.bind m f s with | .ok (a, s') => Q a s' | .err => True | .panic => bp | .cut => bc
  unfold RdfM.bind
  cases e : m s with
  | ok x => obtain ⟨a, s'⟩ := x; rw [e] at h; exact hf a s' h
  | err => trivial
  | panic => rw [e] at h; exact h
  | cut => rw [e] at h; exact h

theorem conseq {m : RdfM α} {P' : RState → Prop} {Q Q' : α → RState → Prop} (h : RTrip bp bc P m Q)
    (hp : ∀ s, P' s → P s) (hq : ∀ a s, Q a s → Q' a s) : RTrip bp bc P' m Q' := by
  intro s hs
  have := h s (hp s hs)
  cases e : m s with
  | ok x => obtain ⟨a, s'⟩ := x; rw [e] at this; exact hq a s' this
  | err => trivial
  | panic => rw [e] at this; exact this
  | cut => rw [e] at this; exact this

theorem pre {m : RdfM α} {P' : RState → Prop} {Q : α → RState → Prop} (h : RTrip bp bc P m Q)
    (hp : ∀ s, P' s → P s) : RTrip bp bc P' m Q := h.conseq hp fun _ _ h => h

theorem post {m : RdfM α} {Q Q' : α → RState → Prop} (h : RTrip bp bc P m Q)
    (hq : ∀ a s, Q a s → Q' a s) : RTrip bp bc P m Q' := h.conseq (fun _ h => h) hq

theorem modify {f : RState → RState} {Q : Unit → RState → Prop} (h : ∀ s, P s → Q () (f s)) :
    RTrip bp bc P (RdfM.modify f) Q := fun s hs => h s hs

theorem get {Q : RState → RState → Prop} (h : ∀ s, P s → Q s s) : RTrip bp bc P RdfM.get Q := fun s hs => h s hs

theorem lift {r : Res α} {Q : α → RState → Prop} (hp : r = .panic → bp) (h : ∀ a s, r = .ok a → P s → Q a s) :
    RTrip bp bc P (RdfM.lift r) Q := by
  cases r with
  | ok a => exact fun s hs => h a s rfl hs
  | err => exact fun _ _ => True.intro
  | panic => exact fun _ _ => hp rfl

theorem each {I : RState → Prop} {body : Triple → RdfM Unit} : ∀ {ts : List Triple},
    (∀ t ∈ ts, RTrip bp bc I (body t) fun _ => I) → RTrip bp bc I (RdfM.each body ts) fun _ => I
  | [], _ => pure fun _ h => h
  | t :: ts, h => (h t (by simp)).bind fun _ => each fun u hu => h u (by simp [hu])

theorem fold {I : α → RState → Prop} {body : α → Triple → RdfM α} : ∀ {ts : List Triple} {a : α},
    (∀ t ∈ ts, ∀ a, RTrip bp bc (I a) (body a t) I) → RTrip bp bc (I a) (RdfM.fold body a ts) I
  | [], _, _ => pure fun _ h => h
  | t :: ts, a, h => (h t (by simp) a).bind fun _ => fold fun u hu => h u (by simp [hu])

/-- A pure fact about the initial state may be used. -/
theorem exact {m : RdfM α} {Q : α → RState → Prop} (h : ∀ s0, P s0 → RTrip bp bc (fun s => s = s0) m Q) :
    RTrip bp bc P m Q := fun s hs => h s hs s rfl

theorem of_pre {m : RdfM α} {q : Prop} {Q : α → RState → Prop} (h : q → RTrip bp bc P m Q) :
    RTrip bp bc (fun s => q ∧ P s) m Q := fun s hs => h hs.1 s hs.2

theorem ite {c : Prop} [Decidable c] {m m' : RdfM α} {Q : α → RState → Prop} (h : c → RTrip bp bc P m Q)
    (h' : ¬c → RTrip bp bc P m' Q) : RTrip bp bc P (if c then m else m') Q := by
  split
  · exact h ‹_›
  · exact h' ‹_›

end RTrip

/-! ## Cutting at a greater depth -/

/-- `m'` does the same as `m` wherever `m` is not cut. -/
def Below {α : Type} (m m' : RdfM α) : Prop := ∀ s, m s = .cut ∨ m' s = m s

namespace Below
variable {α β : Type}

theorem refl (m : RdfM α) : Below m m := fun _ => .inr rfl

theorem cut (m : RdfM α) : Below RdfM.cut m := fun _ => .inl rfl

theorem trans {m m' m'' : RdfM α} (h : Below m m') (h' : Below m' m'') : Below m m'' := by
  intro s
  rcases h s with e | e
  · exact .inl e
  · rcases h' s with e' | e'
    · exact .inl (by rw [← e, e'])
    · exact .inr (by rw [e', e])

theorem bind {m m' : RdfM α} {f f' : α → RdfM β} (h : Below m m') (hf : ∀ a, Below (f a) (f' a)) :
    Below (m >>= f) (m' >>= f') := by
  intro s
  change RdfM.bind m f s = .cut ∨ RdfM.bind m' f' s = RdfM.bind m f s
  unfold RdfM.bind
  rcases h s with e | e
  · rw [e]; exact .inl rfl
  · rw [e]
    cases m s with
    | ok x => obtain ⟨a, s'⟩ := x; exact hf a s'
    | err => exact .inr rfl
    | panic => exact .inr rfl
    | cut => exact .inl rfl

theorem ite {c : Prop} [Decidable c] {m m' n n' : RdfM α} (h : Below m m') (h' : Below n n') :
    Below (if c then m else n) (if c then m' else n') := by
  split
  · exact h
  · exact h'

theorem each {b b' : Triple → RdfM Unit} (h : ∀ t, Below (b t) (b' t)) : ∀ ts, Below (RdfM.each b ts) (RdfM.each b' ts)
  | [] => refl _
  | t :: ts => (h t).bind fun _ => each h ts

theorem fold {b b' : α → Triple → RdfM α} (h : ∀ a t, Below (b a t) (b' a t)) :
    ∀ ts a, Below (RdfM.fold b a ts) (RdfM.fold b' a ts)
  | [], _ => refl _
  | t :: ts, a => (h a t).bind fun _ => fold h ts _

end Below

structure CallsBelow (c c' : RCalls) : Prop where
  file : ∀ n, Below (c.file n) (c'.file n)
  package : ∀ n, Below (c.package n) (c'.package n)
  relationship : ∀ t, Below (c.relationship t) (c'.relationship t)

theorem Below.fileStep {c c' : RCalls} (h : CallsBelow c c') (v : Version) (g : Graph) (i : Nat) (t : Triple) :
    Below (fileStep v g c i t) (fileStep v g c' i t) := by
  unfold Verif.fileStep
  cases t.pred <;> first
    | exact .refl _
    | exact (h.file _).bind fun _ => .refl _
    | exact h.relationship _

theorem Below.fileNew {c c' : RCalls} (h : CallsBelow c c') (v : Version) (g : Graph) (n : RNode) (i : Nat) :
    Below (fileNew v g c n i) (fileNew v g c' n i) :=
  (Below.refl _).bind fun _ => (Below.refl _).bind fun _ => (Below.refl _).bind fun _ =>
    (Below.each (fun t => fileStep h v g _ t) _).bind fun _ => .refl _

theorem Below.fileBody {c c' : RCalls} (h : CallsBelow c c') (v : Version) (g : Graph) (n : RNode) :
    Below (fileBody v g c n) (fileBody v g c' n) :=
  (Below.refl _).bind fun i => (Below.refl _).bind fun o => by
    cases o with
    | none => exact (fileNew h v g n i).bind fun _ => .refl _
    | some x => cases x <;> exact .refl _

theorem Below.packageStep {c c' : RCalls} (h : CallsBelow c c') (v : Version) (g : Graph) (i : Nat) (t : Triple) :
    Below (packageStep v g c i t) (packageStep v g c' i t) := by
  unfold Verif.packageStep
  cases t.pred <;> first
    | exact .refl _
    | exact (h.file _).bind fun _ => .refl _
    | exact h.relationship _

theorem Below.packageNew {c c' : RCalls} (h : CallsBelow c c') (v : Version) (g : Graph) (n : RNode) (i : Nat) :
    Below (packageNew v g c n i) (packageNew v g c' n i) :=
  (Below.refl _).bind fun id => (Below.refl _).bind fun _ => (Below.refl _).bind fun s => by
    cases s.findPackage id with
    | none => exact (Below.each (fun t => packageStep h v g _ t) _).bind fun _ => .refl _
    | some k => exact (Below.each (fun t => packageStep h v g _ t) _).bind fun _ => .refl _

theorem Below.packageBody {c c' : RCalls} (h : CallsBelow c c') (v : Version) (g : Graph) (n : RNode) :
    Below (packageBody v g c n) (packageBody v g c' n) :=
  (Below.refl _).bind fun i => (Below.refl _).bind fun o => by
    cases o with
    | none => exact (packageNew h v g n i).bind fun _ => .refl _
    | some x => cases x <;> exact .refl _

theorem Below.relatedElement {c c' : RCalls} (h : CallsBelow c c') (t : Triple) :
    Below (relatedElement c t) (relatedElement c' t) := by
  unfold Verif.relatedElement
  cases Cls.ofStr t.object.id <;> first
    | exact .refl _
    | exact (h.file _).bind fun _ => .refl _
    | exact (h.package _).bind fun _ => .refl _

theorem Below.relationshipStep {c c' : RCalls} (h : CallsBelow c c') (g : Graph) (r : Relationship) (t : Triple) :
    Below (relationshipStep g c r t) (relationshipStep g c' r t) := by
  unfold Verif.relationshipStep
  cases t.pred <;> first
    | exact .refl _
    | refine (Below.refl _).bind fun b => ?_
      split
      · exact .refl _
      · split
        · exact (relatedElement h _).bind fun _ => .refl _
        · exact .refl _

theorem Below.relationshipBody {c c' : RCalls} (h : CallsBelow c c') (g : Graph) (t : Triple) :
    Below (relationshipBody g c t) (relationshipBody g c' t) :=
  (Below.refl _).bind fun _ => (Below.refl _).bind fun o => by
    cases o with
    | none => exact (Below.fold (fun r t => relationshipStep h g r t) _ _).bind fun _ => .refl _
    | some x => exact .refl _

theorem CallsBelow.succ (v : Version) (g : Graph) : ∀ n, CallsBelow (calls v g n) (calls v g (n + 1))
  | 0 => ⟨fun _ => .cut _, fun _ => .cut _, fun _ => .cut _⟩
  | n + 1 => ⟨.fileBody (succ v g n) v g, .packageBody (succ v g n) v g, .relationshipBody (succ v g n) g⟩

theorem CallsBelow.le (v : Version) (g : Graph) (n : Nat) : ∀ k, CallsBelow (calls v g n) (calls v g (n + k))
  | 0 => ⟨fun _ => .refl _, fun _ => .refl _, fun _ => .refl _⟩
  | k + 1 => ⟨fun x => ((le v g n k).file x).trans ((succ v g (n + k)).file x),
      fun x => ((le v g n k).package x).trans ((succ v g (n + k)).package x),
      fun x => ((le v g n k).relationship x).trans ((succ v g (n + k)).relationship x)⟩

theorem Below.pointerAt {c c' : RCalls} (h : CallsBelow c c') (g : Graph) (n : RNode) :
    Below (pointerAt g c n) (pointerAt g c' n) := by
  refine (Below.fold (fun a t => ?_) _ _).bind fun _ => .refl _
  unfold pointerStep
  cases t.pred <;> first
    | exact .refl _
    | exact Below.ite (.refl _) ((h.file _).bind fun _ => .refl _)

theorem Below.rangeAt {c c' : RCalls} (h : CallsBelow c c') (g : Graph) (f : Str) (n : RNode) :
    Below (rangeAt g c f n) (rangeAt g c' f n) := by
  simp only [Verif.rangeAt]
  split
  · exact .refl _
  · split
    · refine (pointerAt h g _).bind fun _ => ?_
      split
      · exact (pointerAt h g _).bind fun _ => .refl _
      · exact .refl _
    · exact .refl _

theorem Below.addSnippet {c c' : RCalls} (h : CallsBelow c c') (v : Version) (g : Graph) (n : RNode) :
    Below (addSnippet v g c n) (addSnippet v g c' n) := by
  refine (Below.refl _).bind fun _ => (Below.fold (fun a t => ?_) _ _).bind fun _ => .refl _
  unfold snippetStep
  cases t.pred <;> first
    | exact .refl _
    | exact (h.file _).bind fun _ => .refl _
    | exact (rangeAt h g _ _).bind fun _ => .refl _

theorem Below.snippetRoots {c c' : RCalls} (h : CallsBelow c c') (v : Version) (g : Graph) :
    ∀ rs, Below (snippetRoots v g c rs) (snippetRoots v g c' rs)
  | [] => .refl _
  | r :: rs => by
    unfold Verif.snippetRoots
    split
    · split
      · exact (addSnippet h v g _).bind fun _ => snippetRoots h v g rs
      · exact snippetRoots h v g rs
    · exact .refl _

theorem Below.documentAt {c c' : RCalls} (h : CallsBelow c c') (g : Graph) (n : RNode) :
    Below (documentAt g c n) (documentAt g c' n) := by
  refine (Below.refl _).bind fun _ => (Below.refl _).bind fun _ => Below.each (fun t => ?_) _
  unfold documentStep
  cases t.pred <;> first
    | exact .refl _
    | exact (h.package _).bind fun _ => .refl _
    | exact h.relationship _

theorem Below.loadState (v : Version) (g : Graph) (o : MapOrder) (n k : Nat) :
    Below (loadState v g o n) (loadState v g o (n + k)) :=
  (Below.refl _).bind fun _ => (documentAt (CallsBelow.le v g n k) g _).bind fun _ =>
    (snippetRoots (CallsBelow.le v g n k) v g _).bind fun _ => .refl _

theorem Below.licenseBody {r r' : RNode → RdfM License} (h : ∀ n, Below (r n) (r' n)) (g : Graph) (n : RNode) :
    Below (licenseBody g r n) (licenseBody g r' n) := by
  unfold Verif.licenseBody
  split
  · exact .refl _
  · refine (Below.refl _).bind fun ty => ?_
    have hm : ∀ st a t, Below (memberStep r st a t) (memberStep r' st a t) := by
      intro st a t
      unfold memberStep
      cases t.pred <;> first
        | exact .refl _
        | exact (h _).bind fun _ => .refl _
    cases Cls.ofStr ty <;> first
      | exact .refl _
      | exact (Below.fold (hm _) _ _).bind fun _ => .refl _

theorem Below.getAnyLicense (g : Graph) : ∀ n node, Below (getAnyLicense g n node) (getAnyLicense g (n + 1) node)
  | 0, _ => .cut _
  | n + 1, node => (Below.refl _).bind fun o => by
    cases o with
    | none => exact (licenseBody (getAnyLicense g n) g node).bind fun _ => .refl _
    | some x => exact .refl _

theorem Below.getAnyLicense_le (g : Graph) (n : Nat) (node : RNode) :
    ∀ k, Below (Verif.getAnyLicense g n node) (Verif.getAnyLicense g (n + k) node)
  | 0 => .refl _
  | k + 1 => (getAnyLicense_le g n node k).trans (getAnyLicense g (n + k) node)

end Verif
