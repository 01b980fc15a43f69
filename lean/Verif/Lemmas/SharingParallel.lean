import Verif.Lemmas.SharingSave

/-!
# Goroutines that touch different cells
-/

namespace Verif
open Spec

/-- The number of steps of a program that is run alone. -/
def Prog.steps {α : Type} : Prog α → Mem → Nat
  | .ret _, _ => 0
  | .read l k, m => (k (m l)).steps m + 1
  | .write l x k, m => k.steps (m.set l x) + 1

theorem Prog.Touches.steps_eq {α : Type} {F : Loc → Prop} {p : Prog α} {m m' : Mem} (h : p.Touches F m)
    (e : ∀ l, F l → m l = m' l) : p.steps m = p.steps m' := by
  induction p generalizing m m' with
  | ret a => rfl
  | read l k ih =>
    show (k (m l)).steps m + 1 = (k (m' l)).steps m' + 1
    rw [ih _ h.2 e, e l h.1]
  | write l x k ih =>
    show k.steps _ + 1 = k.steps _ + 1
    rw [ih h.2 (m' := m'.set l x)]
    intro l' hl'
    unfold Mem.set
    split
    · rfl
    · exact e l' hl'

theorem Prog.step_run {α : Type} (p : Prog α) (m : Mem) : ((p.step m).1).run (p.step m).2 = p.run m := by
  cases p <;> rfl

theorem Prog.step_steps {α : Type} (p : Prog α) (m : Mem) : ((p.step m).1).steps (p.step m).2 = p.steps m - 1 := by
  cases p <;> rfl

theorem Prog.Touches.step {α : Type} {F : Loc → Prop} {p : Prog α} {m : Mem} (h : p.Touches F m) :
    ((p.step m).1).Touches F (p.step m).2 := by
  cases p with
  | ret a => trivial
  | read l k => exact h.2
  | write l x k => exact h.2

theorem Prog.Touches.step_outside {α : Type} {F : Loc → Prop} {p : Prog α} {m : Mem} (h : p.Touches F m) {l : Loc}
    (hl : ¬ F l) : (p.step m).2 l = m l := by
  cases p with
  | ret a => rfl
  | read l k => rfl
  | write l' x k =>
    show (m.set l' x) l = m l
    unfold Mem.set
    rw [if_neg]
    rintro rfl
    exact hl h.1

/-- Each goroutine still touches only its own cells, and will finish as if it were alone. -/
structure Undisturbed {α : Type} (F : Nat → Loc → Prop) (start r : Running α) (done : List Nat) : Prop where
  length : r.progs.length = start.progs.length
  progs : ∀ t p q, start.progs[t]? = some p → r.progs[t]? = some q →
    q.Touches (F t) r.mem ∧ (q.run r.mem).1 = (p.run start.mem).1 ∧
    (∀ l, F t l → (q.run r.mem).2 l = (p.run start.mem).2 l) ∧
    q.steps r.mem = p.steps start.mem - done.count t
  rest : ∀ l, (∀ t, t < start.progs.length → ¬ F t l) → r.mem l = start.mem l

theorem undisturbed {α : Type} (F : Nat → Loc → Prop) (start : Running α)
    (apart : ∀ t u, t < start.progs.length → u < start.progs.length → t ≠ u → ∀ l, ¬ (F t l ∧ F u l)) (sched : List Nat) :
    ∀ (r : Running α) (done : List Nat), Undisturbed F start r done →
      Undisturbed F start (Running.after sched r) (done ++ sched) := by
  induction sched with
  | nil => intro r done h; rw [List.append_nil]; exact h
  | cons t ts ih =>
    intro r done h
    rw [show done ++ t :: ts = (done ++ [t]) ++ ts by simp]
    unfold Running.after
    cases hp : r.progs[t]? with
    | none =>
      refine ih r _ ⟨h.length, ?_, h.rest⟩
      intro u p q hu hq
      obtain ⟨h1, h2, h3, h4⟩ := h.progs u p q hu hq
      refine ⟨h1, h2, h3, ?_⟩
      have : u ≠ t := by rintro rfl; rw [hp] at hq; cases hq
      rw [List.count_append, List.count_singleton, if_neg (by simpa using this.symm), Nat.add_zero]
      exact h4
    | some p0 =>
      have ht : t < r.progs.length := by
        rcases Nat.lt_or_ge t r.progs.length with h' | h'
        · exact h'
        · rw [List.getElem?_eq_none h'] at hp; cases hp
      have ht' : t < start.progs.length := h.length ▸ ht
      have hstart : start.progs[t]? = some start.progs[t] := List.getElem?_eq_getElem ht'
      obtain ⟨k1, k2, k3, k4⟩ := h.progs t _ p0 hstart hp
      refine ih _ _ ⟨by rw [List.length_set]; exact h.length, ?_, ?_⟩
      · intro u p q hu hq
        simp only [List.getElem?_set] at hq
        by_cases hut : t = u
        · subst hut
          rw [hstart] at hu
          cases hu
          rw [if_pos rfl, if_pos ht] at hq
          cases hq
          refine ⟨k1.step, by rw [Prog.step_run]; exact k2, by rw [Prog.step_run]; exact k3, ?_⟩
          rw [Prog.step_steps, k4, List.count_append, List.count_singleton, if_pos (by simp)]
          omega
        · rw [if_neg hut] at hq
          obtain ⟨h1, h2, h3, h4⟩ := h.progs u p q hu hq
          have hul : u < start.progs.length := by
            rcases Nat.lt_or_ge u start.progs.length with h' | h'
            · exact h'
            · rw [List.getElem?_eq_none h'] at hu; cases hu
          have same : ∀ l, F u l → r.mem l = (p0.step r.mem).2 l := by
            intro l hl
            exact (k1.step_outside fun h' => apart t u ht' hul hut l ⟨h', hl⟩).symm
          obtain ⟨a1, a2, a3⟩ := h1.agree same
          refine ⟨a1, a2 ▸ h2, fun l hl => (a3 l hl) ▸ h3 l hl, ?_⟩
          rw [List.count_append, List.count_singleton, if_neg (by simpa using hut), Nat.add_zero, ← h4]
          exact (h1.steps_eq same).symm
      · intro l hl
        exact (k1.step_outside (hl t ht')).trans (h.rest l hl)

theorem undisturbed_start {α : Type} (F : Nat → Loc → Prop) (start : Running α)
    (touches : ∀ t (p : Prog α), start.progs[t]? = some p → p.Touches (F t) start.mem) : Undisturbed F start start [] where
  length := rfl
  progs t p q hp hq := by
    rw [hp] at hq
    cases hq
    exact ⟨touches t p hp, rfl, fun _ _ => rfl, rfl⟩
  rest _ _ := rfl

/-! ## Slices of tidy documents -/

theorem Spec.Apart.whole {k : Kind} {s t : Slice} {l : Loc} (h : Apart k s t) (hs : s.Cell k l) (ht : t.Cell k l) : s = t := by
  rcases h with h | h
  · exact h
  · exact absurd ⟨hs, ht⟩ (h l)

theorem owns_refs {h : Heap} {D : DocObj → Prop} (t : Tidy h D) {m : Mem} {d e : DocObj} (hd : D d) (he : D e) {l : Loc}
    (hl : e.refs.Cell .ref l) (ho : Owns h m d l) : e.refs = d.refs := by
  rcases ho with ho | ho | ho | ⟨p, -, ho⟩
  · exact (t.refs e d he hd).whole hl ho
  all_goals exact absurd (hl.1.symm.trans ho.1) (by decide)

theorem owns_packages {h : Heap} {D : DocObj → Prop} (t : Tidy h D) {m : Mem} {d e : DocObj} (hd : D d) (he : D e) {l : Loc}
    (hl : e.packages.Cell .package l) (ho : Owns h m d l) : e.packages = d.packages := by
  rcases ho with ho | ho | ho | ⟨p, -, ho⟩
  case inr.inr.inl => exact (t.packages e d he hd).whole hl ho
  all_goals exact absurd (hl.1.symm.trans ho.1) (by decide)

theorem owns_files {h : Heap} {D : DocObj → Prop} (t : Tidy h D) {m : Mem} {d : DocObj} {s : Slice} (hd : D d)
    (hs : FileSlice h D s) {l : Loc} (hl : s.Cell .file l) (ho : Owns h m d l) :
    s = d.files ∨ ∃ p ∈ d.packages.contents .package m, s = (h.packages p).files := by
  rcases ho with ho | ho | ho | ⟨p, hp, ho⟩
  · exact absurd (hl.1.symm.trans ho.1) (by decide)
  · exact .inl ((t.files s d.files hs (.inl ⟨d, hd, rfl⟩)).whole hl ho)
  · exact absurd (hl.1.symm.trans ho.1) (by decide)
  · exact .inr ⟨p, hp, (t.files s _ hs (.inr ⟨p, rfl⟩)).whole hl ho⟩

end Verif
