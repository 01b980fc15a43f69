import Verif.Spec.Sharing
import Verif.Lemmas.Writer
import Verif.Lemmas.SameDoc

/-!
# Programs that read and write cells
-/

namespace Verif
open Spec

/-! ## Running -/

theorem Prog.run_bind {α β : Type} (p : Prog α) (f : α → Prog β) (m : Mem) :
    (p.bind f).run m = (f (p.run m).1).run (p.run m).2 := by
  induction p generalizing m with
  | ret a => rfl
  | read l k ih => exact ih _ m
  | write l x k ih => exact ih _

theorem run_bind {α β : Type} (p : Prog α) (f : α → Prog β) (m : Mem) :
    (p >>= f).run m = (f (p.run m).1).run (p.run m).2 := Prog.run_bind p f m

theorem run_pure {α : Type} (a : α) (m : Mem) : (pure a : Prog α).run m = (a, m) := rfl

theorem touches_bind {α β : Type} {F : Loc → Prop} {p : Prog α} {f : α → Prog β} {m : Mem} (h : p.Touches F m)
    (h' : (f (p.run m).1).Touches F (p.run m).2) : (p >>= f).Touches F m := by
  change (p.bind f).Touches F m
  induction p generalizing m with
  | ret a => exact h'
  | read l k ih => exact ⟨h.1, ih _ h.2 h'⟩
  | write l x k ih => exact ⟨h.1, ih h.2 h'⟩

theorem Prog.Touches.mono {α : Type} {F G : Loc → Prop} {p : Prog α} {m : Mem} (h : p.Touches F m) (hFG : ∀ l, F l → G l) :
    p.Touches G m := by
  induction p generalizing m with
  | ret a => trivial
  | read l k ih => exact ⟨hFG _ h.1, ih _ h.2⟩
  | write l x k ih => exact ⟨hFG _ h.1, ih h.2⟩

/-- A program leaves alone what it does not touch. -/
theorem Prog.Touches.outside {α : Type} {F : Loc → Prop} {p : Prog α} {m : Mem} (h : p.Touches F m) {l : Loc} (hl : ¬ F l) :
    (p.run m).2 l = m l := by
  induction p generalizing m with
  | ret a => rfl
  | read l' k ih => exact ih _ h.2
  | write l' x k ih =>
    refine (ih h.2).trans ?_
    unfold Mem.set
    rw [if_neg]
    rintro rfl
    exact hl h.1

/-- A program depends on nothing but the cells it touches. -/
theorem Prog.Touches.agree {α : Type} {F : Loc → Prop} {p : Prog α} {m m' : Mem} (h : p.Touches F m)
    (e : ∀ l, F l → m l = m' l) :
    p.Touches F m' ∧ (p.run m).1 = (p.run m').1 ∧ ∀ l, F l → (p.run m).2 l = (p.run m').2 l := by
  induction p generalizing m m' with
  | ret a => exact ⟨trivial, rfl, e⟩
  | read l k ih =>
    obtain ⟨h1, h2⟩ := h
    obtain ⟨h3, h4⟩ := ih _ h2 e
    rw [e l h1] at h3
    refine ⟨⟨h1, h3⟩, ?_⟩
    change ((k (m l)).run m).1 = ((k (m' l)).run m').1 ∧ ∀ l', F l' → ((k (m l)).run m).2 l' = ((k (m' l)).run m').2 l'
    rw [← e l h1]
    exact h4
  | write l x k ih =>
    obtain ⟨h1, h2⟩ := h
    have e' : ∀ l', F l' → m.set l x l' = m'.set l x l' := by
      intro l' hl'
      unfold Mem.set
      split
      · rfl
      · exact e l' hl'
    obtain ⟨h3, h4⟩ := ih h2 e'
    exact ⟨⟨h1, h3⟩, h4⟩

/-! ## Slices -/

theorem contents_length (k : Kind) (s : Slice) (m : Mem) : (s.contents k m).length = s.len := by simp [Slice.contents]

theorem cell_of_lt {k : Kind} {s : Slice} {i : Nat} (h : i < s.len) : s.Cell k ⟨k, s.array, s.off + i⟩ :=
  ⟨rfl, rfl, by simp, by simpa using h⟩

theorem contents_agree {k : Kind} {s : Slice} {m m' : Mem} (h : ∀ l, s.Cell k l → m' l = m l) :
    s.contents k m' = s.contents k m := by
  unfold Slice.contents
  apply List.map_congr_left
  intro i hi
  exact h _ (cell_of_lt (List.mem_range.1 hi))

/-- Sorting a slice changes the order in this slice, and nothing in a slice apart from it. -/
theorem sort_shuffles (so : SliceSorter) {k : Kind} {s t : Slice} (key : Nat → Str) (m : Mem) (h : Apart k s t) :
    (t.contents k ((so.sort k key s).run m).2).Perm (t.contents k m) := by
  rcases h with rfl | h
  · exact so.perm k key s m
  · rw [contents_agree]
    intro l hl
    exact (so.touches k key s m).outside fun h' => h l ⟨h', hl⟩

/-- Sorting a slice changes nothing in a slice of another kind. -/
theorem sort_other (so : SliceSorter) {k k' : Kind} (hk : k ≠ k') {s t : Slice} (key : Nat → Str) (m : Mem) :
    t.contents k' ((so.sort k key s).run m).2 = t.contents k' m := by
  apply contents_agree
  rintro l ⟨hl, -⟩
  refine (so.touches k key s m).outside fun h' => hk (h'.1.symm.trans hl)

/-! ## Loops -/

theorem forCells_run {k : Kind} {a : Nat} {f : Nat → Prog (List Item)} (I : Mem → Prop) (c : Nat → Nat)
    (g : Nat → List Item) (i n : Nat) (hc : ∀ m, I m → ∀ j, j < n → m ⟨k, a, i + j⟩ = c (i + j))
    (hf : ∀ m, I m → ∀ j, j < n → ((f (c (i + j))).run m).1 = g (c (i + j)) ∧ I ((f (c (i + j))).run m).2) (m : Mem)
    (hm : I m) :
    ((forCells k a f i n).run m).1 = (List.range n).flatMap (fun j => g (c (i + j))) ∧ I ((forCells k a f i n).run m).2 := by
  induction n generalizing i m with
  | zero => exact ⟨rfl, hm⟩
  | succ n ih =>
    have h0 := hc m hm 0 (by omega)
    obtain ⟨h1, h2⟩ := hf m hm 0 (by omega)
    rw [Nat.add_zero] at h0 h1 h2
    have e : (forCells k a f i (n + 1)).run m =
        (((f (c i)).run m).1 ++ ((forCells k a f (i + 1) n).run ((f (c i)).run m).2).1,
          ((forCells k a f (i + 1) n).run ((f (c i)).run m).2).2) := by
      rw [← h0]
      show ((f (m ⟨k, a, i⟩)) >>= fun is => (forCells k a f (i + 1) n) >>= fun js => pure (is ++ js)).run m = _
      rw [run_bind, run_bind, run_pure]
    have ea : ∀ j, i + 1 + j = i + (j + 1) := fun j => by omega
    obtain ⟨h3, h4⟩ := ih (i + 1) (fun m hm j hj => by rw [ea]; exact hc m hm (j + 1) (by omega))
      (fun m hm j hj => by rw [ea]; exact hf m hm (j + 1) (by omega)) _ h2
    rw [e]
    refine ⟨?_, h4⟩
    rw [List.range_succ_eq_map, List.flatMap_cons, List.flatMap_map]
    simp only [Nat.add_zero]
    rw [h1, h3]
    congr 2
    funext j
    rw [ea]

/-- A loop over a slice the elements of which do not change meanwhile. -/
theorem forSlice_run {k : Kind} {s : Slice} {f : Nat → Prog (List Item)} (I : Mem → Prop) (g : Nat → List Item) (m : Mem)
    (hm : I m) (hc : ∀ m', I m' → s.contents k m' = s.contents k m)
    (hf : ∀ m', I m' → ∀ x ∈ s.contents k m, ((f x).run m').1 = g x ∧ I ((f x).run m').2) :
    ((forSlice k s f).run m).1 = (s.contents k m).flatMap g ∧ I ((forSlice k s f).run m).2 := by
  have := forCells_run (k := k) (a := s.array) (f := f) I (fun i => m ⟨k, s.array, i⟩) g s.off s.len
    (by
      intro m' hm' j hj
      have := hc m' hm'
      unfold Slice.contents at this
      rw [List.map_inj_left] at this
      exact this j (List.mem_range.2 hj))
    (by
      intro m' hm' j hj
      exact hf m' hm' _ (List.mem_map.2 ⟨j, List.mem_range.2 hj, rfl⟩)) m hm
  refine ⟨?_, this.2⟩
  unfold forSlice
  rw [this.1]
  unfold Slice.contents
  rw [List.flatMap_map]

theorem forSlice_pure (k : Kind) (s : Slice) (g : Nat → List Item) (m : Mem) :
    (forSlice k s fun x => pure (g x)).run m = ((s.contents k m).flatMap g, m) := by
  obtain ⟨h1, h2⟩ := forSlice_run (k := k) (s := s) (f := fun x => pure (g x)) (fun m' => m' = m) g m rfl
    (by rintro m' rfl; rfl) (by rintro m' rfl x _; exact ⟨rfl, rfl⟩)
  exact Prod.ext h1 h2

theorem forCells_touches {F : Loc → Prop} {k : Kind} {a : Nat} {f : Nat → Prog (List Item)} (I : Mem → Prop) (i n : Nat)
    (hF : ∀ j, j < n → F ⟨k, a, i + j⟩)
    (hf : ∀ m, I m → ∀ j, j < n → (f (m ⟨k, a, i + j⟩)).Touches F m ∧ I ((f (m ⟨k, a, i + j⟩)).run m).2) (m : Mem)
    (hm : I m) : (forCells k a f i n).Touches F m := by
  induction n generalizing i m with
  | zero => trivial
  | succ n ih =>
    obtain ⟨h1, h2⟩ := hf m hm 0 (by omega)
    have ea : ∀ j, i + 1 + j = i + (j + 1) := fun j => by omega
    refine ⟨by simpa using hF 0 (by omega), touches_bind h1 (touches_bind ?_ trivial)⟩
    exact ih (i + 1) (fun j hj => by rw [ea]; exact hF (j + 1) (by omega))
      (fun m hm j hj => by rw [ea]; exact hf m hm (j + 1) (by omega)) _ h2

theorem forSlice_touches {F : Loc → Prop} {k : Kind} {s : Slice} {f : Nat → Prog (List Item)} (I : Mem → Prop)
    (hF : ∀ l, s.Cell k l → F l)
    (hf : ∀ m, I m → ∀ x ∈ s.contents k m, (f x).Touches F m ∧ I ((f x).run m).2) (m : Mem) (hm : I m) :
    (forSlice k s f).Touches F m :=
  forCells_touches I s.off s.len (fun j hj => hF _ (cell_of_lt hj))
    (fun m hm j hj => hf m hm _ (List.mem_map.2 ⟨j, List.mem_range.2 hj, rfl⟩)) m hm

theorem forSlice_pure_touches (k : Kind) (s : Slice) (g : Nat → List Item) (m : Mem) :
    (forSlice k s fun x => pure (g x)).Touches (s.Cell k) m :=
  forSlice_touches (fun _ => True) (fun _ h => h) (fun _ _ _ _ => ⟨by trivial, trivial⟩) m trivial

end Verif
