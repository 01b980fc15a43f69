import Verif.Model.GoStr
import Verif.Spec.SameDoc

/-!
# Sorting by a string key
-/

namespace Verif
open Spec

theorem strLe_refl (a : Str) : strLe a a = true := by
  induction a with
  | nil => rfl
  | cons c a ih => simp [strLe, ih]

theorem strLe_total (a b : Str) : strLe a b = true ∨ strLe b a = true := by
  induction a generalizing b with
  | nil => simp [strLe]
  | cons c a ih =>
    cases b with
    | nil => simp [strLe]
    | cons d b =>
      by_cases h : c = d
      · subst h; simpa [strLe] using ih b
      · have h2 : ¬ d = c := fun e => h e.symm
        have hn : c.toNat ≠ d.toNat := fun e => h (Char.toNat_inj.1 e)
        simp only [strLe, if_neg h, if_neg h2, decide_eq_true_eq]
        omega

theorem strLe_antisymm {a b : Str} (h1 : strLe a b = true) (h2 : strLe b a = true) : a = b := by
  induction a generalizing b with
  | nil => cases b with
    | nil => rfl
    | cons => simp [strLe] at h2
  | cons c a ih =>
    cases b with
    | nil => simp [strLe] at h1
    | cons d b =>
      by_cases h : c = d
      · subst h; simp [strLe] at h1 h2; rw [ih h1 h2]
      · have h3 : ¬ d = c := fun e => h e.symm
        simp only [strLe, if_neg h, if_neg h3, decide_eq_true_eq] at h1 h2
        omega

theorem strLe_trans {a b c : Str} (h1 : strLe a b = true) (h2 : strLe b c = true) : strLe a c = true := by
  induction a generalizing b c with
  | nil => simp [strLe]
  | cons x a ih =>
    cases b with
    | nil => simp [strLe] at h1
    | cons y b =>
      cases c with
      | nil => simp [strLe] at h2
      | cons z c =>
        by_cases hxy : x = y
        · subst hxy
          by_cases hxz : x = z
          · subst hxz; simp [strLe] at h1 h2 ⊢; exact ih h1 h2
          · simp only [strLe, if_neg hxz, decide_eq_true_eq] at h2 ⊢; exact h2
        · by_cases hyz : y = z
          · subst hyz
            simp only [strLe, if_neg hxy, decide_eq_true_eq] at h1 ⊢; exact h1
          · simp only [strLe, if_neg hxy, if_neg hyz, decide_eq_true_eq] at h1 h2
            have : x ≠ z := by intro e; subst e; omega
            simp only [strLe, if_neg this, decide_eq_true_eq]; omega

/-- Insertion into a sorted list. -/
def insertBy {α : Type} (k : α → Str) (x : α) : List α → List α
  | [] => [x]
  | y :: l => if strLe (k x) (k y) then x :: y :: l else y :: insertBy k x l

theorem insertBy_perm {α : Type} (k : α → Str) (x : α) (l : List α) : (insertBy k x l).Perm (x :: l) := by
  induction l with
  | nil => exact .refl _
  | cons y l ih =>
    simp only [insertBy]
    split
    · exact .refl _
    · exact (List.Perm.cons y ih).trans (.swap ..)

theorem insertBy_sorted {α : Type} (k : α → Str) (x : α) {l : List α} (h : SortedBy k l) :
    SortedBy k (insertBy k x l) := by
  induction l with
  | nil => exact List.pairwise_singleton ..
  | cons y l ih =>
    simp only [insertBy]
    have h' := List.pairwise_cons.1 h
    split
    · rename_i hxy
      refine List.pairwise_cons.2 ⟨?_, h⟩
      intro z hz
      rcases List.mem_cons.1 hz with rfl | hz
      · exact hxy
      · exact strLe_trans hxy (h'.1 z hz)
    · rename_i hxy
      have hyx : strLe (k y) (k x) = true := (strLe_total (k x) (k y)).resolve_left hxy
      refine List.pairwise_cons.2 ⟨?_, ih h'.2⟩
      intro z hz
      rcases List.mem_cons.1 ((insertBy_perm k x l).mem_iff.1 hz) with rfl | hz
      · exact hyx
      · exact h'.1 z hz

/-- A sorter exists: insertion sort. -/
def insertionSorter : Sorter where
  run k l := l.foldr (insertBy k) []
  perm k l := by
    induction l with
    | nil => exact .refl _
    | cons x l ih => exact (insertBy_perm k x _).trans (.cons x ih)
  sorted k l := by
    induction l with
    | nil => exact .nil
    | cons x l ih => exact insertBy_sorted k x ih

theorem Sorter.mem (so : Sorter) {α : Type} (k : α → Str) (l : List α) (x : α) : x ∈ so.run k l ↔ x ∈ l :=
  (so.perm k l).mem_iff

theorem Sorter.eq_nil (so : Sorter) {α : Type} (k : α → Str) (l : List α) : so.run k l = [] ↔ l = [] := by
  constructor
  · intro h; have := so.perm k l; rw [h] at this; exact this.symm.eq_nil
  · rintro rfl; exact (so.perm k []).eq_nil

/-- A key that is injective on a list. -/
theorem key_inj {α : Type} {k : α → Str} {l : List α} (h : (l.map k).Nodup) {a b : α} (ha : a ∈ l) (hb : b ∈ l)
    (e : k a = k b) : a = b := by
  induction l with
  | nil => simp at ha
  | cons x l ih =>
    simp only [List.map_cons, List.nodup_cons, List.mem_map, not_exists, not_and] at h
    rcases List.mem_cons.1 ha with ha' | ha2 <;> rcases List.mem_cons.1 hb with hb' | hb2
    · rw [ha', hb']
    · subst ha'; exact absurd e.symm (h.1 b hb2)
    · subst hb'; exact absurd e (h.1 a ha2)
    · exact ih h.2 ha2 hb2

/-- Two sorted lists with the same elements and distinct keys are equal. -/
theorem sorted_unique {α : Type} {k : α → Str} {l m : List α} (hp : l.Perm m)
    (hl : SortedBy k l) (hm : SortedBy k m) (hd : (l.map k).Nodup) : l = m :=
  hp.eq_of_pairwise
    (fun _ _ ha hb h1 h2 => key_inj hd ha (hp.mem_iff.2 hb) (strLe_antisymm h1 h2)) hl hm

theorem Spec.Pointwise.perm_right {α β : Type} {R : α → β → Prop} {l : List α} {m m' : List β}
    (h : Pointwise R l m) (hp : m.Perm m') : ∃ l', l.Perm l' ∧ Pointwise R l' m' := by
  induction hp generalizing l with
  | nil => exact ⟨l, .refl _, h⟩
  | cons x _ ih =>
    cases h with
    | cons h1 h2 => obtain ⟨l', p, q⟩ := ih h2; exact ⟨_, .cons _ p, .cons h1 q⟩
  | swap x y _ =>
    cases h with
    | cons h1 h2 => cases h2 with
      | cons h3 h4 => exact ⟨_, .swap .., .cons h3 (.cons h1 h4)⟩
  | trans _ _ ih1 ih2 =>
    obtain ⟨l1, p1, q1⟩ := ih1 h
    obtain ⟨l2, p2, q2⟩ := ih2 q1
    exact ⟨l2, p1.trans p2, q2⟩

theorem Spec.Pointwise.sorted_left {α β : Type} {R : α → β → Prop} {k : α → Str} {k' : β → Str} {l : List α} {m : List β}
    (h : Pointwise R l m) (hk : ∀ a b, R a b → k a = k' b) (hm : SortedBy k' m) : SortedBy k l := by
  have hmap : l.map k = m.map k' := by
    induction h with
    | nil => rfl
    | cons h1 _ ih =>
      simp only [List.map_cons, hk _ _ h1]
      rw [ih (List.Pairwise.of_cons hm)]
  have : (m.map k').Pairwise fun a b => strLe a b = true := List.pairwise_map.2 hm
  rw [← hmap] at this
  exact List.pairwise_map.1 this

theorem Spec.Pointwise.refl {α : Type} {R : α → α → Prop} (hR : ∀ a, R a a) (l : List α) : Pointwise R l l := by
  induction l with
  | nil => exact .nil
  | cons a l ih => exact .cons (hR a) ih

theorem Spec.Pointwise.map_right {α β : Type} {R : α → β → Prop} {g : α → β} (l : List α) (hR : ∀ a ∈ l, R a (g a)) :
    Pointwise R l (l.map g) := by
  induction l with
  | nil => exact .nil
  | cons a l ih => exact .cons (hR a (by simp)) (ih fun a h => hR a (by simp [h]))

theorem Spec.Pointwise.flatMap_eq {α β γ : Type} {R : α → β → Prop} {f : α → List γ} {g : β → List γ} {l : List α} {m : List β}
    (h : Pointwise R l m) (hR : ∀ a ∈ l, ∀ b ∈ m, R a b → f a = g b) : l.flatMap f = m.flatMap g := by
  induction h with
  | nil => rfl
  | cons h1 _ ih =>
    simp only [List.flatMap_cons]
    rw [hR _ (by simp) _ (by simp) h1, ih fun a ha b hb => hR a (by simp [ha]) b (by simp [hb])]

/-- Sorting two lists that agree up to order gives lists that agree element by element. -/
theorem sort_pointwise {α β : Type} {R : α → β → Prop} {k : α → Str} {k' : β → Str} (so so' : Sorter)
    {l l' : List α} {m : List β} (hp : l.Perm l') (h : Pointwise R l' m) (hk : ∀ a b, R a b → k a = k' b)
    (hd : (l.map k).Nodup) : Pointwise R (so.run k l) (so'.run k' m) := by
  obtain ⟨l2, p2, q2⟩ := h.perm_right (so'.perm k' m).symm
  have hs := q2.sorted_left hk (so'.sorted k' m)
  have hperm : (so.run k l).Perm l2 := (so.perm k l).trans (hp.trans p2)
  have : so.run k l = l2 := by
    apply sorted_unique hperm (so.sorted k l) hs
    exact ((so.perm k l).map k).nodup_iff.2 hd
  rw [this]; exact q2

theorem sort_eq {α : Type} {k : α → Str} (so so' : Sorter) {l m : List α} (hp : l.Perm m)
    (hd : (l.map k).Nodup) : so.run k l = so'.run k m :=
  sorted_unique ((so.perm k l).trans (hp.trans (so'.perm k m).symm)) (so.sorted k l) (so'.sorted k m)
    (((so.perm k l).map k).nodup_iff.2 hd)

theorem sort_keys_eq (so so' : Sorter) {l m : List Str} (hp : l.Perm m) : so.run id l = so'.run id m :=
  ((so.perm id l).trans (hp.trans (so'.perm id m).symm)).eq_of_pairwise
    (fun _ _ _ _ h1 h2 => strLe_antisymm h1 h2) (so.sorted id l) (so'.sorted id m)

theorem mapGet_eq_some_iff {α : Type} {k : Str} {x : α} {m : List (Str × α)} (h : (m.map (·.1)).Nodup) :
    mapGet k m = some x ↔ (k, x) ∈ m := by
  induction m with
  | nil => simp [mapGet]
  | cons p m ih =>
    obtain ⟨a, b⟩ := p
    simp only [List.map_cons, List.nodup_cons, List.mem_map, not_exists, not_and] at h
    simp only [mapGet]
    split
    · rename_i e; subst e
      simp only [Option.some.injEq, List.mem_cons, Prod.mk.injEq, true_and]
      constructor
      · intro e; left; exact e.symm
      · rintro (e | e)
        · exact e.symm
        · exact absurd rfl (h.1 _ e)
    · rename_i e
      rw [ih h.2]
      simp only [List.mem_cons, Prod.mk.injEq]
      constructor
      · intro h; exact .inr h
      · rintro (⟨e', _⟩ | h)
        · exact absurd e'.symm e
        · exact h

theorem mapGet_perm {α : Type} {m m' : List (Str × α)} (hp : m.Perm m') (h : (m.map (·.1)).Nodup) (k : Str) :
    mapGet k m = mapGet k m' := by
  have h' : (m'.map (·.1)).Nodup := (hp.map _).nodup_iff.1 h
  cases hx : mapGet k m with
  | some x =>
    rw [mapGet_eq_some_iff h] at hx
    exact ((mapGet_eq_some_iff h').2 (hp.mem_iff.1 hx)).symm
  | none =>
    cases hy : mapGet k m' with
    | none => rfl
    | some y =>
      rw [mapGet_eq_some_iff h'] at hy
      rw [(mapGet_eq_some_iff h).2 (hp.mem_iff.2 hy)] at hx
      simp at hx

end Verif
