import Verif.Model.Types

/-!
# `List.mapM` in `Option`
-/

namespace Verif

theorem mapM_some_of_forall {α β : Type} {f : α → Option β} {l : List α} (h : ∀ x ∈ l, ∃ y, f x = some y) :
    ∃ ys, l.mapM f = some ys := by
  induction l with
  | nil => exact ⟨[], rfl⟩
  | cons a l ih =>
    obtain ⟨y, hy⟩ := h a (by simp)
    obtain ⟨ys, hys⟩ := ih (fun x hx => h x (by simp [hx]))
    refine ⟨y :: ys, ?_⟩
    simp [List.mapM_cons, hy, hys]

theorem mapM_some_mem {α β : Type} {f : α → Option β} {l : List α} {ys : List β} (h : l.mapM f = some ys) :
    ∀ y ∈ ys, ∃ x ∈ l, f x = some y := by
  induction l generalizing ys with
  | nil => simp at h; subst h; simp
  | cons a l ih =>
    simp only [List.mapM_cons, Option.bind_eq_bind, Option.bind_eq_some_iff, Option.pure_def,
      Option.some.injEq] at h
    obtain ⟨y, hy, zs, hzs, rfl⟩ := h
    intro z hz
    rcases List.mem_cons.1 hz with rfl | hz
    · exact ⟨a, by simp, hy⟩
    · obtain ⟨x, hx, hfx⟩ := ih hzs z hz
      exact ⟨x, by simp [hx], hfx⟩

theorem mapM_eq_some_map {α β : Type} {f : α → Option β} {l : List α} {g : α → β}
    (h : ∀ x ∈ l, f x = some (g x)) : l.mapM f = some (l.map g) := by
  induction l with
  | nil => rfl
  | cons a l ih =>
    simp [List.mapM_cons, h a (by simp), ih (fun x hx => h x (by simp [hx]))]

theorem mapM_append_some {α β : Type} {f : α → Option β} {l l' : List α} {ys ys' : List β}
    (h : l.mapM f = some ys) (h' : l'.mapM f = some ys') : (l ++ l').mapM f = some (ys ++ ys') := by
  simp [List.mapM_append, h, h']

theorem mapM_congr {α β : Type} {f g : α → Option β} {l : List α} (h : ∀ x ∈ l, f x = g x) :
    l.mapM f = l.mapM g := by
  induction l with
  | nil => rfl
  | cons a l ih => simp [List.mapM_cons, h a (by simp), ih (fun x hx => h x (by simp [hx]))]

theorem mapM_map_comm {α β γ : Type} {f : α → Option β} {l : List α} {ys : List β} {g : β → γ} {k : α → γ}
    (h : l.mapM f = some ys) (hk : ∀ x ∈ l, ∀ y, f x = some y → g y = k x) : ys.map g = l.map k := by
  induction l generalizing ys with
  | nil => simp at h; subst h; simp
  | cons a l ih =>
    simp only [List.mapM_cons, Option.bind_eq_bind, Option.bind_eq_some_iff, Option.pure_def,
      Option.some.injEq] at h
    obtain ⟨y, hy, zs, hzs, rfl⟩ := h
    simp [hk a (by simp) y hy, ih hzs (fun x hx => hk x (by simp [hx]))]

end Verif
