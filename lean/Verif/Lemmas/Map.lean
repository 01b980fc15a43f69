import Verif.Lemmas.Sort

/-!
# Facts about maps
-/

namespace Verif

theorem mapGet_mapInsert {α : Type} (k k' : Str) (v : α) (m : List (Str × α)) :
    mapGet k' (mapInsert k v m) = if k = k' then some v else mapGet k' m := by
  induction m with
  | nil => simp [mapInsert, mapGet]
  | cons x m ih =>
    obtain ⟨a, b⟩ := x
    simp only [mapInsert]
    by_cases h : a = k
    · subst h
      simp only [if_true, mapGet]
      split <;> rfl
    · simp only [if_neg h, mapGet, ih]
      by_cases h2 : a = k'
      · subst h2; simp [Ne.symm h]
      · simp [h2]

theorem mapInsert_keys {α : Type} (k : Str) (v : α) (m : List (Str × α)) (x : Str) :
    x ∈ (mapInsert k v m).map (·.1) ↔ x = k ∨ x ∈ m.map (·.1) := by
  induction m with
  | nil => simp [mapInsert]
  | cons y m ih =>
    obtain ⟨a, b⟩ := y
    simp only [mapInsert]
    split
    · next h => subst h; simp
    · simp only [List.map_cons, List.mem_cons, ih]
      constructor
      · rintro (h | h | h) <;> simp [h]
      · rintro (h | h | h) <;> simp [h]

theorem mapInsert_nodup {α : Type} (k : Str) (v : α) (m : List (Str × α)) (h : (m.map (·.1)).Nodup) :
    ((mapInsert k v m).map (·.1)).Nodup := by
  induction m with
  | nil => simp [mapInsert]
  | cons y m ih =>
    obtain ⟨a, b⟩ := y
    simp only [List.map_cons, List.nodup_cons] at h
    simp only [mapInsert]
    split
    · next e => subst e; simpa using h
    · next e =>
      simp only [List.map_cons, List.nodup_cons]
      refine ⟨?_, ih h.2⟩
      rw [mapInsert_keys]
      rintro (rfl | h')
      · exact e rfl
      · exact h.1 h'

theorem mapGet_none_iff {α : Type} (k : Str) (m : List (Str × α)) : mapGet k m = none ↔ k ∉ m.map (·.1) := by
  induction m with
  | nil => simp [mapGet]
  | cons y m ih =>
    obtain ⟨a, b⟩ := y
    simp only [mapGet]
    split
    · next e => subst e; simp
    · next e => simp [ih, Ne.symm e]

end Verif
