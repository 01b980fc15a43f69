import Verif.Model.Rdf
import Verif.Props.C30_C32_IdSearcher

/-!
# `strings.ReplaceAll(s, word, "")` leaves the pieces between the occurrences of the word
-/

namespace Verif
open Spec

theorem removeAll_skip (w : Str) : ∀ (x s : Str), removeAll w x.length (x ++ s) = removeAll w 0 s
  | [], s => by simp
  | c :: x, s => by
    simp only [List.length_cons, List.cons_append, removeAll]
    exact removeAll_skip w x s

/-- The text before the first occurrence stays, and the rest is treated in the same way. -/
theorem removeAll_cut (k : Char) (w : Str) : ∀ s : Str, removeAll (k :: w) 0 s =
    (match cut (k :: w) s with | some (a, b) => a ++ removeAll (k :: w) 0 b | none => s)
  | [] => by simp [removeAll, cut]
  | c :: s => by
    rw [removeAll, cut]
    cases h : cutPrefix (k :: w) (c :: s) with
    | some r =>
      have e := cutPrefix_eq_some.1 h
      have hp : hasPrefix (k :: w) (c :: s) = true := by
        unfold hasPrefix; rw [List.isPrefixOf_iff_prefix]; exact ⟨r, e.symm⟩
      rw [if_pos hp]
      simp only [List.cons_append, List.cons.injEq] at e
      simp only [List.length_cons, Nat.add_sub_cancel, List.nil_append]
      rw [e.2]
      exact removeAll_skip _ w r
    | none =>
      have hp : ¬ hasPrefix (k :: w) (c :: s) = true := by
        intro hp
        unfold hasPrefix at hp; rw [List.isPrefixOf_iff_prefix] at hp
        obtain ⟨r, e⟩ := hp
        exact cutPrefix_eq_none.1 h r e.symm
      rw [if_neg hp, removeAll_cut k w s]
      cases cut (k :: w) s with
      | none => rfl
      | some x => rfl

/-- If the last character of the word occurs in it only there, an occurrence does not overlap another one. -/
theorem cut_no_overlap {w v r : Str} {d : Char} (hd : d ∉ w) (hv : contains (w ++ [d]) v = false) :
    cut (w ++ [d]) (v ++ (w ++ [d]) ++ r) = some (v, r) := by
  rw [cut_iff_first]
  refine ⟨rfl, fun a' b' e => ?_⟩
  apply Nat.le_of_not_lt
  intro hlt
  by_cases hle : a'.length + (w ++ [d]).length ≤ v.length
  · have e2 : v = (a' ++ (w ++ [d])) ++ v.drop (a'.length + (w ++ [d]).length) := by
      have h1 : (v ++ (w ++ [d]) ++ r).take (a'.length + (w ++ [d]).length) = a' ++ (w ++ [d]) := by
        rw [e, ← List.length_append, List.take_left']; rfl
      rw [List.append_assoc, List.take_append_of_le_length hle] at h1
      rw [← h1, List.take_append_drop]
    exact contains_false_iff.1 hv _ _ e2
  · have hx : (a' ++ (w ++ [d]) ++ b')[a'.length + w.length]? = some d := by
      rw [List.append_assoc, List.getElem?_append_right (by omega), Nat.add_sub_cancel_left, List.append_assoc,
        List.getElem?_append_right (Nat.le_refl _)]
      simp
    rw [← e, List.append_assoc, List.getElem?_append_right (by simp at hle; omega), List.append_assoc,
      List.getElem?_append_left (by simp at hle; omega)] at hx
    exact hd (List.mem_of_getElem? hx)

theorem contains_of_cut_none {sub s : Str} (h : cut sub s = none) : contains sub s = false := by
  simp [contains, h]

/-- What is left, in terms of the pieces. -/
theorem removeAll_iff {w : Str} {d : Char} (hd : d ∉ w) : ∀ (s r : Str), removeAll (w ++ [d]) 0 s = r ↔
    ∃ first rest, s = first ++ (rest.map fun p => (w ++ [d]) ++ p).flatten ∧
      (∀ p ∈ first :: rest, ∀ a b, p ≠ a ++ (w ++ [d]) ++ b) ∧ r = first ++ rest.flatten := by
  obtain ⟨k, t, hk⟩ : ∃ k t, w ++ [d] = k :: t := by cases w <;> simp
  have step := fun s => hk ▸ removeAll_cut k t s
  have onto : ∀ (n : Nat) (s : Str), s.length ≤ n → ∃ first rest, s = first ++ (rest.map fun p => (w ++ [d]) ++ p).flatten ∧
      (∀ p ∈ first :: rest, ∀ a b, p ≠ a ++ (w ++ [d]) ++ b) ∧ removeAll (w ++ [d]) 0 s = first ++ rest.flatten := by
    intro n
    induction n with
    | zero =>
      intro s hs
      cases s with
      | cons c s => simp at hs
      | nil => exact ⟨[], [], by simp, by simp, by simp [removeAll]⟩
    | succ n ih =>
      intro s hs
      rw [step s]
      cases h : cut (w ++ [d]) s with
      | none => exact ⟨s, [], by simp, by simpa using contains_false_iff.1 (contains_of_cut_none h), by simp⟩
      | some x =>
        obtain ⟨a, b⟩ := x
        have e := cut_eq h
        have hb : b.length ≤ n := by rw [e] at hs; simp at hs; omega
        obtain ⟨f, rs, h1, h2, h3⟩ := ih b hb
        refine ⟨a, f :: rs, ?_, ?_, ?_⟩
        · rw [e]; conv => lhs; rw [h1]
          simp
        · intro p hp
          rcases List.mem_cons.1 hp with rfl | hp
          · intro x y e2
            have := (cut_iff_first.1 h).2 x (y ++ (w ++ [d]) ++ b) (by rw [e, e2]; simp)
            have hl := congrArg List.length e2
            simp at hl
            omega
          · exact h2 p hp
        · simp only [h3]; simp
  have into : ∀ (rest : List Str) (first : Str), (∀ p ∈ first :: rest, ∀ a b, p ≠ a ++ (w ++ [d]) ++ b) →
      removeAll (w ++ [d]) 0 (first ++ (rest.map fun p => (w ++ [d]) ++ p).flatten) = first ++ rest.flatten := by
    intro rest
    induction rest with
    | nil =>
      intro first h
      simp only [List.map_nil, List.flatten_nil, List.append_nil]
      rw [step, cut_none_of_not_contains (contains_false_iff.2 (h first (by simp)))]
    | cons q rest ih =>
      intro first h
      have e : first ++ ((q :: rest).map fun p => (w ++ [d]) ++ p).flatten =
          first ++ (w ++ [d]) ++ (q ++ (rest.map fun p => (w ++ [d]) ++ p).flatten) := by simp
      rw [e, step, cut_no_overlap hd (contains_false_iff.2 (h first (by simp)))]
      simp only [ih q fun p hp => h p (List.mem_cons_of_mem _ hp)]
      simp
  intro s r
  constructor
  · rintro rfl
    exact onto s.length s (Nat.le_refl _)
  · rintro ⟨f, rs, rfl, h, rfl⟩
    exact into rs f h

end Verif
