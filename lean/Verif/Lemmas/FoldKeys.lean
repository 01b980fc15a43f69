import Verif.Spec.Links

/-!
# When two JSON keys name the same field
-/

namespace Verif
open Spec

theorem foldChar_plain {c : Char} (h : c ∉ letterCases.flatten) : foldChar c = c := by
  have h1 : c ≠ 'ſ' := by rintro rfl; exact h (by decide)
  have h2 : c ≠ '\u212a' := by rintro rfl; exact h (by decide)
  have h3 : ¬ (97 ≤ c.toNat ∧ c.toNat ≤ 122) := by
    rintro ⟨a, b⟩
    have key : ∀ n, n < 26 → Char.ofNat (97 + n) ∈ letterCases.flatten := by decide
    apply h
    have := key (c.toNat - 97) (by omega)
    rwa [show 97 + (c.toNat - 97) = c.toNat by omega, Char.ofNat_toNat] at this
  unfold foldChar
  rw [if_neg h1, if_neg h2, Char.toUpper]
  split
  · rename_i hh
    exfalso
    apply h3
    obtain ⟨a, b⟩ := hh
    exact ⟨a, b⟩
  · rfl

theorem sameLetter_iff (a b : Char) : foldChar a = foldChar b ↔ SameLetter a b := by
  have both : ∀ a ∈ letterCases.flatten, ∀ b ∈ letterCases.flatten, foldChar a = foldChar b → ∃ l ∈ letterCases, a ∈ l ∧ b ∈ l := by
    decide +kernel
  have one : ∀ a ∈ letterCases.flatten, foldChar a ∈ letterCases.flatten := by decide +kernel
  have back : ∀ l ∈ letterCases, ∀ a ∈ l, ∀ b ∈ l, foldChar a = foldChar b := by decide +kernel
  constructor
  · intro h
    by_cases ha : a ∈ letterCases.flatten <;> by_cases hb : b ∈ letterCases.flatten
    · exact .inr (both a ha b hb h)
    · rw [foldChar_plain hb] at h
      exact absurd (h ▸ one a ha) hb
    · rw [foldChar_plain ha] at h
      exact absurd (h ▸ one b hb) ha
    · rw [foldChar_plain ha, foldChar_plain hb] at h
      exact .inl h
  · rintro (rfl | ⟨l, hl, ha, hb⟩)
    · rfl
    · exact back l hl a ha b hb

theorem sameKey_iff (a b : Str) : sameKey a b = true ↔ Pointwise SameLetter a b := by
  unfold sameKey
  rw [decide_eq_true_eq]
  induction a generalizing b with
  | nil =>
    cases b with
    | nil => exact ⟨fun _ => .nil, fun _ => rfl⟩
    | cons c b => exact ⟨fun h => (by cases h), fun h => (by cases h)⟩
  | cons x a ih =>
    cases b with
    | nil => exact ⟨fun h => (by cases h), fun h => (by cases h)⟩
    | cons c b =>
      simp only [List.map_cons, List.cons.injEq, ih, sameLetter_iff]
      exact ⟨fun h => .cons h.1 h.2, fun h => by cases h with | cons r h => exact ⟨r, h⟩⟩
end Verif
