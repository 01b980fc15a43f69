import Verif.Spec.JsonSpelling
import Verif.Lemmas.Json

/-!
# Reading JSON strings in any spelling
-/

namespace Verif
open Spec

theorem hexVal_of {c : Char} {n : Nat} (h : Spec.HexDigit c n) : hexVal c = some n := by
  have key : ∀ l : Str, l.length = 16 → (∀ i, i < 16 → ∀ d, l[i]? = some d → hexVal d = some i) → l[n]? = some c → hexVal c = some n := by
    intro l hl hi h
    have : n < 16 := by
      rcases List.getElem?_eq_some_iff.1 h with ⟨h, _⟩; omega
    exact hi n this c h
  have low : ∀ i, i < 16 → hexVal ((g!"0123456789abcdef")[i]?.getD 'x') = some i := by decide
  have high : ∀ i, i < 16 → hexVal ((g!"0123456789ABCDEF")[i]?.getD 'x') = some i := by decide
  rcases h with h | h
  · exact key _ rfl (fun i hi d hd => by have := low i hi; rw [hd] at this; exact this) h
  · exact key _ rfl (fun i hi d hd => by have := high i hi; rw [hd] at this; exact this) h

theorem hex4_of {t : Str} {n : Nat} (h : Spec.Hex4 t n) : ∃ a b c d, t = [a, b, c, d] ∧ hex4 a b c d = some n := by
  cases h with
  | mk h1 h2 h3 h4 =>
    refine ⟨_, _, _, _, rfl, ?_⟩
    simp only [hex4, hexVal_of h1, hexVal_of h2, hexVal_of h3, hexVal_of h4, Option.bind_eq_bind, Option.bind_some, Option.some.injEq]
    omega

/-- The units of a text: surrogates come in pairs. -/
inductive UnitsOf : List (Char ⊕ Nat) → Str → Prop
  | nil : UnitsOf [] []
  | char {c us s} : UnitsOf us s → UnitsOf (.inl c :: us) (c :: s)
  | code {c us s} : UnitsOf us s → UnitsOf (.inr c.toNat :: us) (c :: s)
  | pair {c us s} : 0x10000 ≤ c.toNat → UnitsOf us s →
      UnitsOf (.inr (0xD800 + (c.toNat - 0x10000) / 1024) :: .inr (0xDC00 + (c.toNat - 0x10000) % 1024) :: us) (c :: s)

theorem char_ofNat_toNat (c : Char) : Char.ofNat c.toNat = c := by simp

theorem char_lt (c : Char) : c.toNat < 0x110000 := by
  have := c.valid
  simp only [UInt32.isValidChar, Nat.isValidChar] at this
  have e : c.toNat = c.val.toNat := rfl
  omega

theorem combine_code (c : Char) (us : List (Char ⊕ Nat)) : combineUnits (.inr c.toNat :: us) = c :: combineUnits us := by
  have hc := char_not_surrogate c
  have hu : unitChar c.toNat = c := by simp [unitChar, hc]
  match us with
  | [] => simp [combineUnits, hu]
  | .inl d :: t => simp [combineUnits, hu]
  | .inr m :: t => rw [combineUnits, if_neg (by omega), hu]

theorem combine_units {us : List (Char ⊕ Nat)} {s : Str} (h : UnitsOf us s) : combineUnits us = s := by
  induction h with
  | nil => rfl
  | char _ ih => simp [combineUnits, ih]
  | code _ ih => rw [combine_code, ih]
  | @pair c us s hc _ ih =>
    have := char_lt c
    have e : 0x10000 + (0xD800 + (c.toNat - 0x10000) / 1024 - 0xD800) * 0x400 + (0xDC00 + (c.toNat - 0x10000) % 1024 - 0xDC00) = c.toNat := by omega
    rw [combineUnits, if_pos (by omega), ih, e, char_ofNat_toNat]

theorem units_code {a b c d : Char} {n : Nat} {r : Str} (h : hex4 a b c d = some n) :
    unescapeUnits ('\\' :: 'u' :: a :: b :: c :: d :: r) = (unescapeUnits r).map (.inr n :: ·) := by
  simp [unescapeUnits, h]

theorem units_spelled {s raw : Str} (h : Spelled s raw) : ∃ us, unescapeUnits raw = some us ∧ UnitsOf us s := by
  induction h with
  | nil => exact ⟨[], rfl, .nil⟩
  | @cons c s t r hc _ ih =>
    obtain ⟨us, h1, h2⟩ := ih
    cases hc with
    | plain hb hq =>
      refine ⟨.inl c :: us, ?_, .char h2⟩
      show unescapeUnits (c :: r) = _
      unfold unescapeUnits
      split
      · next h => cases h
      · next h => simp at h; exact absurd h.1 hb
      · next h => simp at h; exact absurd h.1 hb
      · next h => cases h; rw [if_neg hb, h1]; rfl
    | code hx =>
      obtain ⟨a, b, d, e, rfl, hx'⟩ := hex4_of hx
      refine ⟨.inr c.toNat :: us, ?_, .code h2⟩
      show unescapeUnits ('\\' :: 'u' :: a :: b :: d :: e :: r) = _
      rw [units_code hx', h1]; rfl
    | surrogates hc hx hy =>
      obtain ⟨a, b, d, e, rfl, hx'⟩ := hex4_of hx
      obtain ⟨a', b', d', e', rfl, hy'⟩ := hex4_of hy
      refine ⟨_, ?_, .pair hc h2⟩
      show unescapeUnits ('\\' :: 'u' :: a :: b :: d :: e :: '\\' :: 'u' :: a' :: b' :: d' :: e' :: r) = _
      rw [units_code hx', units_code hy', h1]; rfl
    | _ =>
      refine ⟨.inl _ :: us, ?_, .char h2⟩
      simp [unescapeUnits, h1]

end Verif
