import Verif.Spec.Number
import Verif.Lemmas.Composite

/-!
# The texts that Atoi reads
-/

namespace Verif
open Spec

theorem digitVal_eq {c : Char} {d : Nat} : digitVal c = some d ↔ d < 10 ∧ c = Nat.digitChar d := by
  constructor
  · intro h
    unfold digitVal at h
    split at h
    · next hc =>
      injection h with h
      obtain ⟨h1, h2⟩ := hc
      have h1 : 48 ≤ c.toNat := h1
      have h2 : c.toNat ≤ 57 := h2
      have h : c.toNat - 48 = d := h
      refine ⟨by omega, ?_⟩
      have e : c = Char.ofNat c.toNat := by simp
      have : c.toNat = 48 + d := by omega
      rw [this] at e
      have hd : d < 10 := by omega
      rw [e]
      have : ∀ d : Fin 10, Char.ofNat (48 + d.1) = d.1.digitChar := by decide
      exact this ⟨d, hd⟩
    · simp at h
  · rintro ⟨h, rfl⟩
    exact digitVal_digitChar h

theorem atoiDigits_snoc {s : Str} {c : Char} {n : Nat} : atoiDigits 0 (s ++ [c]) = some n ↔
    ∃ m d, atoiDigits 0 s = some m ∧ digitVal c = some d ∧ n = m * 10 + d := by
  rw [atoiDigits_append]
  cases atoiDigits 0 s with
  | none => simp
  | some m =>
    simp only [Option.bind_some, atoiDigits]
    cases digitVal c with
    | none => simp
    | some d => simp [eq_comm]

theorem digits_iff {s : Str} {n : Nat} : DigitsText s n ↔ s ≠ [] ∧ atoiDigits 0 s = some n := by
  constructor
  · intro h
    induction h with
    | @one d h => simp [atoiDigits, digitVal_eq.2 ⟨h, rfl⟩]
    | @more s n d h h' ih => exact ⟨by simp, atoiDigits_snoc.2 ⟨n, d, ih.2, digitVal_eq.2 ⟨h', rfl⟩, by omega⟩⟩
  · rintro ⟨h, e⟩
    generalize hl : s.length = l
    induction l generalizing s n with
    | zero => exact absurd (List.length_eq_zero_iff.1 hl) h
    | succ l ih =>
      obtain ⟨t, c, rfl⟩ : ∃ t c, s = t ++ [c] := ⟨_, _, (List.dropLast_concat_getLast h).symm⟩
      obtain ⟨m, d, h1, h2, rfl⟩ := atoiDigits_snoc.1 e
      obtain ⟨h3, rfl⟩ := digitVal_eq.1 h2
      by_cases ht : t = []
      · subst ht
        simp only [atoiDigits, Option.some.injEq] at h1
        subst h1
        simpa using DigitsText.one h3
      · have := DigitsText.more (ih ht h1 (by simpa using hl)) h3
        rw [Nat.mul_comm m 10]; exact this

theorem digits_head {s : Str} {n : Nat} (h : DigitsText s n) : ∀ c t, s = c :: t → c ≠ '-' ∧ c ≠ '+' := by
  rintro c t rfl
  obtain ⟨_, e⟩ := digits_iff.1 h
  constructor <;> (rintro rfl; simp [atoiDigits, digitVal] at e)

theorem number_iff {s : Str} {k : Int} : NumberText s k ↔ atoi s = some k := by
  have hpos : ∀ ds : Str, (if ds = [] then none else match atoiDigits 0 ds with
      | none => none
      | some n => if (n : Nat) < 2 ^ 63 then some (n : Int) else none) = some k ↔
      ∃ n, DigitsText ds n ∧ n < 2 ^ 63 ∧ k = n := by
    intro ds
    simp only [digits_iff]
    by_cases hd : ds = []
    · simp [hd]
    · rw [if_neg hd]
      cases atoiDigits 0 ds with
      | none => simp
      | some n =>
        by_cases hn : n < 2 ^ 63
        · simp [hd, hn, eq_comm]
        · simp [hd, hn]
  have hneg : ∀ ds : Str, (if ds = [] then none else match atoiDigits 0 ds with
      | none => none
      | some n => if (n : Nat) ≤ 2 ^ 63 then some (-(n : Int)) else none) = some k ↔
      ∃ n, DigitsText ds n ∧ n ≤ 2 ^ 63 ∧ k = -(n : Int) := by
    intro ds
    simp only [digits_iff]
    by_cases hd : ds = []
    · simp [hd]
    · rw [if_neg hd]
      cases atoiDigits 0 ds with
      | none => simp
      | some n =>
        by_cases hn : n ≤ 2 ^ 63
        · simp [hd, hn, eq_comm]
        · simp [hd, hn]
  unfold NumberText atoi
  split
  rename_i neg ds heq
  split at heq
  · injection heq with h1 h2
    subst h1; subst h2
    refine Iff.trans ?_ (hneg _).symm
    constructor
    · rintro ⟨h1, h2, ds, n, h3, ⟨rfl | h, rfl⟩ | ⟨h, rfl⟩⟩
      · exact absurd rfl (digits_head h3 _ _ rfl).1
      · simp at h
      · injection h with _ h; subst h
        exact ⟨n, h3, by omega, rfl⟩
    · rintro ⟨n, h1, h2, rfl⟩
      exact ⟨by omega, by omega, _, n, h1, .inr ⟨rfl, rfl⟩⟩
  · injection heq with h1 h2
    subst h1; subst h2
    refine Iff.trans ?_ (hpos _).symm
    constructor
    · rintro ⟨h1, h2, ds, n, h3, ⟨rfl | h, rfl⟩ | ⟨h, rfl⟩⟩
      · exact absurd rfl (digits_head h3 _ _ rfl).2
      · injection h with _ h; subst h
        exact ⟨n, h3, by omega, rfl⟩
      · simp at h
    · rintro ⟨n, h1, h2, rfl⟩
      exact ⟨by omega, by omega, _, n, h1, .inl ⟨.inr rfl, rfl⟩⟩
  · next hm hp =>
    injection heq with h1 h2
    subst h1; subst h2
    refine Iff.trans ?_ (hpos _).symm
    constructor
    · rintro ⟨h1, h2, ds, n, h3, ⟨rfl | h, rfl⟩ | ⟨h, rfl⟩⟩
      · exact ⟨n, h3, by omega, rfl⟩
      · exact absurd h (hp _)
      · exact absurd h (hm _)
    · rintro ⟨n, h1, h2, rfl⟩
      exact ⟨by omega, by omega, _, n, h1, .inl ⟨.inl rfl, rfl⟩⟩

end Verif
