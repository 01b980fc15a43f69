import Verif.Model.Bytes

/-!
# Characters and bytes
-/

namespace Verif

theorem char_valid (c : Char) : c.toNat < 0xD800 ∨ (0xDFFF < c.toNat ∧ c.toNat < 0x110000) := c.valid

theorem ofNat_toNat_char {n : Nat} (h : n < 0xD800 ∨ (0xDFFF < n ∧ n < 0x110000)) : (Char.ofNat n).toNat = n := by
  have hv : n.isValidChar := h
  simp [Char.ofNat, hv, Char.toNat, Char.ofNatAux]

theorem byte_ofNat {n : Nat} (h : n < 256) : (UInt8.ofNat n).toNat = n := by
  simp only [UInt8.toNat_ofNat']; omega

theorem byte_eq {a b : UInt8} (h : a.toNat = b.toNat) : a = b := UInt8.toNat_inj.1 h

theorem byte_lt (a : UInt8) : a.toNat < 256 := a.toNat_lt

/-- The bytes of a character, by the number of bytes. -/
theorem bytesOf_cases (c : Char) :
    (c.toNat < 0x80 ∧ ∃ b, bytesOf c = [b] ∧ b.toNat = c.toNat) ∨
    (0x80 ≤ c.toNat ∧ c.toNat < 0x800 ∧ ∃ b0 b1, bytesOf c = [b0, b1] ∧ b0.toNat = 0xC0 + c.toNat / 64 ∧
      b1.toNat = 0x80 + c.toNat % 64) ∨
    (0x800 ≤ c.toNat ∧ c.toNat < 0x10000 ∧ ∃ b0 b1 b2, bytesOf c = [b0, b1, b2] ∧ b0.toNat = 0xE0 + c.toNat / 4096 ∧
      b1.toNat = 0x80 + c.toNat / 64 % 64 ∧ b2.toNat = 0x80 + c.toNat % 64) ∨
    (0x10000 ≤ c.toNat ∧ ∃ b0 b1 b2 b3, bytesOf c = [b0, b1, b2, b3] ∧ b0.toNat = 0xF0 + c.toNat / 262144 ∧
      b1.toNat = 0x80 + c.toNat / 4096 % 64 ∧ b2.toNat = 0x80 + c.toNat / 64 % 64 ∧ b3.toNat = 0x80 + c.toNat % 64) := by
  have hv := char_valid c
  unfold bytesOf
  simp only
  split
  · exact .inl ⟨by assumption, _, rfl, byte_ofNat (by omega)⟩
  · split
    · exact .inr (.inl ⟨by omega, by assumption, _, _, rfl, byte_ofNat (by omega), byte_ofNat (by omega)⟩)
    · split
      · exact .inr (.inr (.inl ⟨by omega, by assumption, _, _, _, rfl, byte_ofNat (by omega), byte_ofNat (by omega),
          byte_ofNat (by omega)⟩))
      · exact .inr (.inr (.inr ⟨by omega, _, _, _, _, rfl, byte_ofNat (by omega), byte_ofNat (by omega),
          byte_ofNat (by omega), byte_ofNat (by omega)⟩))

theorem bytesOf_length (c : Char) : (bytesOf c).length = runeLen c := by
  unfold bytesOf runeLen
  simp only
  split
  · rfl
  · split
    · rfl
    · split <;> rfl

theorem bytesOf_ne_nil (c : Char) : bytesOf c ≠ [] := by
  intro h
  have := bytesOf_length c
  rw [h] at this
  unfold runeLen at this
  simp only [List.length_nil] at this
  split at this
  · omega
  · split at this
    · omega
    · split at this <;> omega

theorem second_byte {n0 n1 : Nat} (h : 0x80 ≤ n1 ∧ n1 ≤ 0xBF) (h1 : n0 = 0xE0 → 0xA0 ≤ n1) (h2 : n0 = 0xF0 → 0x90 ≤ n1)
    (h3 : n0 = 0xED → n1 ≤ 0x9F) (h4 : n0 = 0xF4 → n1 ≤ 0x8F) :
    ¬ (decide (n1 < if n0 = 0xE0 then 0xA0 else if n0 = 0xF0 then 0x90 else 0x80) ||
      decide ((if n0 = 0xED then 0x9F else if n0 = 0xF4 then 0x8F else 0xBF) < n1)) = true := by
  simp only [Bool.or_eq_true, decide_eq_true_eq, not_or, Nat.not_lt]
  constructor
  · split
    · exact h1 (by assumption)
    · split
      · exact h2 (by assumption)
      · exact h.1
  · split
    · exact h3 (by assumption)
    · split
      · exact h4 (by assumption)
      · exact h.2

/-- A character is decoded from its bytes. -/
theorem decodeRune_bytesOf (c : Char) (x : Bytes) : decodeRune (bytesOf c ++ x) = (c.toNat, (bytesOf c).length) := by
  have hv := char_valid c
  rcases bytesOf_cases c with ⟨h, b, e, hb⟩ | ⟨h, h', b0, b1, e, hb, hb1⟩ | ⟨h, h', b0, b1, b2, e, hb, hb1, hb2⟩ |
    ⟨h, b0, b1, b2, b3, e, hb, hb1, hb2, hb3⟩
  · rw [e]
    simp only [List.cons_append, List.nil_append, decodeRune, hb, h, if_true, List.length_cons, List.length_nil]
  · rw [e]
    simp only [List.cons_append, List.nil_append, decodeRune, hb, hb1, List.length_cons, List.length_nil]
    rw [if_neg (by omega), if_neg (by simp; omega), if_neg (second_byte (by omega) (by omega) (by omega) (by omega) (by omega)), if_pos (by omega)]
    congr 1
    omega
  · rw [e]
    simp only [List.cons_append, List.nil_append, decodeRune, hb, hb1, hb2, List.length_cons, List.length_nil]
    rw [if_neg (by omega), if_neg (by simp; omega), if_neg (second_byte (by omega) (by omega) (by omega) (by omega) (by omega)), if_neg (by omega),
      if_neg (by simp; omega), if_pos (by omega)]
    congr 1
    omega
  · rw [e]
    simp only [List.cons_append, List.nil_append, decodeRune, hb, hb1, hb2, hb3, List.length_cons, List.length_nil]
    rw [if_neg (by omega), if_neg (by simp; omega), if_neg (second_byte (by omega) (by omega) (by omega) (by omega) (by omega)), if_neg (by omega),
      if_neg (by simp; omega), if_neg (by omega), if_neg (by simp; omega)]
    congr 1
    omega

/-- What is decoded is a character, or an error that takes one byte. -/
theorem decodeRune_cases {s : Bytes} (h : s ≠ []) :
    (decodeRune s = runeError ∧ ∀ c x, s ≠ bytesOf c ++ x) ∨
    ∃ c x, s = bytesOf c ++ x ∧ decodeRune s = (c.toNat, (bytesOf c).length) := by
  by_cases hd : ∃ c x, s = bytesOf c ++ x
  · obtain ⟨c, x, rfl⟩ := hd
    exact .inr ⟨c, x, rfl, decodeRune_bytesOf c x⟩
  · left
    refine ⟨?_, fun c x e => hd ⟨c, x, e⟩⟩
    match s, h with
    | b0 :: t, _ =>
      have l0 := byte_lt b0
      simp only [decodeRune]
      split
      · rename_i h0
        refine absurd ?_ hd
        refine ⟨Char.ofNat b0.toNat, t, ?_⟩
        have := ofNat_toNat_char (n := b0.toNat) (by omega)
        simp [bytesOf, this, h0]
      · split
        · rfl
        · rename_i h0 h1
          simp only [Bool.or_eq_true, decide_eq_true_eq, not_or, Nat.not_lt] at h0 h1
          cases t with
          | nil => rfl
          | cons b1 t =>
            have l1 := byte_lt b1
            simp only
            generalize hlo : (if b0.toNat = 0xE0 then 0xA0 else if b0.toNat = 0xF0 then 0x90 else 0x80) = lo
            generalize hhi : (if b0.toNat = 0xED then 0x9F else if b0.toNat = 0xF4 then 0x8F else 0xBF) = hi
            split
            · rfl
            · rename_i h2
              simp only [Bool.or_eq_true, decide_eq_true_eq, not_or, Nat.not_lt] at h2
              subst hlo hhi
              have g1 : 0x80 ≤ b1.toNat ∧ b1.toNat ≤ 0xBF := by
                obtain ⟨ha, hb⟩ := h2
                constructor
                · revert ha; split <;> (try split) <;> omega
                · revert hb; split <;> (try split) <;> omega
              split
              · rename_i h3
                exfalso
                refine hd ⟨Char.ofNat (b0.toNat % 32 * 64 + b1.toNat % 64), t, ?_⟩
                have := ofNat_toNat_char (n := b0.toNat % 32 * 64 + b1.toNat % 64) (by omega)
                unfold bytesOf
                simp only [this]
                rw [if_neg (by omega), if_pos (by omega)]
                simp only [List.cons_append, List.nil_append]
                refine congr (congrArg List.cons (byte_eq ?_)) (congr (congrArg List.cons (byte_eq ?_)) rfl)
                · rw [byte_ofNat (by omega)]; omega
                · rw [byte_ofNat (by omega)]; omega
              · rename_i h3
                cases t with
                | nil => rfl
                | cons b2 t =>
                  have l2 := byte_lt b2
                  simp only
                  split
                  · rfl
                  · rename_i h4
                    simp only [Bool.or_eq_true, decide_eq_true_eq, not_or, Nat.not_lt] at h4
                    split
                    · rename_i h5
                      exfalso
                      have hE0 : b0.toNat = 0xE0 → 0xA0 ≤ b1.toNat := by
                        intro e; have := h2.1; rw [if_pos e] at this; exact this
                      have hED : b0.toNat = 0xED → b1.toNat ≤ 0x9F := by
                        intro e; have := h2.2; rw [if_pos e] at this; exact this
                      refine hd ⟨Char.ofNat (b0.toNat % 16 * 4096 + b1.toNat % 64 * 64 + b2.toNat % 64), t, ?_⟩
                      have := ofNat_toNat_char (n := b0.toNat % 16 * 4096 + b1.toNat % 64 * 64 + b2.toNat % 64) (by omega)
                      unfold bytesOf
                      simp only [this]
                      rw [if_neg (by omega), if_neg (by omega), if_pos (by omega)]
                      simp only [List.cons_append, List.nil_append]
                      refine congr (congrArg List.cons (byte_eq ?_)) (congr (congrArg List.cons (byte_eq ?_))
                        (congr (congrArg List.cons (byte_eq ?_)) rfl))
                      · rw [byte_ofNat (by omega)]; omega
                      · rw [byte_ofNat (by omega)]; omega
                      · rw [byte_ofNat (by omega)]; omega
                    · rename_i h5
                      cases t with
                      | nil => rfl
                      | cons b3 t =>
                        have l3 := byte_lt b3
                        simp only
                        split
                        · rfl
                        · rename_i h6
                          simp only [Bool.or_eq_true, decide_eq_true_eq, not_or, Nat.not_lt] at h6
                          exfalso
                          have hF0 : b0.toNat = 0xF0 → 0x90 ≤ b1.toNat := by
                            intro e; have := h2.1; rw [if_neg (by omega), if_pos e] at this; exact this
                          have hF4 : b0.toNat = 0xF4 → b1.toNat ≤ 0x8F := by
                            intro e; have := h2.2; rw [if_neg (by omega), if_pos e] at this; exact this
                          refine hd ⟨Char.ofNat (b0.toNat % 8 * 262144 + b1.toNat % 64 * 4096 + b2.toNat % 64 * 64 + b3.toNat % 64), t, ?_⟩
                          have := ofNat_toNat_char (n := b0.toNat % 8 * 262144 + b1.toNat % 64 * 4096 + b2.toNat % 64 * 64 + b3.toNat % 64) (by omega)
                          unfold bytesOf
                          simp only [this]
                          rw [if_neg (by omega), if_neg (by omega), if_neg (by omega)]
                          simp only [List.cons_append, List.nil_append]
                          refine congr (congrArg List.cons (byte_eq ?_)) (congr (congrArg List.cons (byte_eq ?_))
                            (congr (congrArg List.cons (byte_eq ?_)) (congr (congrArg List.cons (byte_eq ?_)) rfl)))
                          · rw [byte_ofNat (by omega)]; omega
                          · rw [byte_ofNat (by omega)]; omega
                          · rw [byte_ofNat (by omega)]; omega
                          · rw [byte_ofNat (by omega)]; omega

/-! ## Characters do not overlap -/

/-- The first byte of a character starts a character, the others do not. -/
theorem bytesOf_shape (c : Char) : ∃ b t, bytesOf c = b :: t ∧ runeStart b = true ∧ ∀ x ∈ t, runeStart x = false := by
  have hv := char_valid c
  rcases bytesOf_cases c with ⟨h, b, e, hb⟩ | ⟨h, h', b0, b1, e, hb, hb1⟩ | ⟨h, h', b0, b1, b2, e, hb, hb1, hb2⟩ |
    ⟨h, b0, b1, b2, b3, e, hb, hb1, hb2, hb3⟩ <;> refine ⟨_, _, e, ?_, ?_⟩
  all_goals first
    | (simp only [runeStart, hb, Bool.or_eq_true, decide_eq_true_eq]; omega)
    | skip
  · intro x hx; cases hx
  · intro x hx
    simp only [List.mem_cons, List.not_mem_nil, or_false] at hx
    subst hx
    simp only [runeStart, hb1, Bool.or_eq_false_iff, decide_eq_false_iff_not]; omega
  · intro x hx
    simp only [List.mem_cons, List.not_mem_nil, or_false] at hx
    rcases hx with rfl | rfl
    · simp only [runeStart, hb1, Bool.or_eq_false_iff, decide_eq_false_iff_not]; omega
    · simp only [runeStart, hb2, Bool.or_eq_false_iff, decide_eq_false_iff_not]; omega
  · intro x hx
    simp only [List.mem_cons, List.not_mem_nil, or_false] at hx
    rcases hx with rfl | rfl | rfl
    · simp only [runeStart, hb1, Bool.or_eq_false_iff, decide_eq_false_iff_not]; omega
    · simp only [runeStart, hb2, Bool.or_eq_false_iff, decide_eq_false_iff_not]; omega
    · simp only [runeStart, hb3, Bool.or_eq_false_iff, decide_eq_false_iff_not]; omega

/-- A sequence of bytes starts with at most one character. -/
theorem bytesOf_inj {c d : Char} {x y : Bytes} (h : bytesOf c ++ x = bytesOf d ++ y) : c = d ∧ x = y := by
  have h1 := decodeRune_bytesOf c x
  rw [h, decodeRune_bytesOf] at h1
  have : c = d := by
    have := (Prod.mk.inj h1).1
    exact (Char.toNat_inj.1 this).symm
  subst this
  exact ⟨rfl, List.append_cancel_left h⟩

@[simp] theorem utf8_nil : utf8 [] = [] := rfl
@[simp] theorem utf8_cons (c : Char) (s : Str) : utf8 (c :: s) = bytesOf c ++ utf8 s := rfl
@[simp] theorem utf8_append (a b : Str) : utf8 (a ++ b) = utf8 a ++ utf8 b := List.flatMap_append

theorem utf8_eq_nil {s : Str} : utf8 s = [] ↔ s = [] := by
  cases s with
  | nil => simp
  | cons c s => simp [bytesOf_ne_nil]

theorem utf8_inj {a b : Str} (h : utf8 a = utf8 b) : a = b := by
  induction a generalizing b with
  | nil => exact (utf8_eq_nil.1 h.symm).symm
  | cons c a ih =>
    cases b with
    | nil => exact absurd h (by simp [bytesOf_ne_nil])
    | cons d b =>
      obtain ⟨rfl, h'⟩ := bytesOf_inj h
      rw [ih h']

theorem utf8_length (s : Str) : (utf8 s).length = byteLen s := by
  induction s with
  | nil => rfl
  | cons c s ih => simp [ih, bytesOf_length, byteLen]

/-- Bytes where a character can start: nothing, or the first byte of a character. -/
def Starts (y : Bytes) : Prop := ∀ b t, y = b :: t → runeStart b = true

theorem starts_utf8 (s : Str) : Starts (utf8 s) := by
  intro b t h
  cases s with
  | nil => cases h
  | cons c s =>
    obtain ⟨b', t', e, hb, -⟩ := bytesOf_shape c
    rw [utf8_cons, e] at h
    cases h
    exact hb

/-- If a text is divided where a character can start, the parts are texts. -/
theorem utf8_split {s : Str} {x y : Bytes} (h : utf8 s = x ++ y) (hy : Starts y) :
    ∃ a b, s = a ++ b ∧ x = utf8 a ∧ y = utf8 b := by
  induction s generalizing x with
  | nil =>
    have := List.append_eq_nil_iff.1 h.symm
    exact ⟨[], [], rfl, this.1, this.2⟩
  | cons c s ih =>
    by_cases hx : x = []
    · subst hx
      exact ⟨[], c :: s, rfl, rfl, h.symm⟩
    · rw [utf8_cons] at h
      rcases List.append_eq_append_iff.1 h with ⟨z, h1, h2⟩ | ⟨z, h1, h2⟩
      · obtain ⟨a, b, rfl, h3, h4⟩ := ih h2
        exact ⟨c :: a, b, rfl, by rw [h1, h3]; rfl, h4⟩
      · -- the part y starts inside the bytes of c
        cases z with
        | nil =>
          obtain ⟨a, b, rfl, h3, h4⟩ := ih (x := []) h2.symm
          exact ⟨c :: a, b, rfl, by rw [List.append_nil] at h1; rw [utf8_cons, ← h3, List.append_nil]; exact h1.symm, h4⟩
        | cons z0 z =>
          exfalso
          obtain ⟨b, t, e, -, ht⟩ := bytesOf_shape c
          have hz : runeStart z0 = true := hy z0 (z ++ utf8 s) (by rw [h2]; rfl)
          rw [h1] at e
          cases x with
          | nil => exact hx rfl
          | cons x0 x =>
            cases e
            rw [ht z0 (by simp)] at hz
            cases hz

end Verif
