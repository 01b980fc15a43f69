import Verif.Model.JsonBytes
import Verif.Spec.JsonBytes
import Verif.Lemmas.SearchBytes
import Verif.Lemmas.JsonGrammar

/-!
# JSON on bytes
-/

namespace Verif
open Spec

/-! ## Repaired text -/

theorem fffd_toNat : (Char.ofNat 0xFFFD).toNat = 0xFFFD := by decide

theorem repairLoop_spec : ∀ n (b : Bytes), b.length ≤ n → Repairs b (repairLoop n b) := by
  intro n
  induction n with
  | zero =>
    intro b h
    have : b = [] := List.eq_nil_of_length_eq_zero (by omega)
    subst this
    exact .nil
  | succ n ih =>
    intro b h
    by_cases hb : b = []
    · subst hb; exact .nil
    · rw [repairLoop, if_neg hb]
      rcases decodeRune_cases hb with ⟨e, hx⟩ | ⟨c, x, rfl, e⟩
      · cases b with
        | nil => exact absurd rfl hb
        | cons y b =>
          rw [e]
          exact .other y hx (ih b (by simp at h; omega))
      · have := bytesOf_pos c
        rw [e]
        simp only [Char.ofNat_toNat, List.drop_left]
        exact .char c (ih x (by simp at h; omega))

theorem repair_spec (b : Bytes) : Repairs b (repair b) := repairLoop_spec _ b (Nat.le_refl _)

theorem repairs_unique {b : Bytes} {s : Str} (h : Repairs b s) : ∀ {b' : Bytes} {t : Str}, Repairs b' t → b' = b → t = s := by
  induction h with
  | nil =>
    intro b' t h' e
    cases h' with
    | nil => rfl
    | char c h' => exact absurd (List.append_eq_nil_iff.1 e).1 (bytesOf_ne_nil c)
    | other x hx h' => cases e
  | char c h ih =>
    intro b' t h' e
    cases h' with
    | nil => exact absurd (List.append_eq_nil_iff.1 e.symm).1 (bytesOf_ne_nil c)
    | char d h' =>
      obtain ⟨rfl, e'⟩ := bytesOf_inj e
      rw [ih h' e']
    | other x hx h' => exact absurd e (hx c _)
  | other x hx h ih =>
    intro b' t h' e
    cases h' with
    | nil => cases e
    | char d h' => exact absurd e.symm (hx d _)
    | other y hy h' =>
      cases e
      rw [ih h' rfl]

theorem repair_eq {b : Bytes} {s : Str} (h : Repairs b s) : repair b = s := repairs_unique h (repair_spec b) rfl

theorem repairs_utf8 (s : Str) : Repairs (utf8 s) s := by
  induction s with
  | nil => exact .nil
  | cons c s ih => exact .char c ih

theorem repair_utf8 (s : Str) : repair (utf8 s) = s := repair_eq (repairs_utf8 s)

theorem isUtf8_iff {b : Bytes} : isUtf8 b = true ↔ ∃ s, b = utf8 s := by
  unfold isUtf8
  rw [decide_eq_true_eq]
  constructor
  · intro h; exact ⟨_, h.symm⟩
  · rintro ⟨s, rfl⟩; rw [repair_utf8]

/-- As `Repairs`, with bytes that are part of no character only if `k` allows them. -/
inductive Rep (k : Bool) : Bytes → Str → Prop
  | nil : Rep k [] []
  | char (c : Char) {b : Bytes} {s : Str} (h : Rep k b s) : Rep k (bytesOf c ++ b) (c :: s)
  | other (x : UInt8) {b : Bytes} {s : Str} (hk : k = true) (hx : ∀ c r, x :: b ≠ bytesOf c ++ r) (h : Rep k b s) :
    Rep k (x :: b) (Char.ofNat 0xFFFD :: s)

theorem rep_of {b : Bytes} {s : Str} (h : Repairs b s) : Rep true b s := by
  induction h with
  | nil => exact .nil
  | char c h ih => exact .char c ih
  | other x hx h ih => exact .other x rfl hx ih

theorem rep_utf8 (s : Str) : Rep false (utf8 s) s := by
  induction s with
  | nil => exact .nil
  | cons c s ih => exact .char c ih

theorem Rep.isUtf8 {b : Bytes} {s : Str} (h : Rep false b s) : isUtf8 b = true := by
  rw [isUtf8_iff]
  refine ⟨s, ?_⟩
  induction h with
  | nil => rfl
  | char c h ih => rw [ih]; rfl
  | other x hk hx h ih => cases hk

variable {k : Bool}

theorem Rep.repairs {b : Bytes} {s : Str} (h : Rep k b s) : Repairs b s := by
  induction h with
  | nil => exact .nil
  | char c h ih => exact .char c ih
  | other x hk hx h ih => exact .other x hx ih

theorem Rep.repair {b : Bytes} {s : Str} (h : Rep k b s) : repair b = s := repair_eq h.repairs

theorem Rep.eq_nil {b : Bytes} {s : Str} (h : Rep k b s) : b = [] ↔ s = [] := by
  cases h with
  | nil => simp
  | char c h => simp [bytesOf_ne_nil]
  | other x hk hx h => simp

/-- There are at most as many characters as bytes. -/
theorem Rep.length {b : Bytes} {s : Str} (h : Rep k b s) : s.length ≤ b.length := by
  induction h with
  | nil => simp
  | char c h ih =>
    have := bytesOf_pos c
    simp only [List.length_cons, List.length_append]
    omega
  | other x hk hx h ih => simp only [List.length_cons]; omega

/-- Bytes divided where a character can start are repaired as the parts are. -/
theorem Rep.split {b : Bytes} {s : Str} (h : Rep k b s) : ∀ {x y : Bytes}, b = x ++ y → Starts y →
    ∃ s1 s2, s = s1 ++ s2 ∧ Rep k x s1 ∧ Rep k y s2 := by
  induction h with
  | nil =>
    intro x y e hy
    obtain ⟨rfl, rfl⟩ := List.append_eq_nil_iff.1 e.symm
    exact ⟨[], [], rfl, .nil, .nil⟩
  | @char c b s h ih =>
    intro x y e hy
    by_cases hx : x = []
    · subst hx
      exact ⟨[], c :: s, rfl, .nil, by rw [← show bytesOf c ++ b = y from e]; exact .char c h⟩
    · rcases List.append_eq_append_iff.1 e with ⟨z, h1, h2⟩ | ⟨z, h1, h2⟩
      · obtain ⟨s1, s2, rfl, h3, h4⟩ := ih h2 hy
        exact ⟨c :: s1, s2, rfl, by rw [h1]; exact .char c h3, h4⟩
      · cases z with
        | nil =>
          obtain ⟨s1, s2, rfl, h3, h4⟩ := ih (x := []) h2.symm hy
          have h3' := h3.eq_nil.1 rfl
          subst h3'
          rw [List.append_nil] at h1
          exact ⟨[c], s2, rfl, by rw [← h1]; simpa using Rep.char c .nil, h4⟩
        | cons z0 z =>
          exfalso
          obtain ⟨b0, t, e', -, ht⟩ := bytesOf_shape c
          have hz : runeStart z0 = true := hy z0 (z ++ b) (by rw [h2]; rfl)
          rw [h1] at e'
          cases x with
          | nil => exact hx rfl
          | cons x0 x =>
            cases e'
            rw [ht z0 (by simp)] at hz
            cases hz
  | @other x0 b s hk hx0 h ih =>
    intro x y e hy
    cases x with
    | nil => exact ⟨[], _ :: s, rfl, .nil, by rw [← show x0 :: b = y from e]; exact .other x0 hk hx0 h⟩
    | cons x1 x =>
      obtain ⟨rfl, e2⟩ := List.cons.inj e
      obtain ⟨s1, s2, rfl, h3, h4⟩ := ih e2 hy
      refine ⟨_ :: s1, s2, rfl, .other x0 hk (fun c r e' => hx0 c (r ++ y) ?_) h3, h4⟩
      rw [← List.append_assoc, ← e', e2]
      rfl

/-- A division of the text divides the bytes. -/
theorem Rep.divide {s2 : Str} : ∀ {s1 : Str} {b : Bytes}, Rep k b (s1 ++ s2) →
    ∃ x y, b = x ++ y ∧ Rep k x s1 ∧ Rep k y s2 := by
  intro s1
  induction s1 with
  | nil => intro b h; exact ⟨[], b, rfl, .nil, h⟩
  | cons c s1 ih =>
    intro b h
    rw [List.cons_append] at h
    cases h with
    | char _ h =>
      obtain ⟨x, y, rfl, h1, h2⟩ := ih h
      exact ⟨bytesOf c ++ x, y, by simp, .char c h1, h2⟩
    | other x0 hk hx h =>
      obtain ⟨x, y, rfl, h1, h2⟩ := ih h
      refine ⟨x0 :: x, y, rfl, .other x0 hk (fun c r e => hx c (r ++ y) ?_) h1, h2⟩
      rw [← List.append_assoc, ← e]; rfl

/-- The bytes of a character beyond ASCII are beyond ASCII. -/
theorem bytesOf_ge {c : Char} (h : 0x80 ≤ c.toNat) : ∀ x ∈ bytesOf c, 0x80 ≤ x.toNat := by
  rcases bytesOf_cases c with ⟨h', -⟩ | ⟨-, h', b0, b1, e, hb, hb1⟩ | ⟨-, h', b0, b1, b2, e, hb, hb1, hb2⟩ |
    ⟨-, b0, b1, b2, b3, e, hb, hb1, hb2, hb3⟩
  · omega
  all_goals
    intro x hx
    rw [e] at hx
    simp only [List.mem_cons, List.not_mem_nil, or_false] at hx
  · rcases hx with rfl | rfl <;> omega
  · rcases hx with rfl | rfl | rfl <;> omega
  · rcases hx with rfl | rfl | rfl | rfl <;> omega

/-- The bytes at the beginning: an ASCII character, or a group of bytes that is none. -/
theorem Rep.cases {b : Bytes} {s : Str} (h : Rep k b s) :
    (b = [] ∧ s = []) ∨
    (∃ x b' s', b = x :: b' ∧ s = Char.ofNat x.toNat :: s' ∧ x.toNat < 0x80 ∧ Rep k b' s') ∨
    (∃ w b' c s', b = w ++ b' ∧ s = c :: s' ∧ w ≠ [] ∧ (∀ x ∈ w, 0x80 ≤ x.toNat) ∧ 0x80 ≤ c.toNat ∧ Rep k b' s') := by
  cases h with
  | nil => exact .inl ⟨rfl, rfl⟩
  | @char c b s h =>
    rcases Nat.lt_or_ge c.toNat 0x80 with hc | hc
    · refine .inr (.inl ⟨UInt8.ofNat c.toNat, b, s, ?_, ?_, ?_, h⟩)
      · unfold bytesOf; simp only [hc, if_true]; rfl
      · rw [byte_ofNat (by omega), Char.ofNat_toNat]
      · rw [byte_ofNat (by omega)]; exact hc
    · exact .inr (.inr ⟨bytesOf c, b, c, s, rfl, rfl, bytesOf_ne_nil c, bytesOf_ge hc, hc, h⟩)
  | @other x b s hk hx h =>
    refine .inr (.inr ⟨[x], b, _, s, rfl, rfl, by simp, ?_, by rw [fffd_toNat]; omega, h⟩)
    intro y hy
    rw [List.mem_singleton] at hy
    subst hy
    exact other_ge hx

/-! ## Bytes seen as characters -/

theorem char_byte (x : UInt8) : (Char.ofNat x.toNat).toNat = x.toNat := ofNat_toNat_char (by have := byte_lt x; omega)

theorem unlatin_latin (b : Bytes) : unlatin (latin b) = b := by
  unfold unlatin latin
  rw [List.map_map]
  induction b with
  | nil => rfl
  | cons x b ih =>
    rw [List.map_cons, ih]
    congr 1
    simp only [Function.comp_apply, char_byte, UInt8.ofNat_toNat]

theorem latin_append (a b : Bytes) : latin (a ++ b) = latin a ++ latin b := List.map_append

theorem latin_cons (x : UInt8) (b : Bytes) : latin (x :: b) = Char.ofNat x.toNat :: latin b := rfl

theorem latin_div {b : Bytes} {s t : Str} (h : latin b = s ++ t) : ∃ x y, b = x ++ y ∧ latin x = s ∧ latin y = t := by
  obtain ⟨x, y, e, h1, h2⟩ := List.map_eq_append_iff.1 h
  exact ⟨x, y, e, h1, h2⟩

/-- A byte is the one of an ASCII character. -/
theorem byte_of_char {x : UInt8} {c : Char} (h : Char.ofNat x.toNat = c) : x = UInt8.ofNat c.toNat := by
  rw [← h, char_byte, UInt8.ofNat_toNat]

/-- What a machine sees that looks at one byte at a time, and the characters of the text. -/
def SeenAs (k : Bool) (t s : Str) : Prop := ∃ b, latin b = t ∧ Rep k b s

theorem alike_of {b : Bytes} {s : Str} (h : Rep k b s) : SeenAs k (latin b) s := ⟨b, rfl, h⟩

theorem SeenAs.back {t s : Str} (h : SeenAs k t s) : Rep k (unlatin t) s := by
  obtain ⟨b, rfl, h⟩ := h
  rwa [unlatin_latin]

theorem SeenAs.cases {t s : Str} (h : SeenAs k t s) :
    (t = [] ∧ s = []) ∨ (∃ c t' s', t = c :: t' ∧ s = c :: s' ∧ c.toNat < 0x80 ∧ SeenAs k t' s') ∨
    (∃ c t' c' s', t = c :: t' ∧ s = c' :: s' ∧ 0x80 ≤ c.toNat ∧ 0x80 ≤ c'.toNat) := by
  obtain ⟨b, rfl, h⟩ := h
  rcases h.cases with ⟨rfl, rfl⟩ | ⟨x, b', s', rfl, rfl, hx, h⟩ | ⟨w, b', c, s', rfl, rfl, hw, hx, hc, h⟩
  · exact .inl ⟨rfl, rfl⟩
  · exact .inr (.inl ⟨_, latin b', s', rfl, rfl, by rw [char_byte]; exact hx, alike_of h⟩)
  · cases w with
    | nil => exact absurd rfl hw
    | cons x w => exact .inr (.inr ⟨_, _, c, s', rfl, rfl, by rw [char_byte]; exact hx x (by simp), hc⟩)

/-! ## Blanks, literals and numbers -/

/-- A condition that holds of ASCII characters only. -/
theorem alike_while {p : Char → Bool} (hp : ∀ c : Char, 0x80 ≤ c.toNat → p c = false) :
    ∀ {t s : Str}, SeenAs k t s → t.takeWhile p = s.takeWhile p ∧ SeenAs k (t.dropWhile p) (s.dropWhile p) := by
  intro t
  induction t with
  | nil =>
    intro s h
    rcases h.cases with ⟨-, rfl⟩ | ⟨c, t', s', e, -⟩ | ⟨c, t', c', s', e, -⟩
    · exact ⟨rfl, h⟩
    · cases e
    · cases e
  | cons x t ih =>
    intro s h
    rcases h.cases with ⟨e, -⟩ | ⟨c, t', s', e, rfl, hc, h'⟩ | ⟨c, t', c', s', e, rfl, hc, hc'⟩
    · cases e
    · cases e
      rw [List.takeWhile_cons, List.takeWhile_cons, List.dropWhile_cons, List.dropWhile_cons]
      obtain ⟨h1, h2⟩ := ih h'
      cases p x with
      | true => exact ⟨by simp [h1], by simpa using h2⟩
      | false => exact ⟨by simp, by simpa using h⟩
    · cases e
      rw [List.takeWhile_cons, List.takeWhile_cons, List.dropWhile_cons, List.dropWhile_cons, hp x hc, hp c' hc']
      exact ⟨by simp, by simpa using h⟩

theorem space_ascii (c : Char) (h : 0x80 ≤ c.toNat) : isJsonSpace c = false := by
  cases e : isJsonSpace c with
  | false => rfl
  | true =>
    rcases isJsonSpace_iff.1 e with rfl | rfl | rfl | rfl <;> exact absurd h (by decide)

theorem digit_ascii (c : Char) (h : 0x80 ≤ c.toNat) : isDigit c = false := by
  cases e : isDigit c with
  | false => rfl
  | true =>
    simp only [isDigit, Bool.and_eq_true, decide_eq_true_eq] at e
    have : '9'.toNat = 57 := by decide
    omega

theorem latin_skip (b : Bytes) : latin (skipSpaceB b) = skipJsonSpace (latin b) := by
  unfold latin skipSpaceB skipJsonSpace
  rw [List.dropWhile_map]
  rfl

theorem repairs_skip {b : Bytes} {s : Str} (h : Rep k b s) : Rep k (skipSpaceB b) (skipJsonSpace s) := by
  have := (alike_while space_ascii (alike_of h)).2.back
  rw [show List.dropWhile isJsonSpace (latin b) = skipJsonSpace (latin b) from rfl, ← latin_skip, unlatin_latin] at this
  exact this

/-- Two results of scanning: both failed, or the same was found and the rests are alike. -/
def SameRest (k : Bool) {α : Type} : Option (α × Str) → Option (α × Str) → Prop
  | none, none => True
  | some (a, t), some (b, s) => a = b ∧ SeenAs k t s
  | _, _ => False

theorem alike_cut {p : Str} (hp : ∀ c ∈ p, c.toNat < 0x80) : ∀ {t s : Str}, SeenAs k t s →
    (cutPrefix p t = none ∧ cutPrefix p s = none) ∨ ∃ t' s', cutPrefix p t = some t' ∧ cutPrefix p s = some s' ∧ SeenAs k t' s' := by
  induction p with
  | nil => intro t s h; exact .inr ⟨t, s, by simp [cutPrefix], by simp [cutPrefix], h⟩
  | cons a p ih =>
    intro t s h
    have ha := hp a (by simp)
    rcases h.cases with ⟨rfl, rfl⟩ | ⟨c, t', s', rfl, rfl, hc, h'⟩ | ⟨c, t', c', s', rfl, rfl, hc, hc'⟩
    · exact .inl ⟨by simp [cutPrefix], by simp [cutPrefix]⟩
    · by_cases e : a = c
      · subst e
        rcases ih (fun x hx => hp x (by simp [hx])) h' with ⟨h1, h2⟩ | ⟨t'', s'', h1, h2, h3⟩
        · exact .inl ⟨by simpa [cutPrefix] using h1, by simpa [cutPrefix] using h2⟩
        · exact .inr ⟨t'', s'', by simpa [cutPrefix] using h1, by simpa [cutPrefix] using h2, h3⟩
      · exact .inl ⟨by simp [cutPrefix, e], by simp [cutPrefix, e]⟩
    · have e1 : c ≠ a := by rintro rfl; omega
      have e2 : c' ≠ a := by rintro rfl; omega
      exact .inl ⟨by simp [cutPrefix, e1.symm], by simp [cutPrefix, e2.symm]⟩

end Verif
