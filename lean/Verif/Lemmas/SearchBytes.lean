import Verif.Spec.SearchBytes
import Verif.Spec.SameDoc
import Verif.Lemmas.BytesRead
import Verif.Lemmas.Sort

/-!
# Files of any bytes read as text
-/

namespace Verif
open Spec

/-! ## What bytes read as -/

theorem readsAs_exists (b : Bytes) : ∃ s, ReadsAs b s := by
  have key : ∀ n (b : Bytes), b.length ≤ n → ∃ s, ReadsAs b s := by
    intro n
    induction n with
    | zero =>
      intro b h
      have : b = [] := List.eq_nil_of_length_eq_zero (by omega)
      subst this
      exact ⟨_, .nil⟩
    | succ n ih =>
      intro b h
      by_cases hb : b = []
      · subst hb; exact ⟨_, .nil⟩
      · rcases decodeRune_cases hb with ⟨-, hx⟩ | ⟨c, x, rfl, -⟩
        · cases b with
          | nil => exact absurd rfl hb
          | cons y b =>
            obtain ⟨s, hs⟩ := ih b (by simp at h; omega)
            exact ⟨_, .other y hx hs⟩
        · have := bytesOf_pos c
          obtain ⟨s, hs⟩ := ih x (by simp at h; omega)
          exact ⟨_, .char c hs⟩
  exact key _ b (Nat.le_refl _)

theorem readsAs_unique {b : Bytes} {s : Str} (h : ReadsAs b s) : ∀ {b' : Bytes} {t : Str}, ReadsAs b' t → b' = b → t = s := by
  induction h with
  | nil =>
    intro b' t h' e
    cases h' with
    | nil => rfl
    | char c h' => exact absurd (List.append_eq_nil_iff.1 e).1 (bytesOf_ne_nil c)
    | other x hx h' => cases e
  | char c h ih =>
    intro b' t h' e
    cases h' with
    | nil => exact absurd (List.append_eq_nil_iff.1 e.symm).1 (bytesOf_ne_nil c)
    | char d h' =>
      obtain ⟨rfl, e'⟩ := bytesOf_inj e
      rw [ih h' e']
    | other x hx h' => exact absurd e (hx c _)
  | other x hx h ih =>
    intro b' t h' e
    cases h' with
    | nil => cases e
    | char d h' => exact absurd e.symm (hx d _)
    | other y hy h' =>
      cases e
      rw [ih h' rfl]

theorem readsAs_utf8 (s : Str) : ReadsAs (utf8 s) s := by
  induction s with
  | nil => exact .nil
  | cons c s ih => exact .char c ih

theorem Spec.ReadsAs.length {b : Bytes} {s : Str} (h : ReadsAs b s) : b.length = byteLen s := by
  induction h with
  | nil => rfl
  | char c h ih => simp [byteLen, bytesOf_length, ih]
  | other x hx h ih =>
    have : runeLen '\x00' = 1 := by decide
    simp [byteLen, ih, this]
    omega

theorem Spec.ReadsAs.eq_nil {b : Bytes} {s : Str} (h : ReadsAs b s) : b = [] ↔ s = [] := by
  cases h with
  | nil => simp
  | char c h => simp [bytesOf_ne_nil]
  | other x hx h => simp

/-- An ASCII character is its byte. -/
theorem ascii_byte {x : UInt8} (h : x.toNat < 0x80) : bytesOf (Char.ofNat x.toNat) = [x] :=
  bytesOf_ascii (ofNat_toNat_char (by omega)) h

theorem other_ge {x : UInt8} {b : Bytes} (hx : ∀ c r, x :: b ≠ bytesOf c ++ r) : 0x80 ≤ x.toNat := by
  refine Nat.le_of_not_lt fun h => hx (Char.ofNat x.toNat) b ?_
  rw [ascii_byte h]
  rfl

/-- Bytes divided where a character can start read as the parts do. -/
theorem Spec.ReadsAs.split {b : Bytes} {s : Str} (h : ReadsAs b s) : ∀ {x y : Bytes}, b = x ++ y → Starts y →
    ∃ s1 s2, s = s1 ++ s2 ∧ ReadsAs x s1 ∧ ReadsAs y s2 := by
  induction h with
  | nil =>
    intro x y e hy
    obtain ⟨rfl, rfl⟩ := List.append_eq_nil_iff.1 e.symm
    exact ⟨[], [], rfl, .nil, .nil⟩
  | @char c b s h ih =>
    intro x y e hy
    by_cases hx : x = []
    · subst hx
      exact ⟨[], c :: s, rfl, .nil, by rw [← show bytesOf c ++ b = y from e]; exact .char c h⟩
    · rcases List.append_eq_append_iff.1 e with ⟨z, h1, h2⟩ | ⟨z, h1, h2⟩
      · obtain ⟨s1, s2, rfl, h3, h4⟩ := ih h2 hy
        exact ⟨c :: s1, s2, rfl, by rw [h1]; exact .char c h3, h4⟩
      · cases z with
        | nil =>
          obtain ⟨s1, s2, rfl, h3, h4⟩ := ih (x := []) h2.symm hy
          have h3' := h3.eq_nil.1 rfl
          subst h3'
          rw [List.append_nil] at h1
          exact ⟨[c], s2, rfl, by rw [← h1]; simpa using ReadsAs.char c .nil, h4⟩
        | cons z0 z =>
          exfalso
          obtain ⟨b0, t, e', -, ht⟩ := bytesOf_shape c
          have hz : runeStart z0 = true := hy z0 (z ++ b) (by rw [h2]; rfl)
          rw [h1] at e'
          cases x with
          | nil => exact hx rfl
          | cons x0 x =>
            cases e'
            rw [ht z0 (by simp)] at hz
            cases hz
  | @other x0 b s hx0 h ih =>
    intro x y e hy
    cases x with
    | nil => exact ⟨[], '\x00' :: s, rfl, .nil, by rw [← show x0 :: b = y from e]; exact .other x0 hx0 h⟩
    | cons x1 x =>
      obtain ⟨rfl, e2⟩ := List.cons.inj e
      obtain ⟨s1, s2, rfl, h3, h4⟩ := ih e2 hy
      refine ⟨'\x00' :: s1, s2, rfl, .other x0 (fun c r e' => hx0 c (r ++ y) ?_) h3, h4⟩
      rw [← List.append_assoc, ← e', e2]
      rfl

/-- Bytes put together where a character can start read as the parts do. -/
theorem Spec.ReadsAs.append {x y : Bytes} {s t : Str} (h : ReadsAs x s) (h' : ReadsAs y t) (hy : Starts y) :
    ReadsAs (x ++ y) (s ++ t) := by
  obtain ⟨u, hu⟩ := readsAs_exists (x ++ y)
  obtain ⟨s1, s2, rfl, h1, h2⟩ := hu.split rfl hy
  rw [readsAs_unique h h1 rfl, readsAs_unique h' h2 rfl] at hu
  exact hu

/-! ## Looking for ASCII text -/

/-- ASCII text without NUL. -/
def PlainAscii (p : Str) : Prop := ∀ c ∈ p, c.toNat < 0x80 ∧ c ≠ '\x00'

theorem cutPrefix_reads {p : Str} (hp : PlainAscii p) : ∀ {b : Bytes} {s : Str}, ReadsAs b s →
    (cutPrefixB (utf8 p) b = none ∧ cutPrefix p s = none) ∨
    ∃ r t, cutPrefixB (utf8 p) b = some r ∧ cutPrefix p s = some t ∧ ReadsAs r t := by
  induction p with
  | nil => intro b s h; exact .inr ⟨b, s, rfl, rfl, h⟩
  | cons c p ih =>
    intro b s h
    obtain ⟨hc, hc0⟩ := hp c (by simp)
    have hk : (UInt8.ofNat c.toNat).toNat = c.toNat := byte_ofNat (by omega)
    have e : utf8 (c :: p) = UInt8.ofNat c.toNat :: utf8 p := by
      rw [utf8_cons, bytesOf_ascii (c := c) (b := UInt8.ofNat c.toNat) hk.symm (by omega)]
      rfl
    rw [e]
    cases h with
    | nil => exact .inl ⟨rfl, rfl⟩
    | @char d b s h =>
      by_cases hd : d = c
      · subst hd
        rw [bytesOf_ascii (c := d) (b := UInt8.ofNat d.toNat) hk.symm (by omega)]
        simp only [List.singleton_append, cutPrefixB, cutPrefix, if_true]
        exact ih (fun x hx => hp x (by simp [hx])) h
      · left
        have hne : c ≠ d := fun e => hd e.symm
        have hn : UInt8.ofNat c.toNat ∉ bytesOf d :=
          bytesOf_other (fun e => hd (Char.toNat_inj.1 (e.trans hk))) (by omega)
        obtain ⟨b0, t, e', -, -⟩ := bytesOf_shape d
        rw [e'] at hn ⊢
        have : UInt8.ofNat c.toNat ≠ b0 := fun e => hn (by simp [e])
        simp [cutPrefixB, cutPrefix, this, hne]
    | @other x b s hx h =>
      left
      have h1 := other_ge hx
      have : UInt8.ofNat c.toNat ≠ x := fun e => by rw [e] at hk; omega
      simp [cutPrefixB, cutPrefix, this, hc0]

theorem cut_reads {sep : Str} (hs : PlainAscii sep) (hn : sep ≠ []) {b : Bytes} {s : Str} (h : ReadsAs b s) :
    (cutB (utf8 sep) b = none ∧ cut sep s = none) ∨
    ∃ a r a' r', cutB (utf8 sep) b = some (a, r) ∧ cut sep s = some (a', r') ∧ ReadsAs a a' ∧ ReadsAs r r' := by
  have hn' : utf8 sep ≠ [] := fun e => hn (utf8_eq_nil.1 e)
  induction h with
  | nil => left; simp [cutB, cut, hn, hn']
  | @char c b s h ih =>
    rcases cutPrefix_reads hs (ReadsAs.char c h) with ⟨h1, h2⟩ | ⟨r, t, h1, h2, h3⟩
    · obtain ⟨b0, t, e, -, ht⟩ := bytesOf_shape c
      rw [e, List.cons_append] at h1
      have e1 : cutB (utf8 sep) (bytesOf c ++ b) = (cutB (utf8 sep) b).map fun (a, r) => (bytesOf c ++ a, r) := by
        rw [e, List.cons_append, cutB, h1]
        simp only
        rw [cutB_inside (starts_utf8 sep) hn' ht, Option.map_map]
        rfl
      rw [e1]
      simp only [cut, h2]
      rcases ih with ⟨h3, h4⟩ | ⟨a, r, a', r', h3, h4, h5, h6⟩
      · left; rw [h3, h4]; exact ⟨rfl, rfl⟩
      · right; rw [h3, h4]; exact ⟨_, _, _, _, rfl, rfl, .char c h5, h6⟩
    · right
      obtain ⟨b0, t', e, -, -⟩ := bytesOf_shape c
      rw [e, List.cons_append] at h1 ⊢
      exact ⟨[], r, [], t, by rw [cutB, h1], by simp [cut, h2], .nil, h3⟩
  | @other x b s hx h ih =>
    rcases cutPrefix_reads hs (ReadsAs.other x hx h) with ⟨h1, h2⟩ | ⟨r, t, h1, h2, h3⟩
    · rw [cutB, h1]
      simp only [cut, h2]
      rcases ih with ⟨h3, h4⟩ | ⟨a, r, a', r', h3, h4, h5, h6⟩
      · left; rw [h3, h4]; exact ⟨rfl, rfl⟩
      · right
        rw [h3, h4]
        refine ⟨_, _, _, _, rfl, rfl, .other x (fun c q e => ?_) h5, h6⟩
        refine hx c (q ++ utf8 sep ++ r) ?_
        rw [cutB_eq h3]
        calc x :: (a ++ utf8 sep ++ r) = (x :: a) ++ (utf8 sep ++ r) := by simp
          _ = _ := by rw [e]; simp
    · right
      exact ⟨[], r, [], t, by rw [cutB, h1], by simp [cut, h2], .nil, h3⟩

/-! ## Lines -/

theorem splitByte_head {c : UInt8} {s w : Bytes} {ws : List Bytes} (h : splitByte c s = w :: ws) : ∃ r, s = w ++ r := by
  induction s generalizing w ws with
  | nil => cases h; exact ⟨[], rfl⟩
  | cons b s ih =>
    unfold splitByte at h
    split at h
    · cases h; exact ⟨_, rfl⟩
    · split at h
      · cases h; exact ⟨s, rfl⟩
      · rename_i e
        cases h
        obtain ⟨r, hr⟩ := ih e
        exact ⟨r, by rw [hr]; rfl⟩

theorem split_reads {b : Bytes} {s : Str} (h : ReadsAs b s) : Pointwise ReadsAs (splitByte 10 b) (splitChar '\n' s) := by
  induction h with
  | nil => exact .cons .nil .nil
  | @char c b s h ih =>
    by_cases hc : c = '\n'
    · subst hc
      have e : bytesOf '\n' = [10] := by decide
      rw [e]
      simp only [List.singleton_append, splitByte, splitChar, if_true]
      exact .cons .nil ih
    · have hn : (10 : UInt8) ∉ bytesOf c := bytesOf_other (fun e => hc (Char.toNat_inj.1 (e.trans (by decide)))) (by decide)
      generalize e1 : splitByte 10 b = l1 at ih
      generalize e2 : splitChar '\n' s = l2 at ih
      cases ih with
      | nil => exact absurd e1 (splitByte_ne_nil 10 b)
      | @cons w w' l m h1 h2 =>
        rw [splitByte_before hn e1, splitChar, if_neg hc, e2]
        exact .cons (.char c h1) h2
  | @other x b s hx h ih =>
    have h1 := other_ge hx
    have hne : x ≠ 10 := fun e => by rw [e] at h1; exact absurd h1 (by decide)
    generalize e1 : splitByte 10 b = l1 at ih
    generalize e2 : splitChar '\n' s = l2 at ih
    cases ih with
    | nil => exact absurd e1 (splitByte_ne_nil 10 b)
    | @cons w w' l m h1 h2 =>
      rw [splitByte, if_neg hne, e1, splitChar, if_neg (by decide), e2]
      refine .cons (.other x (fun c r e => ?_) h1) h2
      obtain ⟨r', hr⟩ := splitByte_head e1
      refine hx c (r ++ r') ?_
      rw [hr, ← List.append_assoc, ← e]
      rfl

theorem pointwise_getLast {α β : Type} {R : α → β → Prop} {l : List α} {m : List β} (h : Pointwise R l m) :
    (l.getLast? = none ∧ m.getLast? = none) ∨ ∃ a b, l.getLast? = some a ∧ m.getLast? = some b ∧ R a b := by
  induction h with
  | nil => exact .inl ⟨rfl, rfl⟩
  | @cons a b l m h1 h2 ih =>
    right
    rcases ih with ⟨h3, h4⟩ | ⟨a', b', h3, h4, h5⟩
    · rw [List.getLast?_eq_none_iff] at h3 h4
      subst h3 h4
      exact ⟨a, b, rfl, rfl, h1⟩
    · exact ⟨a', b', by rw [List.getLast?_cons, h3]; rfl, by rw [List.getLast?_cons, h4]; rfl, h5⟩

theorem pointwise_dropLast {α β : Type} {R : α → β → Prop} {l : List α} {m : List β} (h : Pointwise R l m) :
    Pointwise R l.dropLast m.dropLast := by
  induction h with
  | nil => exact .nil
  | @cons a b l m h1 h2 ih =>
    cases h2 with
    | nil => exact .nil
    | cons h3 h4 => exact .cons h1 ih

theorem pointwise_takeWhile {α β : Type} {R : α → β → Prop} {p : α → Bool} {q : β → Bool} (hpq : ∀ a b, R a b → p a = q b)
    {l : List α} {m : List β} (h : Pointwise R l m) : Pointwise R (l.takeWhile p) (m.takeWhile q) := by
  induction h with
  | nil => exact .nil
  | @cons a b l m h1 h2 ih =>
    rw [List.takeWhile_cons, List.takeWhile_cons, hpq a b h1]
    split
    · exact .cons h1 ih
    · exact .nil

theorem pointwise_map_both {α β γ δ : Type} {R : α → β → Prop} {S : γ → δ → Prop} {f : α → γ} {g : β → δ}
    (hf : ∀ a b, R a b → S (f a) (g b)) {l : List α} {m : List β} (h : Pointwise R l m) : Pointwise S (l.map f) (m.map g) := by
  induction h with
  | nil => exact .nil
  | cons h1 _ ih => exact .cons (hf _ _ h1) ih

theorem rawLines_reads {b : Bytes} {s : Str} (h : ReadsAs b s) : Pointwise ReadsAs (rawLinesB b) (rawLines s) := by
  have hs := split_reads h
  unfold rawLinesB rawLines
  simp only
  rcases pointwise_getLast hs with ⟨h1, h2⟩ | ⟨a, a', h1, h2, h3⟩
  · rw [h1, h2, if_neg (by simp), if_neg (by simp)]; exact hs
  · by_cases ha : a = []
    · have ha' := h3.eq_nil.1 ha
      rw [h1, h2, ha, ha', if_pos rfl, if_pos rfl]
      exact pointwise_dropLast hs
    · have ha' : a' ≠ [] := fun e => ha (h3.eq_nil.2 e)
      rw [h1, h2, if_neg (by simpa using ha), if_neg (by simpa using ha')]
      exact hs

theorem starts_cr (y : Bytes) : Starts (13 :: y) := by
  intro b t e
  cases e
  decide

theorem dropCR_reads {b : Bytes} {s : Str} (h : ReadsAs b s) : ReadsAs (dropCRB b) (dropCR s) := by
  by_cases hb : ∃ t, b = t ++ [13]
  · obtain ⟨t, rfl⟩ := hb
    obtain ⟨s1, s2, rfl, h1, h2⟩ := h.split rfl (starts_cr [])
    have : s2 = ['\r'] := readsAs_unique (readsAs_utf8 ['\r']) h2 (by decide)
    subst this
    have e1 : dropCRB (t ++ [13]) = t := by simp [dropCRB]
    rw [e1, dropCR_concat, if_pos rfl]
    exact h1
  · rw [dropCRB_of_last_ne (fun t e => hb ⟨t, e⟩)]
    rcases List.eq_nil_or_concat s with rfl | ⟨s, c, rfl⟩
    · exact h
    · rw [List.concat_eq_append] at h ⊢
      rw [dropCR_concat]
      split
      · rename_i hc
        subst hc
        exfalso
        apply hb
        obtain ⟨s', hs⟩ : ∃ s', s ++ ['\r'] = s' := ⟨_, rfl⟩
        rw [hs] at h
        clear hb
        induction h generalizing s with
        | nil => simp at hs
        | @char d b s' h ih =>
          cases s with
          | nil =>
            simp only [List.nil_append, List.cons.injEq] at hs
            obtain ⟨rfl, rfl⟩ := hs
            have := h.eq_nil.2 rfl
            subst this
            exact ⟨[], by decide⟩
          | cons s0 s =>
            obtain ⟨-, hs⟩ := List.cons.inj hs
            obtain ⟨t, rfl⟩ := ih s hs
            exact ⟨bytesOf d ++ t, by simp⟩
        | @other x b s' hx h ih =>
          cases s with
          | nil =>
            simp only [List.nil_append, List.cons.injEq] at hs
            exact absurd hs.1 (by decide)
          | cons s0 s =>
            obtain ⟨-, hs⟩ := List.cons.inj hs
            obtain ⟨t, rfl⟩ := ih s hs
            exact ⟨x :: t, by simp⟩
      · exact h

theorem scannedLines_reads {b : Bytes} {s : Str} (h : ReadsAs b s) : Pointwise ReadsAs (scannedLinesB b) (scannedLines s) :=
  pointwise_map_both (fun _ _ h => dropCR_reads h)
    (pointwise_takeWhile (fun _ _ h => by rw [h.length]) (rawLines_reads h))

/-! ## White space -/

theorem trimLeft_reads (n : Nat) : ∀ {b : Bytes} {s : Str}, ReadsAs b s → b.length ≤ n →
    ReadsAs (trimLeftLoop isSpaceRune n b) (trimLeft isSpace s) := by
  induction n with
  | zero =>
    intro b s h hn
    have hb : b = [] := List.eq_nil_of_length_eq_zero (by omega)
    have hs := h.eq_nil.1 hb
    subst hb hs
    exact .nil
  | succ n ih =>
    intro b s h hn
    cases h with
    | nil => exact .nil
    | @char c b s h =>
      have hp := bytesOf_pos c
      rw [List.length_append] at hn
      unfold trimLeftLoop
      rw [if_neg (by simp [bytesOf_ne_nil]), decodeRune_bytesOf]
      simp only [List.drop_left, trimLeft, List.dropWhile_cons]
      show ReadsAs (if isSpace c = true then _ else _) _
      split
      · exact ih h (by omega)
      · exact .char c h
    | @other x b s hx h =>
      rcases decodeRune_cases (s := x :: b) (by simp) with ⟨h1, -⟩ | ⟨c, r, h1, -⟩
      · unfold trimLeftLoop
        have e1 : isSpaceRune 0xFFFD = false := by decide
        have e2 : isSpace '\x00' = false := by decide
        simp only [h1, runeError, e1, reduceCtorEq, if_false, Bool.false_eq_true, trimLeft, List.dropWhile_cons, e2]
        exact .other x hx h
      · exact absurd h1 (hx c r)

/-- If no character ends the bytes, what they read as ends with the replacement. -/
theorem readsAs_last {b : Bytes} {s : Str} (h : ReadsAs b s) (hb : b ≠ []) (hl : ∀ c x, b ≠ x ++ bytesOf c) :
    ∃ t, s = t ++ ['\x00'] := by
  induction h with
  | nil => exact absurd rfl hb
  | @char c b s h ih =>
    by_cases hb' : b = []
    · subst hb'; exact absurd (by simp) (hl c [])
    · obtain ⟨t, rfl⟩ := ih hb' fun d x e => hl d (bytesOf c ++ x) (by rw [e]; simp)
      exact ⟨c :: t, rfl⟩
  | @other x b s hx h ih =>
    by_cases hb' : b = []
    · subst hb'
      have hs := h.eq_nil.1 rfl
      subst hs
      exact ⟨[], rfl⟩
    · obtain ⟨t, rfl⟩ := ih hb' fun d y e => hl d (x :: y) (by rw [e]; simp)
      exact ⟨'\x00' :: t, rfl⟩

theorem starts_bytesOf (c : Char) : Starts (bytesOf c) := by
  have := starts_utf8 [c]
  simpa using this

theorem trimRight_reads (n : Nat) : ∀ {b : Bytes} {s : Str}, ReadsAs b s → b.length ≤ n →
    ReadsAs (trimRightLoop isSpaceRune n b) (trimRight isSpace s) := by
  induction n with
  | zero =>
    intro b s h hn
    have hb : b = [] := List.eq_nil_of_length_eq_zero (by omega)
    have hs := h.eq_nil.1 hb
    subst hb hs
    exact .nil
  | succ n ih =>
    intro b s h hn
    unfold trimRightLoop
    by_cases hb : b = []
    · have hs := h.eq_nil.1 hb
      subst hb hs
      exact .nil
    · rw [if_neg hb]
      rcases decodeLastRune_cases hb with ⟨h1, h2⟩ | ⟨c, x, rfl, h1⟩
      · obtain ⟨t, rfl⟩ := readsAs_last h hb h2
        have e1 : isSpaceRune 0xFFFD = false := by decide
        have e2 : isSpace '\x00' = false := by decide
        simp only [h1, runeError, e1, Bool.false_eq_true, if_false, trimRight_snoc, e2]
        exact h
      · obtain ⟨s1, s2, rfl, h3, h4⟩ := h.split rfl (starts_bytesOf c)
        have : s2 = [c] := readsAs_unique (readsAs_utf8 [c]) h4 (by simp)
        subst this
        have hp := bytesOf_pos c
        rw [List.length_append] at hn
        rw [h1, trimRight_snoc]
        show ReadsAs (if isSpace c = true then _ else _) _
        split
        · rw [List.length_append, Nat.add_sub_cancel, List.take_left']
          · exact ih h3 (by omega)
          · rfl
        · exact h

theorem trimSpace_reads {b : Bytes} {s : Str} (h : ReadsAs b s) : ReadsAs (trimSpaceB b) (trimSpace s) :=
  trimRight_reads _ (trimLeft_reads _ h (Nat.le_refl _)) (Nat.le_refl _)

/-! ## The search -/

theorem stripTrash_reads (n : Nat) : ∀ {b : Bytes} {s : Str}, ReadsAs b s → b.length ≤ n →
    stripTrashLoop n b = utf8 (stripTrash s) := by
  induction n with
  | zero =>
    intro b s h hn
    have hb : b = [] := List.eq_nil_of_length_eq_zero (by omega)
    have hs := h.eq_nil.1 hb
    subst hb hs
    rfl
  | succ n ih =>
    intro b s h hn
    cases h with
    | nil => rfl
    | @char c b s h =>
      have hp := bytesOf_pos c
      rw [List.length_append] at hn
      unfold stripTrashLoop
      rw [if_neg (by simp [bytesOf_ne_nil]), decodeRune_bytesOf]
      simp only [List.drop_left, List.take_left, Char.ofNat_toNat]
      rw [ih h (by omega)]
      unfold stripTrash
      rw [List.filter_cons]
      split <;> simp
    | @other x b s hx h =>
      rw [List.length_cons] at hn
      rcases decodeRune_cases (s := x :: b) (by simp) with ⟨h1, -⟩ | ⟨c, r, h1, -⟩
      · unfold stripTrashLoop
        have e1 : kept (Char.ofNat 0xFFFD) = false := by decide
        have e2 : kept '\x00' = false := by decide
        simp only [h1, runeError, e1, reduceCtorEq, if_false, Bool.false_eq_true, List.nil_append, List.drop_succ_cons,
          List.drop_zero, stripTrash, List.filter_cons, e2]
        exact ih h (by omega)
      · exact absurd h1 (hx c r)

theorem stripTrashB_reads {b : Bytes} {s : Str} (h : ReadsAs b s) : stripTrashB b = utf8 (stripTrash s) :=
  stripTrash_reads _ h (Nat.le_refl _)

theorem plain_tag : PlainAscii shortTag := by unfold PlainAscii; decide
theorem plain_end : PlainAscii g!"*/" := by unfold PlainAscii; decide

theorem searchLine_reads {b : Bytes} {s : Str} (h : ReadsAs b s) : searchLineB b = (searchLine s).map utf8 := by
  unfold searchLineB searchLine
  rcases cut_reads plain_tag (by decide) h with ⟨h1, h2⟩ | ⟨a, r, a', r', h1, h2, h3, h4⟩
  · rw [h1, h2]; rfl
  · rw [h1, h2]
    simp only
    rw [stripTrashB_reads h3, utf8_length]
    split
    · rfl
    · rcases cut_reads plain_end (by decide) h4 with ⟨h5, h6⟩ | ⟨x, y, x', y', h5, h6, h7, -⟩
      · rw [h5, h6]
        simp only [Option.map_some]
        rw [stripTrashB_reads (trimSpace_reads h4)]
      · rw [h5, h6]
        simp only [Option.map_some]
        rw [stripTrashB_reads (trimSpace_reads h7)]

theorem mapInsert_fst (k : Str) (m : List (Str × Nat)) :
    (mapInsert k 1 m).map (·.1) = if k ∈ m.map (·.1) then m.map (·.1) else m.map (·.1) ++ [k] := by
  induction m with
  | nil => simp [mapInsert]
  | cons e m ih =>
    obtain ⟨k', v⟩ := e
    unfold mapInsert
    by_cases h : k' = k
    · simp [h]
    · rw [if_neg h, List.map_cons, ih]
      have : k ≠ k' := fun e => h e.symm
      simp only [List.map_cons, List.mem_cons, this, false_or]
      split <;> simp

theorem addLines_reads {l : List Bytes} {m : List Str} (h : Pointwise ReadsAs l m) : ∀ (k : List (Str × Nat)),
    l.foldl addLineB (k.map fun e => utf8 e.1) = (m.foldl addLine k).map fun e => utf8 e.1 := by
  induction h with
  | nil => intro k; rfl
  | @cons b s l m h1 h2 ih =>
    intro k
    rw [List.foldl_cons, List.foldl_cons, ← ih]
    congr 1
    unfold addLineB addLine
    rw [searchLine_reads h1]
    cases searchLine s with
    | none => rfl
    | some x =>
      simp only [Option.map_some]
      have e1 : (mapInsert x 1 k).map (fun e => utf8 e.1) = ((mapInsert x 1 k).map (·.1)).map utf8 := by simp
      have e2 : k.map (fun e => utf8 e.1) = (k.map (·.1)).map utf8 := by simp
      rw [e1, e2, mapInsert_fst]
      have e3 : utf8 x ∈ (k.map (·.1)).map utf8 ↔ x ∈ k.map (·.1) := by
        rw [List.mem_map]
        constructor
        · rintro ⟨y, hy, e⟩; rwa [← utf8_inj e]
        · intro hx; exact ⟨x, hx, rfl⟩
      simp only [e3]
      split <;> simp

theorem kept_is_ascii {c : Char} (h : kept c = true) : c.toNat < 0x80 := by
  simp only [kept, Char.isAlphanum, Char.isAlpha, Char.isUpper, Char.isLower, Char.isDigit, Bool.or_eq_true,
    decide_eq_true_eq, Bool.and_eq_true] at h
  rcases h with ((((((((((((⟨h1, h2⟩ | ⟨h1, h2⟩) | ⟨h1, h2⟩) | rfl) | rfl) | rfl) | rfl) | rfl) | rfl) | rfl) | rfl) | rfl) | rfl) | rfl
  all_goals first
    | decide
    | (have h2 : c.toNat ≤ _ := h2
       exact Nat.lt_of_le_of_lt h2 (by decide))

theorem asciiText_utf8 {s : Str} (h : ∀ c ∈ s, c.toNat < 0x80) : asciiText (utf8 s) = s := by
  induction s with
  | nil => rfl
  | cons c s ih =>
    have hc := h c (by simp)
    have hk : (UInt8.ofNat c.toNat).toNat = c.toNat := byte_ofNat (by omega)
    rw [utf8_cons, bytesOf_ascii (c := c) (b := UInt8.ofNat c.toNat) hk.symm (by omega)]
    have := ih fun x hx => h x (by simp [hx])
    unfold asciiText at this ⊢
    rw [List.singleton_append, List.map_cons, this, hk, Char.ofNat_toNat]

theorem searchLine_kept {l x : Str} (h : searchLine l = some x) : ∀ c ∈ x, kept c = true := by
  unfold searchLine at h
  split at h
  · cases h
  · split at h
    · cases h
    · cases h
      intro c hc
      exact (List.mem_filter.1 hc).2

theorem addLines_kept (ls : List Str) : ∀ (m : List (Str × Nat)), (∀ e ∈ m, ∀ c ∈ e.1, kept c = true) →
    ∀ e ∈ ls.foldl addLine m, ∀ c ∈ e.1, kept c = true := by
  induction ls with
  | nil => intro m hm; exact hm
  | cons l ls ih =>
    intro m hm
    rw [List.foldl_cons]
    apply ih
    unfold addLine
    cases hl : searchLine l with
    | none => exact hm
    | some x =>
      intro e he
      have : e.1 ∈ (mapInsert x 1 m).map (·.1) := List.mem_map.2 ⟨e, he, rfl⟩
      rw [mapInsert_fst] at this
      have hcase : e.1 = x ∨ e.1 ∈ m.map (·.1) := by
        split at this
        · exact .inr this
        · rcases List.mem_append.1 this with h | h
          · exact .inr h
          · exact .inl (by simpa using h)
      rcases hcase with h | h
      · rw [h]; exact searchLine_kept hl
      · obtain ⟨e', he', h'⟩ := List.mem_map.1 h
        rw [← h']; exact hm e' he'

/-- The identifiers found in bytes are those found in what they read as. -/
theorem search_reads (so : Sorter) (sb : ByteSorter) {b : Bytes} {s : Str} (h : ReadsAs b s) :
    ∃ ids, searchFileIDs so (some s) = .ok ids ∧ searchFileIDsB sb (some b) = .ok (ids.map utf8) ∧
      ∀ x ∈ ids, ∀ c ∈ x, kept c = true := by
  refine ⟨_, rfl, ?_, ?_⟩
  · show Res.ok (sb.run _) = Res.ok _
    congr 1
    have e : (scannedLinesB b).foldl addLineB [] = (((scannedLines s).foldl addLine []).map (·.1)).map utf8 := by
      have := addLines_reads (scannedLines_reads h) []
      rw [List.map_nil] at this
      rw [this]; simp
    rw [e]
    generalize ((scannedLines s).foldl addLine []).map (·.1) = l
    refine List.Perm.eq_of_pairwise (le := fun a b => bytesLe a b = true) ?_ (sb.sorted _) ?_ ((sb.perm _).trans ((so.perm id l).map utf8).symm)
    · intro a b ha hb h1 h2
      obtain ⟨a', -, rfl⟩ := List.mem_map.1 ((sb.perm _).mem_iff.1 ha)
      obtain ⟨b', -, rfl⟩ := List.mem_map.1 hb
      rw [bytesLe_utf8] at h1 h2
      rw [strLe_antisymm h1 h2]
    · refine List.pairwise_map.2 ((so.sorted id l).imp ?_)
      intro a b h
      rw [bytesLe_utf8]; exact h
  · intro x hx
    rw [so.mem] at hx
    obtain ⟨e, he, rfl⟩ := List.mem_map.1 hx
    exact addLines_kept _ [] (by simp) e he

theorem foundIds_same (so : Sorter) (sb : ByteSorter) {digests : Bytes → Str × Str × Str} {b : ByteDisk} {d : Disk}
    (h : SameDisk digests b d) (p : Str) :
    foundIdsB (searchFileIDsB sb (b.contents p)) = idsOrNone (searchFileIDs so (d.text p)) := by
  rcases h.text p with ⟨h1, h2⟩ | ⟨x, s, h1, h2, h3⟩
  · rw [h1, h2]; rfl
  · rw [h1, h2]
    obtain ⟨ids, h4, h5, h6⟩ := search_reads so sb h3
    rw [h4, h5]
    show (ids.map utf8).map asciiText = ids
    rw [List.map_map]
    conv => rhs; rw [← List.map_id ids]
    refine List.map_congr_left fun x hx => ?_
    exact asciiText_utf8 fun c hc => kept_is_ascii (h6 x hx c hc)

theorem searchFiles_same (so : Sorter) (sb : ByteSorter) {digests : Bytes → Str × Str × Str} {b : ByteDisk} {d : Disk}
    (h : SameDisk digests b d) (patterns : List Str) (fs : List FileV) (m : List (Str × Nat)) :
    searchFilesB so sb b patterns fs m = searchFiles so d patterns fs m := by
  induction fs generalizing m with
  | nil => rfl
  | cons f fs ih =>
    have e : searchFileB so sb b patterns f m = searchFile so d patterns f m := by
      unfold searchFileB searchFile
      simp only [foundIds_same so sb h]
      split <;> rfl
    simp only [searchFilesB, searchFiles, e, ih]

theorem buildFiles_hashes {d d' : Disk} (h : ∀ p, d.hashes p = d'.hashes p) (ps : List Str) : ∀ n,
    buildFiles d n ps = buildFiles d' n ps := by
  induction ps with
  | nil => intro n; rfl
  | cons p ps ih => intro n; simp only [buildFiles, buildFile, h, ih]

theorem build_hashes {so : Sorter} {sha1 : Str → Str} {d d' : Disk} (hr : d.absRoot = d'.absRoot) (ht : d.tree = d'.tree)
    (h : ∀ p, d.hashes p = d'.hashes p) (now name : Str) (config : BuildConfig) :
    build so sha1 d now name config = build so sha1 d' now name config := by
  simp only [build, buildPackage, hr, ht, buildFiles_hashes h]

/-! ## A sorter of bytes -/

theorem bytesLe_text (a b : Bytes) : bytesLe a b = strLe (asciiText a) (asciiText b) := by
  induction a generalizing b with
  | nil => cases b <;> rfl
  | cons x a ih =>
    cases b with
    | nil => rfl
    | cons y b =>
      have hx : (Char.ofNat x.toNat).toNat = x.toNat := ofNat_toNat_char (by have := x.toNat_lt; omega)
      have hy : (Char.ofNat y.toNat).toNat = y.toNat := ofNat_toNat_char (by have := y.toNat_lt; omega)
      have e : Char.ofNat x.toNat = Char.ofNat y.toNat ↔ x = y := by
        constructor
        · intro e
          have := congrArg Char.toNat e
          rw [hx, hy] at this
          exact UInt8.toNat_inj.1 this
        · rintro rfl; rfl
      have ih := ih b
      simp only [asciiText] at ih
      simp only [asciiText, List.map_cons, bytesLe, strLe, e, hx, hy, ih]

/-- A sorter of bytes exists: insertion sort. -/
def byteSorter : ByteSorter where
  run l := insertionSorter.run asciiText l
  perm l := insertionSorter.perm asciiText l
  sorted l := (insertionSorter.sorted asciiText l).imp fun {a b} h => by rw [bytesLe_text]; exact h

end Verif
