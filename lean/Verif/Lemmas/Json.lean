import Verif.Model.JsonDoc
import Verif.Spec.JsonLike
import Verif.Spec.Json
import Verif.Lemmas.Identifier
import Verif.Lemmas.Composite

/-!
# Encoding and decoding of JSON values
-/

namespace Verif
open Spec

/-! ## Like -/

mutual
theorem like_refl : ∀ j : Json, Like false j j
  | .null => .null
  | .bool b => .bool b
  | .num l => .num l
  | .str raw => .str raw
  | .arr l => .arr (likeList_refl l)
  | .obj l => .obj (likeFields_refl l) (.refl _)
theorem likeList_refl : ∀ l : List Json, LikeList false l l
  | [] => .nil
  | j :: l => .cons (like_refl j) (likeList_refl l)
theorem likeFields_refl : ∀ l : List (Str × Json), LikeFields false l l
  | [] => .nil
  | (_, j) :: l => .cons (like_refl j) (likeFields_refl l)
end

mutual
theorem like_html : ∀ j : Json, Like true j j.escapeHtml
  | .null => by rw [Json.escapeHtml]; exact .null
  | .bool b => by rw [Json.escapeHtml]; exact .bool b
  | .num l => by rw [Json.escapeHtml]; exact .num l
  | .str raw => by rw [Json.escapeHtml]; exact .str raw
  | .arr l => by rw [Json.escapeHtml]; exact .arr (likeList_html l)
  | .obj l => by rw [Json.escapeHtml]; exact .obj (likeFields_html l) (.refl _)
theorem likeList_html : ∀ l : List Json, LikeList true l (Json.escapeHtmlList l)
  | [] => by rw [Json.escapeHtmlList]; exact .nil
  | j :: l => by rw [Json.escapeHtmlList]; exact .cons (like_html j) (likeList_html l)
theorem likeFields_html : ∀ l : List (Str × Json), LikeFields true l (Json.escapeHtmlFields l)
  | [] => by rw [Json.escapeHtmlFields]; exact .nil
  | (_, j) :: l => by rw [Json.escapeHtmlFields]; exact .cons (like_html j) (likeFields_html l)
end

theorem like_write (html : Bool) (j : Json) : Like html j (if html then j.escapeHtml else j) := by
  cases html
  · exact like_refl j
  · exact like_html j

mutual
theorem like_sort (so : Sorter) : ∀ j : Json, Like false j (j.sortKeys so)
  | .null => by rw [Json.sortKeys]; exact .null
  | .bool b => by rw [Json.sortKeys]; exact .bool b
  | .num l => by rw [Json.sortKeys]; exact .num l
  | .str raw => by rw [Json.sortKeys]; exact .str raw
  | .arr l => by rw [Json.sortKeys]; exact .arr (likeList_sort so l)
  | .obj l => by rw [Json.sortKeys]; exact .obj (likeFields_sort so l) (so.perm _ _).symm
theorem likeList_sort (so : Sorter) : ∀ l : List Json, LikeList false l (Json.sortKeysList so l)
  | [] => by rw [Json.sortKeysList]; exact .nil
  | j :: l => by rw [Json.sortKeysList]; exact .cons (like_sort so j) (likeList_sort so l)
theorem likeFields_sort (so : Sorter) : ∀ l : List (Str × Json), LikeFields false l (Json.sortKeysFields so l)
  | [] => by rw [Json.sortKeysFields]; exact .nil
  | (_, j) :: l => by rw [Json.sortKeysFields]; exact .cons (like_sort so j) (likeFields_sort so l)
end

theorem likeFields_perm {html : Bool} {a b c : List (Str × Json)} (hp : a.Perm b) (h : LikeFields html b c) :
    ∃ d, LikeFields html a d ∧ d.Perm c := by
  induction hp generalizing c with
  | nil => cases h; exact ⟨[], .nil, .refl _⟩
  | cons x _ ih =>
    cases h with
    | cons h1 h2 =>
      obtain ⟨d, h3, h4⟩ := ih h2
      exact ⟨_, .cons h1 h3, h4.cons _⟩
  | swap x y l =>
    cases h with
    | cons h1 h2 =>
      cases h2 with
      | cons h3 h4 => exact ⟨_, .cons h3 (.cons h1 h4), .swap ..⟩
  | trans _ _ ih1 ih2 =>
    obtain ⟨d, h3, h4⟩ := ih2 h
    obtain ⟨e, h5, h6⟩ := ih1 h3
    exact ⟨e, h5, h6.trans h4⟩

mutual
theorem like_trans {html : Bool} : ∀ (j : Json) {k m : Json}, Like false j k → Like html k m → Like html j m
  | .null, _, _, .null, h => h
  | .bool _, _, _, .bool _, h => h
  | .num _, _, _, .num _, h => h
  | .str _, _, _, .str _, h => h
  | .arr l, _, _, .arr h1, h => by
    cases h with
    | arr h2 => exact .arr (likeList_trans l h1 h2)
  | .obj l, _, _, .obj h1 p, h => by
    cases h with
    | obj h2 q =>
      obtain ⟨d, h3, h4⟩ := likeFields_perm p h2
      exact .obj (likeFields_trans l h1 h3) (h4.trans q)
theorem likeList_trans {html : Bool} : ∀ (l : List Json) {m n : List Json}, LikeList false l m → LikeList html m n → LikeList html l n
  | [], _, _, .nil, h => by cases h; exact .nil
  | j :: l, _, _, .cons h1 h2, h => by
    cases h with
    | cons h3 h4 => exact .cons (like_trans j h1 h3) (likeList_trans l h2 h4)
theorem likeFields_trans {html : Bool} : ∀ (l : List (Str × Json)) {m n : List (Str × Json)},
    LikeFields false l m → LikeFields html m n → LikeFields html l n
  | [], _, _, .nil, h => by cases h; exact .nil
  | (_, j) :: l, _, _, .cons h1 h2, h => by
    cases h with
    | cons h3 h4 => exact .cons (like_trans j h1 h3) (likeFields_trans l h2 h4)
end

mutual
theorem like_trans' {html : Bool} : ∀ (j : Json) {k m : Json}, Like html j k → Like false k m → Like html j m
  | .null, _, _, .null, h => by cases h; exact .null
  | .bool _, _, _, .bool _, h => by cases h; exact .bool _
  | .num _, _, _, .num _, h => by cases h; exact .num _
  | .str _, _, _, .str _, h => by cases h; exact .str _
  | .arr l, _, _, .arr h1, h => by
    cases h with
    | arr h2 => exact .arr (likeList_trans' l h1 h2)
  | .obj l, _, _, .obj h1 p, h => by
    cases h with
    | obj h2 q =>
      obtain ⟨d, h3, h4⟩ := likeFields_perm p h2
      exact .obj (likeFields_trans' l h1 h3) (h4.trans q)
theorem likeList_trans' {html : Bool} : ∀ (l : List Json) {m n : List Json}, LikeList html l m → LikeList false m n → LikeList html l n
  | [], _, _, .nil, h => by cases h; exact .nil
  | j :: l, _, _, .cons h1 h2, h => by
    cases h with
    | cons h3 h4 => exact .cons (like_trans' j h1 h3) (likeList_trans' l h2 h4)
theorem likeFields_trans' {html : Bool} : ∀ (l : List (Str × Json)) {m n : List (Str × Json)},
    LikeFields html l m → LikeFields false m n → LikeFields html l n
  | [], _, _, .nil, h => by cases h; exact .nil
  | (_, j) :: l, _, _, .cons h1 h2, h => by
    cases h with
    | cons h3 h4 => exact .cons (like_trans' j h1 h3) (likeFields_trans' l h2 h4)
end

/-! ## Round trips of values -/

/-- Encoding `b` and decoding what is like the result into a variable with value `z` yields `b'`. -/
def Trip {β : Type} (html : Bool) (c : Codec β) (z b b' : β) : Prop :=
  ∃ j, c.enc b = .ok j ∧ ∀ k, Like html j k → c.dec k z = .ok b'

/-- The same, and the result of encoding is not `null`. -/
def TripN {β : Type} (html : Bool) (c : Codec β) (z b b' : β) : Prop :=
  ∃ j, c.enc b = .ok j ∧ j ≠ .null ∧ ∀ k, Like html j k → c.dec k z = .ok b'

theorem TripN.trip {β : Type} {html : Bool} {c : Codec β} {z b b' : β} (h : TripN html c z b b') : Trip html c z b b' :=
  let ⟨j, h1, _, h3⟩ := h; ⟨j, h1, h3⟩

theorem like_ne_null {html : Bool} {j k : Json} (h : Like html j k) (hn : j ≠ .null) : k ≠ .null := by
  cases h <;> simp_all

/-! ### Strings -/

theorem htmlText_flatMap (html : Bool) (s : Str) :
    htmlText html (s.flatMap jsonEscapeChar) = s.flatMap fun c => htmlText html (jsonEscapeChar c) := by
  unfold htmlText
  cases html
  · rfl
  · simp [List.flatMap_assoc]

theorem hexVal_hexDigit : ∀ n : Nat, n < 16 → hexVal (hexDigit n) = some n := by decide

theorem hex4_hexDigits (n : Nat) (h : n < 65536) :
    hex4 (hexDigit (n / 4096)) (hexDigit (n / 256 % 16)) (hexDigit (n / 16 % 16)) (hexDigit (n % 16)) = some n := by
  unfold hex4
  rw [hexVal_hexDigit _ (by omega), hexVal_hexDigit _ (by omega), hexVal_hexDigit _ (by omega), hexVal_hexDigit _ (by omega)]
  simp only [Option.bind_eq_bind, Option.bind_some, Option.some.injEq]
  omega

/-- What one character becomes: itself, or one unit. -/
inductive Escaped (c : Char) : Str → Prop
  | self : c ≠ '\\' → Escaped c [c]
  | letter (e t) : (∀ s, unescapeUnits (e ++ s) = (unescapeUnits s).map (.inl c :: ·)) → t = e → Escaped c t
  | number (a b d e : Char) : hex4 a b d e = some c.toNat → ¬ (0xD800 ≤ c.toNat ∧ c.toNat < 0xE000) →
      Escaped c ['\\', 'u', a, b, d, e]

theorem char_not_surrogate (c : Char) : ¬ (0xD800 ≤ c.toNat ∧ c.toNat < 0xE000) := by
  have := c.valid
  simp only [UInt32.isValidChar, Nat.isValidChar] at this
  have e : c.toNat = c.val.toNat := rfl
  omega

theorem escaped_char (html : Bool) (c : Char) : Escaped c (htmlText html (jsonEscapeChar c)) := by
  unfold jsonEscapeChar
  split
  · next h => subst h; refine .letter _ _ (fun s => ?_) rfl; cases html <;> simp [htmlText, escapeHtmlChar, unescapeUnits]
  split
  · next h => subst h; refine .letter _ _ (fun s => ?_) rfl; cases html <;> simp [htmlText, escapeHtmlChar, unescapeUnits]
  split
  · next h => subst h; refine .letter _ _ (fun s => ?_) rfl; cases html <;> simp [htmlText, escapeHtmlChar, unescapeUnits]
  split
  · next h => subst h; refine .letter _ _ (fun s => ?_) rfl; cases html <;> simp [htmlText, escapeHtmlChar, unescapeUnits]
  split
  · next h => subst h; refine .letter _ _ (fun s => ?_) rfl; cases html <;> simp [htmlText, escapeHtmlChar, unescapeUnits]
  split
  · next h =>
    have hlt : c.toNat < 65536 := by omega
    have hd : ∀ n, n < 16 → escapeHtmlChar (hexDigit n) = [hexDigit n] := by decide
    have : htmlText html (['\\', 'u', hexDigit (c.toNat / 4096), hexDigit (c.toNat / 256 % 16), hexDigit (c.toNat / 16 % 16), hexDigit (c.toNat % 16)]) =
        ['\\', 'u', hexDigit (c.toNat / 4096), hexDigit (c.toNat / 256 % 16), hexDigit (c.toNat / 16 % 16), hexDigit (c.toNat % 16)] := by
      unfold htmlText
      cases html
      · rfl
      · simp only [if_true, List.flatMap_cons, List.flatMap_nil, hd _ (show c.toNat / 4096 < 16 by omega), hd _ (show c.toNat / 256 % 16 < 16 by omega),
          hd _ (show c.toNat / 16 % 16 < 16 by omega), hd _ (show c.toNat % 16 < 16 by omega)]
        rfl
    rw [this]
    exact .number _ _ _ _ (hex4_hexDigits _ hlt) (char_not_surrogate c)
  · next h2 _ _ _ _ =>
    unfold htmlText
    cases html
    · exact .self h2
    · simp only [if_true, List.flatMap_cons, List.flatMap_nil, List.append_nil, escapeHtmlChar]
      split
      · next h => subst h; exact .number _ _ _ _ (by decide) (char_not_surrogate _)
      split
      · next h => subst h; exact .number _ _ _ _ (by decide) (char_not_surrogate _)
      split
      · next h => subst h; exact .number _ _ _ _ (by decide) (char_not_surrogate _)
      · exact .self h2

/-- Units that are no surrogates. -/
def PlainUnits (us : List (Char ⊕ Nat)) (s : Str) : Prop :=
  us.map (fun u => match u with | .inl c => c | .inr n => Char.ofNat n) = s ∧
    ∀ n, .inr n ∈ us → ¬ (0xD800 ≤ n ∧ n < 0xE000)

theorem combine_plain : ∀ (us : List (Char ⊕ Nat)) (s : Str), PlainUnits us s → combineUnits us = s
  | [], s, h => by simpa [combineUnits] using h.1
  | .inl c :: t, s, h => by
    cases s with
    | nil => simp [PlainUnits] at h
    | cons c' s =>
      obtain ⟨h1, h2⟩ := h
      simp only [List.map_cons, List.cons.injEq] at h1
      rw [combineUnits, combine_plain t s ⟨h1.2, fun n hn => h2 n (by simp [hn])⟩, h1.1]
  | [.inr n], s, h => by
    obtain ⟨rfl, h2⟩ := h
    simp only [combineUnits, unitChar, if_neg (h2 n (by simp)), List.map_cons, List.map_nil]
  | .inr n :: .inl c :: t, s, h => by
    obtain ⟨rfl, h2⟩ := h
    simp only [combineUnits, unitChar, if_neg (h2 n (by simp)), List.map_cons]
    rw [combine_plain t _ ⟨rfl, fun n hn => h2 n (by simp [hn])⟩]
  | .inr n :: .inr m :: t, s, h => by
    obtain ⟨rfl, h2⟩ := h
    have hn := h2 n (by simp)
    rw [combineUnits, if_neg (by omega), combine_plain (.inr m :: t) _ ⟨rfl, fun n hn => h2 n (by simp at hn ⊢; simp [hn])⟩]
    simp only [unitChar, if_neg hn, List.map_cons]

theorem units_escaped (html : Bool) (s : Str) :
    ∃ us, unescapeUnits (s.flatMap fun c => htmlText html (jsonEscapeChar c)) = some us ∧ PlainUnits us s := by
  induction s with
  | nil => exact ⟨[], rfl, rfl, by simp⟩
  | cons c s ih =>
    obtain ⟨us, h1, h2, h3⟩ := ih
    rw [List.flatMap_cons]
    generalize s.flatMap _ = rest at h1
    have := escaped_char html c
    generalize htmlText html (jsonEscapeChar c) = e at this
    cases this with
    | self hc =>
      refine ⟨.inl c :: us, ?_, by simp [h2], by simpa using h3⟩
      show unescapeUnits (c :: rest) = _
      unfold unescapeUnits
      split
      · next h => cases h
      · next h => simp at h; exact absurd h.1 hc
      · next h => simp at h; exact absurd h.1 hc
      · next h => cases h; rw [if_neg hc, h1]; rfl
    | letter x _ hx e =>
      subst e
      exact ⟨.inl c :: us, by rw [hx, h1]; rfl, by simp [h2], by simpa using h3⟩
    | number a b d e hx hs =>
      refine ⟨.inr c.toNat :: us, ?_, by simp [h2], ?_⟩
      · show unescapeUnits ('\\' :: 'u' :: a :: b :: d :: e :: rest) = _
        simp [unescapeUnits, hx, h1]
      · intro n hn
        rcases List.mem_cons.1 hn with e | hn
        · cases e; exact hs
        · exact h3 n hn

theorem unescape_escaped (html : Bool) (s : Str) : unescape (htmlText html (s.flatMap jsonEscapeChar)) = some s := by
  obtain ⟨us, h1, h2⟩ := units_escaped html s
  rw [htmlText_flatMap, unescape, h1, Option.map_some, combine_plain us s h2]

theorem trip_str (html : Bool) (z s : Str) : TripN html strCodec z s s := by
  refine ⟨_, rfl, by simp, fun k hk => ?_⟩
  cases hk
  simp only [strCodec, unescape_escaped, Res.ofOption_some]

theorem trip_bool (html : Bool) (z b : Bool) : TripN html boolCodec z b b := by
  refine ⟨_, rfl, by simp, fun k hk => ?_⟩
  cases hk
  rfl

/-! ### Lists and pointers -/

theorem mapRes_ok {α β : Type} {f : α → Res β} {g : α → β} {l : List α} (h : ∀ a ∈ l, f a = .ok (g a)) :
    mapRes f l = .ok (l.map g) := by
  induction l with
  | nil => rfl
  | cons a l ih => rw [mapRes, h a (by simp), ih fun b hb => h b (by simp [hb])]; rfl

theorem trip_list {β : Type} {html : Bool} {c : Codec β} {zero : β} {g : β → β} {z l : List β}
    (h : ∀ b ∈ l, Trip html c zero b (g b)) : Trip html (listCodec zero c) z l (l.map g) := by
  have key : ∀ l : List β, (∀ b ∈ l, Trip html c zero b (g b)) →
      ∃ js, mapRes c.enc l = .ok js ∧ ∀ ks, LikeList html js ks → mapRes (fun j => c.dec j zero) ks = .ok (l.map g) := by
    intro l
    induction l with
    | nil => intro _; exact ⟨[], rfl, fun ks hk => by cases hk; rfl⟩
    | cons b l ih =>
      intro h
      obtain ⟨j, h1, h2⟩ := h b (by simp)
      obtain ⟨js, h3, h4⟩ := ih fun b hb => h b (by simp [hb])
      refine ⟨j :: js, by rw [mapRes, h1, h3]; rfl, fun ks hk => ?_⟩
      cases hk with
      | cons hk1 hk2 => rw [mapRes, h2 _ hk1, h4 _ hk2]; rfl
  cases l with
  | nil => exact ⟨_, rfl, fun k hk => by cases hk; rfl⟩
  | cons b l =>
    obtain ⟨js, h1, h2⟩ := key (b :: l) h
    refine ⟨.arr js, by simp only [listCodec, h1, Res.bind_ok], fun k hk => ?_⟩
    cases hk with
    | arr hk => exact h2 _ hk

theorem trip_ptrList {β : Type} {html : Bool} {c : Codec β} {zero : β} {g : β → β} {z l : List β}
    (h : ∀ b ∈ l, TripN html c zero b (g b)) : Trip html (ptrListCodec zero c) z l (l.map g) := by
  refine trip_list fun b hb => ?_
  obtain ⟨j, h1, h2, h3⟩ := h b hb
  refine ⟨j, h1, fun k hk => ?_⟩
  have := like_ne_null hk h2
  show (match k with | .null => Res.err | j => c.dec j zero) = .ok (g b)
  split
  · contradiction
  · exact h3 _ hk

theorem trip_ptr {β : Type} {html : Bool} {c : Codec β} {zero b b' : β} (h : TripN html c zero b b') :
    TripN html (ptrCodec zero c) none (some b) (some b') := by
  obtain ⟨j, h1, h2, h3⟩ := h
  refine ⟨j, h1, h2, fun k hk => ?_⟩
  have := like_ne_null hk h2
  have h4 := h3 k hk
  unfold ptrCodec
  cases k with
  | null => contradiction
  | _ => simp only [h4, Res.bind_ok]

theorem trip_ptr_none {β : Type} {html : Bool} {c : Codec β} {zero : β} {z : Option β} :
    Trip html (ptrCodec zero c) z none none := by
  refine ⟨.null, rfl, fun k hk => ?_⟩
  cases hk
  cases z <;> rfl

/-! ### Structs -/

/-- What becomes of a variable when the field of `s` is encoded and decoded. -/
def FieldTrip {σ : Type} (html : Bool) (f : Field σ) (s acc acc' : σ) : Prop :=
  (f.isEmpty (f.get s) = true ∧ acc' = acc) ∨
  (f.isEmpty (f.get s) = false ∧ ∃ b, Trip html f.codec (f.get acc) (f.get s) b ∧ acc' = f.set b acc)

/-- The same for several fields in order, with the entries they are encoded to. -/
inductive Trips {σ : Type} (html : Bool) (s : σ) : List (Field σ) → σ → σ → List (Str × Json) → Prop
  | nil {acc} : Trips html s [] acc acc []
  | skip {f fs acc r es} : f.isEmpty (f.get s) = true → Trips html s fs acc r es → Trips html s (f :: fs) acc r es
  | keep {f fs acc r es j b} : f.isEmpty (f.get s) = false → f.codec.enc (f.get s) = .ok j →
      (∀ k, Like html j k → f.codec.dec k (f.get acc) = .ok b) → Trips html s fs (f.set b acc) r es →
      Trips html s (f :: fs) acc r ((f.key, j) :: es)

/-- The fields are encoded and decoded in order. -/
def FieldsTrip {σ : Type} (html : Bool) (s : σ) (fs : List (Field σ)) (acc r : σ) : Prop := ∃ es, Trips html s fs acc r es

theorem fieldsTrip_nil {σ : Type} {html : Bool} {s acc : σ} : FieldsTrip html s [] acc acc := ⟨[], .nil⟩

theorem fieldsTrip_cons {σ : Type} {html : Bool} {s acc acc' r : σ} {f : Field σ} {fs : List (Field σ)}
    (h : FieldTrip html f s acc acc') (hs : FieldsTrip html s fs acc' r) : FieldsTrip html s (f :: fs) acc r := by
  obtain ⟨es, hs⟩ := hs
  rcases h with ⟨h1, rfl⟩ | ⟨h1, b, ⟨j, h2, h3⟩, rfl⟩
  · exact ⟨es, .skip h1 hs⟩
  · exact ⟨_, .keep h1 h2 h3 hs⟩

theorem trips_append {σ : Type} {html : Bool} {s : σ} {fs gs : List (Field σ)} {a b c : σ} {es es' : List (Str × Json)}
    (h : Trips html s fs a b es) (h' : Trips html s gs b c es') : Trips html s (fs ++ gs) a c (es ++ es') := by
  induction h with
  | nil => exact h'
  | skip h1 _ ih => exact .skip h1 (ih h')
  | keep h1 h2 h3 _ ih => exact .keep h1 h2 h3 (ih h')

theorem fieldsTrip_append {σ : Type} {html : Bool} {s : σ} {fs gs : List (Field σ)} {a b c : σ}
    (h : FieldsTrip html s fs a b) (h' : FieldsTrip html s gs b c) : FieldsTrip html s (fs ++ gs) a c :=
  let ⟨_, h⟩ := h; let ⟨_, h'⟩ := h'; ⟨_, trips_append h h'⟩

theorem trips_encode {σ : Type} {html : Bool} {s acc r : σ} {fs : List (Field σ)} {es : List (Str × Json)}
    (h : Trips html s fs acc r es) : encodeFields s fs = .ok es := by
  induction h with
  | nil => rfl
  | skip h1 _ ih => rw [encodeFields, if_pos h1, ih]
  | keep h1 h2 _ _ ih => rw [encodeFields, if_neg (by simp [h1]), h2, ih]; rfl

/-- Keys of different fields. -/
def KeysDiffer (keys : List Str) : Prop := keys.Pairwise fun a b => sameKey a b = false

instance (keys : List Str) : Decidable (KeysDiffer keys) := inferInstanceAs (Decidable (List.Pairwise _ _))

theorem sameKey_self (k : Str) : sameKey k k = true := by simp [sameKey]

theorem sameKey_comm (a b : Str) : sameKey a b = sameKey b a := by simp [sameKey, eq_comm]

theorem decodeEntries_filter {σ : Type} (f : Field σ) (es : List (Str × Json)) (s : σ) :
    decodeEntries f es s = decodeEntries f (es.filter fun e => sameKey f.key e.1) s := by
  induction es generalizing s with
  | nil => rfl
  | cons e es ih =>
    obtain ⟨k, j⟩ := e
    by_cases h : sameKey f.key k = true
    · rw [List.filter_cons, if_pos (by simpa using h)]
      unfold decodeEntries
      rw [if_pos h, if_pos h]
      cases f.codec.dec j (f.get s) with
      | ok b => simp only [Res.bind_ok]; exact ih _
      | err => rfl
      | panic => rfl
    · rw [List.filter_cons, if_neg (by simpa using h), decodeEntries, if_neg h]
      exact ih s

theorem trips_keys {σ : Type} {html : Bool} {s acc r : σ} {fs : List (Field σ)} {es : List (Str × Json)}
    (h : Trips html s fs acc r es) : (es.map (·.1)).Sublist (fs.map (·.key)) := by
  induction h with
  | nil => exact .slnil
  | skip _ _ ih => exact .cons _ ih
  | keep _ _ _ _ ih => exact .cons_cons _ ih

theorem likeFields_keys {html : Bool} : ∀ {es es' : List (Str × Json)}, LikeFields html es es' → es'.map (·.1) = es.map (·.1)
  | [], _, h => by cases h; rfl
  | _ :: _, _, h => by
    cases h with
    | cons _ h2 => simp [likeFields_keys h2]

theorem filter_other {key : Str} {es : List (Str × Json)} (h : ∀ k ∈ es.map (·.1), sameKey key k = false) :
    (es.filter fun e => sameKey key e.1) = [] := by
  rw [List.filter_eq_nil_iff]
  intro e he
  simp [h e.1 (List.mem_map.2 ⟨e, he, rfl⟩)]

theorem trips_decode {σ : Type} {html : Bool} {s acc r : σ} {fs : List (Field σ)} {es : List (Str × Json)}
    (h : Trips html s fs acc r es) (hd : KeysDiffer (fs.map (·.key))) : ∀ (es' gs : List (Str × Json)),
    LikeFields html es es' →
    (∀ f ∈ fs, (gs.filter fun e => sameKey f.key e.1) = es'.filter fun e => sameKey f.key e.1) →
    decodeFields gs fs acc = .ok r := by
  induction h with
  | nil => intro _ _ _ _; rfl
  | @skip f fs acc r es h1 h2 ih =>
    intro es' gs hl hg
    have hd' := List.pairwise_cons.1 hd
    rw [decodeFields, decodeEntries_filter, hg f (by simp), filter_other]
    · simp only [decodeEntries, Res.bind_ok]
      exact ih hd'.2 es' gs hl fun g hg' => hg g (by simp [hg'])
    · intro k hk
      rw [likeFields_keys hl] at hk
      exact hd'.1 k ((trips_keys h2).subset hk)
  | @keep f fs acc r es j b h1 h2 h3 h4 ih =>
    intro es' gs hl hg
    have hd' := List.pairwise_cons.1 hd
    cases hl with
    | @cons _ _ k _ m hk hl =>
      have hother : (m.filter fun e => sameKey f.key e.1) = [] := by
        refine filter_other fun x hx => ?_
        rw [likeFields_keys hl] at hx
        exact hd'.1 x ((trips_keys h4).subset hx)
      rw [decodeFields, decodeEntries_filter, hg f (by simp), List.filter_cons, if_pos (sameKey_self _), hother]
      simp only [decodeEntries, sameKey_self, if_true, h3 k hk, Res.bind_ok]
      refine ih hd'.2 m gs hl fun g hg' => ?_
      rw [hg g (by simp [hg']), List.filter_cons, if_neg]
      rw [sameKey_comm, Bool.not_eq_true]
      exact hd'.1 _ (List.mem_map.2 ⟨g, hg', rfl⟩)

theorem filter_perm_eq {key : Str} {es gs : List (Str × Json)} (hp : es.Perm gs) (hd : KeysDiffer (es.map (·.1))) :
    (gs.filter fun e => sameKey key e.1) = es.filter fun e => sameKey key e.1 := by
  have h1 := hp.filter fun e => sameKey key e.1
  have h2 : ∀ es : List (Str × Json), KeysDiffer (es.map (·.1)) → (es.filter fun e => sameKey key e.1).length ≤ 1 := by
    intro es hd
    induction es with
    | nil => simp
    | cons e es ih =>
      have hd' := List.pairwise_cons.1 hd
      by_cases h : sameKey key e.1 = true
      · rw [List.filter_cons, if_pos h, filter_other]
        · simp
        · intro k hk
          have h3 := hd'.1 k hk
          simp only [sameKey, decide_eq_true_eq, decide_eq_false_iff_not] at h h3 ⊢
          exact fun e => h3 (h.symm.trans e)
      · rw [List.filter_cons, if_neg h]
        exact ih hd'.2
  have h3 := h2 es hd
  generalize (es.filter fun e => sameKey key e.1) = a at h1 h3
  generalize (gs.filter fun e => sameKey key e.1) = b at h1
  match a, h3 with
  | [], _ => exact h1.symm.eq_nil
  | [x], _ => exact List.perm_singleton.1 h1.symm

theorem keysDiffer_sublist {a b : List Str} (h : a.Sublist b) (hd : KeysDiffer b) : KeysDiffer a := hd.sublist h

theorem trips_obj {σ : Type} {html : Bool} {s acc r : σ} {fs : List (Field σ)} {es : List (Str × Json)}
    (h : Trips html s fs acc r es) (hd : KeysDiffer (fs.map (·.key))) (k : Json) (hk : Like html (.obj es) k) :
    (structCodec fs).dec k acc = .ok r := by
  cases hk with
  | obj hl hp =>
    refine trips_decode h hd _ _ hl fun f _ => filter_perm_eq hp ?_
    rw [likeFields_keys hl]
    exact keysDiffer_sublist (trips_keys h) hd

theorem trip_struct {σ : Type} {html : Bool} {s acc r : σ} {fs : List (Field σ)}
    (hd : KeysDiffer (fs.map (·.key))) (h : FieldsTrip html s fs acc r) : TripN html (structCodec fs) acc s r := by
  obtain ⟨es, h⟩ := h
  exact ⟨.obj es, by simp only [structCodec, trips_encode h, Res.bind_ok], by simp, trips_obj h hd⟩

/-! ### Single entries -/

theorem encode_mem {σ : Type} {s : σ} {f : Field σ} : ∀ {fs : List (Field σ)} {es : List (Str × Json)}, encodeFields s fs = .ok es →
    f ∈ fs → f.isEmpty (f.get s) = false → ∃ j, f.codec.enc (f.get s) = .ok j ∧ (f.key, j) ∈ es
  | [], _, _, hm, _ => by simp at hm
  | g :: fs, es, he, hm, hf => by
    rw [encodeFields] at he
    cases hg : g.isEmpty (g.get s) with
    | true =>
      rw [if_pos hg] at he
      rcases List.mem_cons.1 hm with rfl | hm
      · rw [hg] at hf; cases hf
      · exact encode_mem he hm hf
    | false =>
      rw [if_neg (by simp [hg])] at he
      cases hj : g.codec.enc (g.get s) with
      | err => rw [hj] at he; cases he
      | panic => rw [hj] at he; cases he
      | ok j =>
        rw [hj, Res.bind_ok] at he
        cases hr : encodeFields s fs with
        | err => rw [hr] at he; cases he
        | panic => rw [hr] at he; cases he
        | ok es' =>
          rw [hr, Res.bind_ok] at he
          cases he
          rcases List.mem_cons.1 hm with rfl | hm
          · exact ⟨j, hj, by simp⟩
          · obtain ⟨j', h1, h2⟩ := encode_mem hr hm hf
            exact ⟨j', h1, by simp [h2]⟩

theorem likeFields_mem {html : Bool} {key : Str} {j : Json} : ∀ {es es' : List (Str × Json)}, LikeFields html es es' → (key, j) ∈ es →
    ∃ k, Like html j k ∧ (key, k) ∈ es'
  | [], _, _, h => by simp at h
  | _ :: _, _, .cons h1 h2, h => by
    rcases List.mem_cons.1 h with h | h
    · cases h; exact ⟨_, h1, by simp⟩
    · obtain ⟨k, h3, h4⟩ := likeFields_mem h2 h
      exact ⟨k, h3, by simp [h4]⟩

theorem lastEntry_mem {key : Str} {k : Json} : ∀ {es : List (Str × Json)}, (key, k) ∈ es → (es.map (·.1)).Nodup → lastEntry key es = some k
  | [], h, _ => by simp at h
  | (k', j) :: es, h, hd => by
    have hd' := List.nodup_cons.1 hd
    rw [lastEntry]
    rcases List.mem_cons.1 h with h | h
    · cases h
      have : ∀ es : List (Str × Json), key ∉ es.map (·.1) → lastEntry key es = none := by
        intro es
        induction es with
        | nil => intro _; rfl
        | cons e es ih =>
          intro hn
          simp only [List.map_cons, List.mem_cons, not_or] at hn
          rw [lastEntry, ih hn.2]
          simp only [if_neg (Ne.symm hn.1)]
      rw [this es hd'.1]
      simp
    · rw [lastEntry_mem h hd'.2]

theorem keysDiffer_nodup {ks : List Str} (h : KeysDiffer ks) : ks.Nodup :=
  h.imp fun {a b} hab e => by rw [e, sameKey_self] at hab; cases hab

/-- What a value like an object has under a key that occurs in it. -/
theorem like_entry {html : Bool} {es : List (Str × Json)} {k : Json} {key : Str} {j : Json} (hk : Like html (.obj es) k)
    (hd : KeysDiffer (es.map (·.1))) (hj : (key, j) ∈ es) :
    ∃ gs j', k = .obj gs ∧ Like html j j' ∧ lastEntry key gs = some j' ∧ (gs.filter fun e => sameKey key e.1) = [(key, j')] := by
  cases hk with
  | @obj _ m gs hl hp =>
    obtain ⟨j', h1, h2⟩ := likeFields_mem hl hj
    have hd' : KeysDiffer (m.map (·.1)) := by rw [likeFields_keys hl]; exact hd
    have hn : (gs.map (·.1)).Nodup := ((hp.map (·.1)).nodup_iff).1 (keysDiffer_nodup hd')
    refine ⟨gs, j', rfl, h1, lastEntry_mem (hp.subset h2) hn, ?_⟩
    rw [filter_perm_eq hp hd']
    clear hp hn hl hj hd
    induction m with
    | nil => simp at h2
    | cons e m ih =>
      have hd2 := List.pairwise_cons.1 hd'
      rcases List.mem_cons.1 h2 with rfl | h2
      · rw [List.filter_cons, if_pos (sameKey_self _), filter_other hd2.1]
      · rw [List.filter_cons, if_neg, ih h2 hd2.2]
        have := hd2.1 key (List.mem_map.2 ⟨_, h2, rfl⟩)
        rw [sameKey_comm, this]
        simp

theorem like_absent {html : Bool} {es : List (Str × Json)} {k : Json} {key : Str} (hk : Like html (.obj es) k)
    (hd : KeysDiffer (es.map (·.1))) (hj : ∀ x ∈ es.map (·.1), sameKey key x = false) :
    ∃ gs, k = .obj gs ∧ (gs.filter fun e => sameKey key e.1) = [] := by
  cases hk with
  | @obj _ m gs hl hp =>
    refine ⟨gs, rfl, ?_⟩
    rw [filter_perm_eq hp (by rw [likeFields_keys hl]; exact hd), filter_other]
    rw [likeFields_keys hl]
    exact hj

/-! ### Text -/

theorem htmlText_safe {html : Bool} {s : Str} (h : HtmlSafe html s) : htmlText html s = s := by
  unfold htmlText
  cases html
  · rfl
  · have := h rfl
    simp only [if_true]
    clear h
    induction s with
    | nil => rfl
    | cons c s ih =>
      obtain ⟨h1, h2, h3⟩ := this c (by simp)
      rw [List.flatMap_cons, ih fun c hc => this c (by simp [hc])]
      simp [escapeHtmlChar, h1, h2, h3]

theorem ofMarshaled_quoted (t : Str) : ofMarshaled (quoted t) = .ok (.str t) := by
  simp [ofMarshaled, quoted]

theorem trip_text {β : Type} {html : Bool} {toJson : β → Res Str} {ofJson : β → Str → Res β} {z b b' : β} {t : Str}
    (h1 : toJson b = .ok (quoted t)) (h2 : HtmlSafe html t)
    (h3 : ofJson z (quoted t) = .ok b') : TripN html (textCodec toJson ofJson) z b b' := by
  refine ⟨.str t, by simp only [textCodec, h1, Res.bind_ok, ofMarshaled_quoted], by simp, fun k hk => ?_⟩
  cases hk
  rw [htmlText_safe h2]
  exact h3

end Verif
