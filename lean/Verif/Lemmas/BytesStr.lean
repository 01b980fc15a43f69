import Verif.Lemmas.Bytes
import Verif.Lemmas.TVRead

/-!
# The functions on strings, on bytes and on characters
-/

namespace Verif

/-! ## The last character -/

theorem decodeLastRune_bytesOf (c : Char) (x : Bytes) : decodeLastRune (x ++ bytesOf c) = (c.toNat, (bytesOf c).length) := by
  have hv := char_valid c
  have hd : decodeRune (bytesOf c) = (c.toNat, (bytesOf c).length) := by
    have := decodeRune_bytesOf c []
    rwa [List.append_nil] at this
  have hdrop : (x ++ bytesOf c).drop ((x ++ bytesOf c).length - (bytesOf c).length) = bytesOf c := by simp
  rcases bytesOf_cases c with ⟨h, b, e, hb⟩ | ⟨h, h', b0, b1, e, hb, hb1⟩ | ⟨h, h', b0, b1, b2, e, hb, hb1, hb2⟩ |
    ⟨h, b0, b1, b2, b3, e, hb, hb1, hb2, hb3⟩
  · unfold decodeLastRune
    simp [e, hb, h]
  · have hl : (bytesOf c).length = 2 := by rw [e]; rfl
    have h0 : runeStart b0 = true := by simp only [runeStart, hb, Bool.or_eq_true, decide_eq_true_eq]; omega
    have hr : (x ++ bytesOf c).reverse = b1 :: b0 :: x.reverse := by simp [e]
    unfold decodeLastRune
    rw [hr]
    simp only
    rw [if_neg (by omega)]
    simp only [lastRuneWidth, h0, if_true]
    rw [← hl, hdrop, hd, if_pos rfl]
  · have hl : (bytesOf c).length = 3 := by rw [e]; rfl
    have h0 : runeStart b0 = true := by simp only [runeStart, hb, Bool.or_eq_true, decide_eq_true_eq]; omega
    have h1 : runeStart b1 = false := by simp only [runeStart, hb1, Bool.or_eq_false_iff, decide_eq_false_iff_not]; omega
    have hr : (x ++ bytesOf c).reverse = b2 :: b1 :: b0 :: x.reverse := by simp [e]
    unfold decodeLastRune
    rw [hr]
    simp only
    rw [if_neg (by omega)]
    simp only [lastRuneWidth, h0, h1, if_true, Bool.false_eq_true, if_false]
    rw [← hl, hdrop, hd, if_pos rfl]
  · have hl : (bytesOf c).length = 4 := by rw [e]; rfl
    have h0 : runeStart b0 = true := by simp only [runeStart, hb, Bool.or_eq_true, decide_eq_true_eq]; omega
    have h1 : runeStart b1 = false := by simp only [runeStart, hb1, Bool.or_eq_false_iff, decide_eq_false_iff_not]; omega
    have h2 : runeStart b2 = false := by simp only [runeStart, hb2, Bool.or_eq_false_iff, decide_eq_false_iff_not]; omega
    have hr : (x ++ bytesOf c).reverse = b3 :: b2 :: b1 :: b0 :: x.reverse := by simp [e]
    unfold decodeLastRune
    rw [hr]
    simp only
    rw [if_neg (by omega)]
    simp only [lastRuneWidth, h0, h1, h2, if_true, Bool.false_eq_true, if_false]
    rw [← hl, hdrop, hd, if_pos rfl]

theorem lastRuneWidth_range {s : Bytes} {k : Nat} (h : lastRuneWidth s = some k) : 2 ≤ k ∧ k ≤ s.length + 1 := by
  unfold lastRuneWidth at h
  split at h
  · split at h
    · cases h; simp
    · split at h
      · split at h
        · cases h; simp
        · split at h
          · split at h
            · cases h; simp
            · cases h
          · cases h
      · cases h
  · cases h

/-- What is decoded at the end is a character, or an error that takes one byte. -/
theorem decodeLastRune_cases {s : Bytes} (h : s ≠ []) :
    (decodeLastRune s = runeError ∧ ∀ c x, s ≠ x ++ bytesOf c) ∨
    ∃ c x, s = x ++ bytesOf c ∧ decodeLastRune s = (c.toNat, (bytesOf c).length) := by
  by_cases hd : ∃ c x, s = x ++ bytesOf c
  · obtain ⟨c, x, rfl⟩ := hd
    exact .inr ⟨c, x, rfl, decodeLastRune_bytesOf c x⟩
  · left
    refine ⟨?_, fun c x e => hd ⟨c, x, e⟩⟩
    unfold decodeLastRune
    split
    · rename_i hr
      exact absurd (List.reverse_eq_nil_iff.1 hr) h
    · rename_i b before hr
      have hs : s = before.reverse ++ [b] := by
        rw [← List.reverse_reverse s, hr, List.reverse_cons]
      split
      · rename_i hb
        exfalso
        refine hd ⟨Char.ofNat b.toNat, before.reverse, ?_⟩
        have := ofNat_toNat_char (n := b.toNat) (by omega)
        rw [hs]
        simp [bytesOf, this, hb]
      · split
        · rfl
        · rename_i k hk
          obtain ⟨h1, h2⟩ := lastRuneWidth_range hk
          have hlen : s.length = before.length + 1 := by rw [hs]; simp
          simp only
          split
          · rename_i hw
            exfalso
            have hne : s.drop (s.length - k) ≠ [] := by
              intro e
              have := congrArg List.length e
              rw [List.length_drop, List.length_nil] at this
              omega
            rcases decodeRune_cases hne with ⟨e, -⟩ | ⟨c, x, e, e'⟩
            · rw [e] at hw
              have : (1 : Nat) = k := hw
              omega
            · rw [e'] at hw
              have hx : x = [] := by
                have := congrArg List.length e
                rw [List.length_drop, List.length_append] at this
                have hw : (bytesOf c).length = k := hw
                exact List.eq_nil_of_length_eq_zero (by omega)
              rw [hx, List.append_nil] at e
              exact hd ⟨c, s.take (s.length - k), by rw [← e, List.take_append_drop]⟩
          · rfl

/-! ## Trimming -/

theorem bytesOf_pos (c : Char) : 0 < (bytesOf c).length := List.length_pos_iff.2 (bytesOf_ne_nil c)

theorem trimLeftLoop_utf8 (p : Nat → Bool) (n : Nat) (s : Str) (h : (utf8 s).length ≤ n) :
    trimLeftLoop p n (utf8 s) = utf8 (trimLeft (fun c => p c.toNat) s) := by
  induction n generalizing s with
  | zero =>
    have : s = [] := utf8_eq_nil.1 (List.eq_nil_of_length_eq_zero (by omega))
    subst this
    rfl
  | succ n ih =>
    cases s with
    | nil => rfl
    | cons c s =>
      have hp := bytesOf_pos c
      simp only [utf8_cons, List.length_append] at h
      unfold trimLeftLoop
      rw [if_neg (by simp [bytesOf_ne_nil]), utf8_cons, decodeRune_bytesOf]
      simp only [List.drop_left, trimLeft, List.dropWhile_cons]
      split
      · exact ih s (by omega)
      · rfl

theorem trimLeftB_utf8 (p : Nat → Bool) (s : Str) : trimLeftB p (utf8 s) = utf8 (trimLeft (fun c => p c.toNat) s) :=
  trimLeftLoop_utf8 p _ s (Nat.le_refl _)

theorem trimRight_snoc (p : Char → Bool) (s : Str) (c : Char) :
    trimRight p (s ++ [c]) = if p c then trimRight p s else s ++ [c] := by
  unfold trimRight
  rw [List.reverse_append, List.reverse_singleton, List.singleton_append, List.dropWhile_cons]
  split <;> simp

theorem trimRightLoop_utf8 (p : Nat → Bool) (n : Nat) (s : Str) (h : (utf8 s).length ≤ n) :
    trimRightLoop p n (utf8 s) = utf8 (trimRight (fun c => p c.toNat) s) := by
  induction n generalizing s with
  | zero =>
    have : s = [] := utf8_eq_nil.1 (List.eq_nil_of_length_eq_zero (by omega))
    subst this
    rfl
  | succ n ih =>
    rcases List.eq_nil_or_concat s with rfl | ⟨s, c, rfl⟩
    · rfl
    · have hp := bytesOf_pos c
      have e : utf8 (s ++ [c]) = utf8 s ++ bytesOf c := by simp
      rw [List.concat_eq_append, e] at h ⊢
      rw [List.length_append] at h
      unfold trimRightLoop
      rw [if_neg (by simp [bytesOf_ne_nil]), decodeLastRune_bytesOf, trimRight_snoc]
      simp only
      split
      · rw [List.length_append, Nat.add_sub_cancel, List.take_left']
        · exact ih s (by omega)
        · rfl
      · rw [e]

theorem trimRightB_utf8 (p : Nat → Bool) (s : Str) : trimRightB p (utf8 s) = utf8 (trimRight (fun c => p c.toNat) s) :=
  trimRightLoop_utf8 p _ s (Nat.le_refl _)

theorem trimSpaceB_utf8 (s : Str) : trimSpaceB (utf8 s) = utf8 (trimSpace s) := by
  unfold trimSpaceB
  rw [trimLeftB_utf8, trimRightB_utf8]
  rfl

/-! ## Prefixes, suffixes and parts -/

theorem utf8_prefix {s p : Str} {r : Bytes} (h : utf8 s = utf8 p ++ r) : ∃ b, s = p ++ b ∧ r = utf8 b := by
  induction p generalizing s with
  | nil => exact ⟨s, rfl, h.symm⟩
  | cons c p ih =>
    cases s with
    | nil =>
      have := (List.append_eq_nil_iff.1 h.symm).1
      exact absurd (utf8_eq_nil.1 this) (by simp)
    | cons d s =>
      rw [utf8_cons, utf8_cons, List.append_assoc] at h
      obtain ⟨rfl, h'⟩ := bytesOf_inj h
      obtain ⟨b, rfl, hb⟩ := ih h'
      exact ⟨b, rfl, hb⟩

theorem cutPrefixB_eq_some {p s r : Bytes} : cutPrefixB p s = some r ↔ s = p ++ r := by
  induction p generalizing s with
  | nil => simp [cutPrefixB, eq_comm]
  | cons a p ih =>
    cases s with
    | nil => simp [cutPrefixB]
    | cons b s =>
      simp only [cutPrefixB]
      split
      · rename_i e; subst e
        rw [ih]; simp
      · rename_i e
        simp only [reduceCtorEq, false_iff]
        intro h
        exact e (List.cons.inj h).1.symm

theorem cutPrefixB_eq_none {p s : Bytes} : cutPrefixB p s = none ↔ ∀ r, s ≠ p ++ r := by
  rw [← Option.not_isSome_iff_eq_none, Option.isSome_iff_exists]
  simp only [cutPrefixB_eq_some, not_exists, ne_eq]

theorem cutPrefixB_utf8 (p s : Str) : cutPrefixB (utf8 p) (utf8 s) = (cutPrefix p s).map utf8 := by
  cases h : cutPrefix p s with
  | some r =>
    rw [cutPrefix_eq_some] at h
    subst h
    rw [utf8_append]
    exact cutPrefixB_eq_some.2 rfl
  | none =>
    rw [Option.map_none, cutPrefixB_eq_none]
    intro r e
    obtain ⟨b, hb, -⟩ := utf8_prefix e
    exact cutPrefix_eq_none.1 h b hb

theorem hasPrefixB_utf8 (p s : Str) : hasPrefixB (utf8 p) (utf8 s) = hasPrefix p s := by
  rw [Bool.eq_iff_iff, hasPrefix_iff]
  unfold hasPrefixB
  rw [List.isPrefixOf_iff_prefix]
  constructor
  · rintro ⟨r, e⟩
    obtain ⟨b, hb, -⟩ := utf8_prefix e.symm
    exact ⟨b, hb⟩
  · rintro ⟨r, rfl⟩
    exact ⟨utf8 r, by simp⟩

theorem hasSuffixB_utf8 (p s : Str) : hasSuffixB (utf8 p) (utf8 s) = hasSuffix p s := by
  rw [Bool.eq_iff_iff, hasSuffix_iff]
  unfold hasSuffixB
  rw [List.isSuffixOf_iff_suffix]
  constructor
  · rintro ⟨r, e⟩
    obtain ⟨a, b, rfl, -, hb⟩ := utf8_split e.symm (starts_utf8 p)
    exact ⟨a, by rw [utf8_inj hb]⟩
  · rintro ⟨r, rfl⟩
    exact ⟨utf8 r, by simp⟩

/-- Bytes inside a character are no place where a text is found. -/
theorem cutB_inside {sep y rest : Bytes} (hs : Starts sep) (hn : sep ≠ []) (hy : ∀ b ∈ y, runeStart b = false) :
    cutB sep (y ++ rest) = (cutB sep rest).map fun (a, b) => (y ++ a, b) := by
  induction y with
  | nil => simp
  | cons b y ih =>
    rw [List.cons_append]
    have h : cutPrefixB sep (b :: (y ++ rest)) = none := by
      rw [cutPrefixB_eq_none]
      intro r e
      cases sep with
      | nil => exact hn rfl
      | cons c t =>
        have := hs c t rfl
        rw [← (List.cons.inj e).1, hy b (by simp)] at this
        cases this
    rw [cutB, h, ih (fun b hb => hy b (by simp [hb]))]
    simp only [Option.map_map]
    rfl

theorem cutB_utf8 (sep s : Str) : cutB (utf8 sep) (utf8 s) = (cut sep s).map fun (a, b) => (utf8 a, utf8 b) := by
  induction s with
  | nil =>
    unfold cut cutB utf8
    by_cases h : sep = []
    · subst h; rfl
    · have : utf8 sep ≠ [] := fun e => h (utf8_eq_nil.1 e)
      unfold utf8 at this
      simp [h, this]
  | cons c s ih =>
    obtain ⟨b, t, e, -, ht⟩ := bytesOf_shape c
    have hp := cutPrefixB_utf8 sep (c :: s)
    rw [utf8_cons, e, List.cons_append] at hp ⊢
    unfold cutB cut
    rw [hp]
    cases h : cutPrefix sep (c :: s) with
    | some r => simp
    | none =>
      have hn : sep ≠ [] := by rintro rfl; simp [cutPrefix] at h
      simp only [Option.map_none]
      rw [cutB_inside (starts_utf8 sep) (fun e => hn (utf8_eq_nil.1 e)) ht, ih]
      simp only [Option.map_map]
      congr 1
      funext ⟨x, y⟩
      simp [e]

theorem containsB_utf8 (sub s : Str) : containsB (utf8 sub) (utf8 s) = contains sub s := by
  unfold containsB contains
  rw [cutB_utf8, Option.isSome_map]

/-! ## Lines -/

/-- The byte of a character below 128. -/
theorem bytesOf_ascii {c : Char} {b : UInt8} (h : c.toNat = b.toNat) (hb : b.toNat < 0x80) : bytesOf c = [b] := by
  rcases bytesOf_cases c with ⟨-, b', e, hb'⟩ | ⟨h', -⟩ | ⟨h', -⟩ | ⟨h', -⟩
  · rw [e, byte_eq (hb'.trans h)]
  all_goals omega

/-- No other character has it. -/
theorem bytesOf_other {c : Char} {b : UInt8} (h : c.toNat ≠ b.toNat) (hb : b.toNat < 0x80) : b ∉ bytesOf c := by
  have hv := char_valid c
  intro hm
  rcases bytesOf_cases c with ⟨_, b', e, hb'⟩ | ⟨h1, h', b0, b1, e, hb0, hb1⟩ | ⟨h1, h', b0, b1, b2, e, hb0, hb1, hb2⟩ |
    ⟨h1, b0, b1, b2, b3, e, hb0, hb1, hb2, hb3⟩ <;> rw [e] at hm <;>
    simp only [List.mem_cons, List.not_mem_nil, or_false] at hm
  · subst hm; omega
  · rcases hm with rfl | rfl <;> omega
  · rcases hm with rfl | rfl | rfl <;> omega
  · rcases hm with rfl | rfl | rfl | rfl <;> omega

theorem splitByte_before {sep : UInt8} {y rest : Bytes} (h : sep ∉ y) {w : Bytes} {ws : List Bytes}
    (hr : splitByte sep rest = w :: ws) : splitByte sep (y ++ rest) = (y ++ w) :: ws := by
  induction y with
  | nil => exact hr
  | cons b y ih =>
    have hb : ¬ b = sep := fun e => h (by simp [e])
    simp only [List.cons_append, splitByte, hb, if_false, ih (fun hm => h (by simp [hm]))]

theorem splitChar_cons (sep : Char) (s : Str) : ∃ w ws, splitChar sep s = w :: ws := by
  cases s with
  | nil => exact ⟨_, _, rfl⟩
  | cons c s =>
    unfold splitChar
    split
    · exact ⟨_, _, rfl⟩
    · split <;> exact ⟨_, _, rfl⟩

theorem splitByte_utf8 {sep : Char} {b : UInt8} (h : sep.toNat = b.toNat) (hb : b.toNat < 0x80) (s : Str) :
    splitByte b (utf8 s) = (splitChar sep s).map utf8 := by
  induction s with
  | nil => rfl
  | cons c s ih =>
    obtain ⟨w, ws, hw⟩ := splitChar_cons sep s
    by_cases hc : c = sep
    · subst hc
      rw [utf8_cons, bytesOf_ascii h hb]
      simp [splitByte, splitChar, ih]
    · have hne : c.toNat ≠ b.toNat := fun e => hc (Char.toNat_inj.1 (e.trans h.symm))
      rw [hw, List.map_cons] at ih
      rw [utf8_cons, splitByte_before (bytesOf_other hne hb) ih]
      simp [splitChar, hc, hw]

theorem getLast?_nil_map (l : List Str) : (l.map utf8).getLast? = some [] ↔ l.getLast? = some [] := by
  rw [List.getLast?_map]
  cases l.getLast? with
  | none => simp
  | some x => simp [utf8_eq_nil]

theorem rawLinesB_utf8 (s : Str) : rawLinesB (utf8 s) = (rawLines s).map utf8 := by
  unfold rawLinesB rawLines
  simp only
  rw [splitByte_utf8 (sep := '\n') (b := 10) rfl (by decide)]
  by_cases h : (splitChar '\n' s).getLast? = some []
  · rw [if_pos ((getLast?_nil_map _).2 h), if_pos h, List.map_dropLast]
  · rw [if_neg (fun h' => h ((getLast?_nil_map _).1 h')), if_neg h]

theorem dropCR_concat (l : Str) (c : Char) : dropCR (l ++ [c]) = if c = '\r' then l else l ++ [c] := by
  unfold dropCR
  rw [List.reverse_append, List.reverse_singleton, List.singleton_append]
  split
  · rename_i h; cases h; simp
  · rename_i h
    rw [if_neg]
    rintro rfl
    exact h _ rfl

theorem dropCRB_utf8 (l : Str) : dropCRB (utf8 l) = utf8 (dropCR l) := by
  rcases List.eq_nil_or_concat l with rfl | ⟨s, c, rfl⟩
  · rfl
  · rw [List.concat_eq_append, dropCR_concat]
    by_cases hc : c = '\r'
    · subst hc
      have e : utf8 (s ++ ['\r']) = utf8 s ++ [13] := by simp [bytesOf_ascii (c := '\r') (b := 13) rfl (by decide)]
      rw [if_pos rfl, e]
      unfold dropCRB
      simp
    · rw [if_neg hc]
      have hne : c.toNat ≠ (13 : UInt8).toNat := fun e => hc (Char.toNat_inj.1 (e.trans rfl))
      have hm := bytesOf_other hne (by decide)
      have e : utf8 (s ++ [c]) = utf8 s ++ bytesOf c := by simp
      rw [e]
      unfold dropCRB
      split
      · rename_i b t hr
        rw [if_neg]
        rintro rfl
        rw [List.reverse_append] at hr
        have : (13 : UInt8) ∈ (bytesOf c).reverse := by
          cases hb : (bytesOf c).reverse with
          | nil => exact absurd (List.reverse_eq_nil_iff.1 hb) (bytesOf_ne_nil c)
          | cons x y =>
            rw [hb] at hr
            cases hr
            simp
        exact hm (List.mem_reverse.1 this)
      · rfl

theorem scanLinesB_utf8 (s : Str) : scanLinesB (utf8 s) = (scanLines s >>= fun ls => .ok (ls.map utf8)) := by
  unfold scanLinesB scanLines
  simp only
  rw [rawLinesB_utf8, List.all_map]
  have : ((fun l : Bytes => decide (l.length < maxScanToken)) ∘ utf8) = fun l => decide (byteLen l < maxScanToken) := by
    funext l
    simp [utf8_length]
  rw [this]
  split
  · simp only [Res.bind_ok, List.map_map]
    congr 1
    apply List.map_congr_left
    intro l _
    exact dropCRB_utf8 l
  · rfl

/-! ## Order -/

theorem bytesLe_head {a b : UInt8} {x y : Bytes} (h : a.toNat < b.toNat) :
    bytesLe (a :: x) (b :: y) = true ∧ bytesLe (b :: y) (a :: x) = false := by
  have h1 : ¬ a = b := by rintro rfl; omega
  have h2 : ¬ b = a := by rintro rfl; omega
  simp only [bytesLe, h1, h2, if_false, decide_eq_true_eq, decide_eq_false_iff_not]
  omega

theorem bytesLe_same (a x y : Bytes) : bytesLe (a ++ x) (a ++ y) = bytesLe x y := by
  induction a with
  | nil => rfl
  | cons b a ih => simpa [bytesLe] using ih

theorem bytesLe_tail {a b : UInt8} {x y : Bytes} (e : a.toNat = b.toNat)
    (h : bytesLe x y = true ∧ bytesLe y x = false) : bytesLe (a :: x) (b :: y) = true ∧ bytesLe (b :: y) (a :: x) = false := by
  have := byte_eq e
  subst this
  simpa [bytesLe] using h

/-- The order of bytes is the order of characters. -/
theorem bytesLe_lt {c d : Char} (h : c.toNat < d.toNat) (x y : Bytes) :
    bytesLe (bytesOf c ++ x) (bytesOf d ++ y) = true ∧ bytesLe (bytesOf d ++ y) (bytesOf c ++ x) = false := by
  have hv := char_valid c
  have hw := char_valid d
  rcases bytesOf_cases c with ⟨h1, b, e, hb⟩ | ⟨h1, h', b0, b1, e, hb, hb1⟩ | ⟨h1, h', b0, b1, b2, e, hb, hb1, hb2⟩ |
    ⟨h1, b0, b1, b2, b3, e, hb, hb1, hb2, hb3⟩ <;>
  rcases bytesOf_cases d with ⟨g1, d, f, gb⟩ | ⟨g1, g', d0, d1, f, gb, gb1⟩ | ⟨g1, g', d0, d1, d2, f, gb, gb1, gb2⟩ |
    ⟨g1, d0, d1, d2, d3, f, gb, gb1, gb2, gb3⟩ <;> rw [e, f] <;>
  simp only [List.cons_append, List.nil_append] <;>
  first
    | (exact bytesLe_head (by omega))
    | (exfalso; omega)
    | skip
  · by_cases k : c.toNat / 64 = d.toNat / 64
    · exact bytesLe_tail (by omega) (bytesLe_head (by omega))
    · exact bytesLe_head (by omega)
  · by_cases k : c.toNat / 4096 = d.toNat / 4096
    · refine bytesLe_tail (by omega) ?_
      by_cases k' : c.toNat / 64 % 64 = d.toNat / 64 % 64
      · exact bytesLe_tail (by omega) (bytesLe_head (by omega))
      · exact bytesLe_head (by omega)
    · exact bytesLe_head (by omega)
  · by_cases k : c.toNat / 262144 = d.toNat / 262144
    · refine bytesLe_tail (by omega) ?_
      by_cases k' : c.toNat / 4096 % 64 = d.toNat / 4096 % 64
      · refine bytesLe_tail (by omega) ?_
        by_cases k'' : c.toNat / 64 % 64 = d.toNat / 64 % 64
        · exact bytesLe_tail (by omega) (bytesLe_head (by omega))
        · exact bytesLe_head (by omega)
      · exact bytesLe_head (by omega)
    · exact bytesLe_head (by omega)

theorem bytesLe_utf8 (a b : Str) : bytesLe (utf8 a) (utf8 b) = strLe a b := by
  induction a generalizing b with
  | nil => rfl
  | cons c a ih =>
    cases b with
    | nil =>
      obtain ⟨x, t, e, -⟩ := bytesOf_shape c
      rw [utf8_cons, e]
      rfl
    | cons d b =>
      simp only [strLe, utf8_cons]
      split
      · rename_i h; subst h
        rw [bytesLe_same, ih]
      · rename_i h
        have hne : c.toNat ≠ d.toNat := fun e => h (Char.toNat_inj.1 e)
        by_cases hl : c.toNat < d.toNat
        · rw [(bytesLe_lt hl _ _).1]; simp [hl]
        · rw [(bytesLe_lt (show d.toNat < c.toNat by omega) _ _).2]; simp [hl]

end Verif
