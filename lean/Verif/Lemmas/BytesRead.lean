import Verif.Lemmas.BytesStr
import Verif.Spec.Bytes

/-!
# The tag-value reader on bytes
-/

namespace Verif
open Spec

/-! ## On text, the reader on bytes is the reader on characters -/

/-- The reader's state, in bytes. -/
def readerBytes (r : TVReader) : BReader :=
  ⟨r.midtext, r.tvList.map pairBytes, utf8 r.currentTag, utf8 r.currentValue⟩

theorem readLineB_utf8 (r : TVReader) (l : Str) :
    readLineB (readerBytes r) (utf8 l) = (readLine r l >>= fun r => .ok (readerBytes r)) := by
  unfold readLineB readLine
  by_cases hm : r.midtext = true
  · have hm' : (readerBytes r).midtext = true := hm
    rw [if_pos hm', if_pos hm]
    unfold readLineMidtextB readLineMidtext
    rw [cutB_utf8]
    simp only [textClose]
    cases h : cut g!"</text>" l with
    | none => simp [readerBytes]
    | some x => simp [readerBytes, pairBytes]
  · have hm' : ¬ (readerBytes r).midtext = true := hm
    rw [if_neg hm', if_neg hm]
    unfold readLineReadyB readLineReady
    rw [trimLeftB_utf8]
    have e : (fun c : Char => isSpaceRune c.toNat) = isSpace := rfl
    simp only [e]
    by_cases h0 : trimLeft isSpace l = []
    · rw [if_pos h0, h0]; rfl
    · rw [if_neg h0, if_neg (fun e => h0 (utf8_eq_nil.1 e)), hasPrefixB_utf8]
      split
      · rfl
      · rw [cutB_utf8]
        cases h1 : cut g!":" (trimLeft isSpace l) with
        | none => rfl
        | some x =>
          obtain ⟨t, rest⟩ := x
          simp only [Option.map_some, textOpen, textClose]
          rw [trimSpaceB_utf8, trimSpaceB_utf8, cutB_utf8]
          cases h2 : cut g!"<text>" rest with
          | none => simp [readerBytes, pairBytes]
          | some x =>
            obtain ⟨_, body⟩ := x
            simp only [Option.map_some]
            rw [cutB_utf8]
            cases h3 : cut g!"</text>" body with
            | none => simp [readerBytes]
            | some x => simp [readerBytes, pairBytes]

theorem readLinesB_utf8 (ls : List Str) (r : TVReader) :
    readLinesB (readerBytes r) (ls.map utf8) = (readLines r ls >>= fun r => .ok (readerBytes r)) := by
  induction ls generalizing r with
  | nil => rfl
  | cons l ls ih =>
    rw [List.map_cons]
    unfold readLinesB readLines
    rw [readLineB_utf8]
    cases h : readLine r l with
    | ok r' => exact ih r'
    | err => rfl
    | panic => rfl

theorem readTagValuesB_utf8 (text : Str) :
    readTagValuesB (utf8 text) = (readTagValues text >>= fun ps => .ok (ps.map pairBytes)) := by
  unfold readTagValuesB readTagValues
  rw [scanLinesB_utf8]
  cases h : scanLines text with
  | err => rfl
  | panic => rfl
  | ok ls =>
    simp only [Res.bind_ok, readTagValueLines]
    have := readLinesB_utf8 ls {}
    have e : readerBytes {} = {} := rfl
    rw [e] at this
    rw [this]
    cases h : readLines {} ls with
    | err => rfl
    | panic => rfl
    | ok r =>
      simp only [Res.bind_ok, BReader.finalize, TVReader.finalize]
      have hm : (readerBytes r).midtext = r.midtext := rfl
      rw [hm]
      split <;> rfl

/-! ## Functions on any bytes -/

theorem trimLeftLoop_self {s : Bytes} (h : NoSpaceFirst s) (n : Nat) : trimLeftLoop isSpaceRune n s = s := by
  cases n with
  | zero => rfl
  | succ n =>
    unfold trimLeftLoop
    by_cases hs : s = []
    · rw [if_pos hs, hs]
    · rw [if_neg hs, if_neg]
      rcases decodeRune_cases hs with ⟨e, -⟩ | ⟨c, x, e, e'⟩
      · rw [e]; decide
      · rw [e']
        intro hc
        exact h c x hc e

theorem trimRightB_self {s : Bytes} (h : NoSpaceLast s) : trimRightB isSpaceRune s = s := by
  unfold trimRightB
  cases s.length with
  | zero => rfl
  | succ n =>
    unfold trimRightLoop
    by_cases hs : s = []
    · rw [if_pos hs, hs]
    · rw [if_neg hs, if_neg]
      rcases decodeLastRune_cases hs with ⟨e, -⟩ | ⟨c, x, e, e'⟩
      · rw [e]; decide
      · rw [e']
        intro hc
        exact h c x hc e

theorem trimSpaceB_self {s : Bytes} (h : NoSpaceFirst s) (h' : NoSpaceLast s) : trimSpaceB s = s := by
  unfold trimSpaceB trimLeftB
  rw [trimLeftLoop_self h, trimRightB_self h']

theorem trimSpaceB_pad {s : Bytes} (h : NoSpaceFirst s) (h' : NoSpaceLast s) : trimSpaceB (32 :: s) = s := by
  have : trimLeftB isSpaceRune (32 :: s) = s := by
    unfold trimLeftB
    rw [List.length_cons]
    unfold trimLeftLoop
    rw [if_neg (by simp)]
    have hd : decodeRune (32 :: s) = (32, 1) := rfl
    rw [hd, if_pos (by decide)]
    exact trimLeftLoop_self h _
  unfold trimSpaceB
  rw [this, trimRightB_self h']

/-- A part before an ASCII character that is no white space. -/
theorem noSpaceFirst_append {t r : Bytes} {b : UInt8} (ht : NoSpaceFirst t) (hb : b.toNat < 0x80)
    (hs : isSpaceRune b.toNat = false) : NoSpaceFirst (t ++ b :: r) := by
  intro c x hc e
  cases t with
  | nil =>
    have h1 := decodeRune_bytesOf c x
    rw [← e] at h1
    simp only [List.nil_append, decodeRune, hb, if_true] at h1
    have h2 : b.toNat = c.toNat := (Prod.mk.inj h1).1
    have h3 : isSpaceRune c.toNat = true := hc
    rw [← h2, hs] at h3
    cases h3
  | cons a t =>
    rcases List.append_eq_append_iff.1 e with ⟨z, h1, h2⟩ | ⟨z, h1, h2⟩
    · cases z with
      | nil => exact ht c [] hc (by simp_all)
      | cons z0 z =>
        obtain ⟨b', t', e', -, hin⟩ := bytesOf_shape c
        rw [e', List.cons_append] at h1
        have h3 : t' = t ++ z0 :: z := (List.cons.inj h1).2
        have h4 : z0 = b := (List.cons.inj h2).1.symm
        have := hin z0 (by rw [h3]; simp)
        rw [h4] at this
        simp only [runeStart, Bool.or_eq_false_iff, decide_eq_false_iff_not] at this
        omega
    · exact ht c z hc h1

theorem cutB_eq {sep s a b : Bytes} (h : cutB sep s = some (a, b)) : s = a ++ sep ++ b := by
  induction s generalizing a b with
  | nil =>
    simp only [cutB] at h
    split at h
    · simp at h; obtain ⟨rfl, rfl⟩ := h; simp_all
    · simp at h
  | cons c t ih =>
    simp only [cutB] at h
    split at h
    · rename_i r hr
      simp at h
      obtain ⟨rfl, rfl⟩ := h
      simpa using cutPrefixB_eq_some.1 hr
    · cases hc : cutB sep t with
      | none => simp [hc] at h
      | some x =>
        obtain ⟨x, y⟩ := x
        simp [hc] at h
        obtain ⟨rfl, rfl⟩ := h
        have := ih hc
        simp [this]

theorem cutB_none {sep s : Bytes} (h : ∀ a b, s ≠ a ++ sep ++ b) : cutB sep s = none := by
  cases hc : cutB sep s with
  | none => rfl
  | some x =>
    obtain ⟨a, b⟩ := x
    exact absurd (cutB_eq hc) (h a b)

theorem cutPrefixB_before {p w z : Bytes} {c : UInt8} (hc : c ∉ p) :
    cutPrefixB p (w ++ c :: z) = (cutPrefixB p w).map (· ++ c :: z) := by
  induction p generalizing w with
  | nil => simp [cutPrefixB]
  | cons a p ih =>
    have h1 : a ≠ c := fun h => hc (by simp [h])
    have h2 : c ∉ p := fun h => hc (by simp [h])
    cases w with
    | nil => simp [cutPrefixB, h1]
    | cons b w =>
      simp only [List.cons_append, cutPrefixB]
      by_cases h : a = b
      · simp [h, ih h2]
      · simp [h]

theorem cutB_append_sep {c : UInt8} {t v r : Bytes} (ht : c ∉ t) (hv : ∀ a b, v ≠ a ++ (c :: t) ++ b) :
    cutB (c :: t) (v ++ (c :: t) ++ r) = some (v, r) := by
  induction v with
  | nil =>
    simp only [List.nil_append, List.cons_append, cutB]
    rw [← List.cons_append, cutPrefixB_eq_some.2 rfl]
  | cons x v ih =>
    have hv' : ∀ a b, v ≠ a ++ (c :: t) ++ b := fun a b h => hv (x :: a) b (by simp [h])
    have hp : cutPrefixB (c :: t) (x :: v) = none := by
      rw [cutPrefixB_eq_none]
      intro r' h
      exact hv [] r' (by simpa using h)
    simp only [List.cons_append, cutB]
    have : cutPrefixB (c :: t) (x :: (v ++ c :: t ++ r)) = none := by
      simp only [cutPrefixB] at hp ⊢
      split
      · rename_i heq
        simp only [heq, if_true] at hp
        rw [List.append_assoc, List.cons_append, cutPrefixB_before ht]
        simp [hp]
      · rfl
    rw [List.append_assoc, List.cons_append] at this
    rw [List.append_assoc, List.cons_append, this]
    rw [List.append_assoc, List.cons_append] at ih
    simp [ih hv']

theorem cutB_single {c : UInt8} {a b : Bytes} (h : c ∉ a) : cutB [c] (a ++ c :: b) = some (a, b) := by
  have := cutB_append_sep (c := c) (t := []) (v := a) (r := b) (by simp) (by
    rintro x y rfl
    exact h (by simp))
  simpa using this

theorem splitByte_not_mem {c : UInt8} {s : Bytes} (h : c ∉ s) : splitByte c s = [s] := by
  have := splitByte_before (rest := []) h (w := []) (ws := []) rfl
  simpa using this

theorem splitByte_ne_nil (c : UInt8) (s : Bytes) : splitByte c s ≠ [] := by
  cases s with
  | nil => simp [splitByte]
  | cons x s =>
    simp only [splitByte]
    split
    · simp
    · split <;> simp

theorem splitByte_append {c : UInt8} {a b : Bytes} (h : c ∉ a) : splitByte c (a ++ c :: b) = a :: splitByte c b := by
  have := splitByte_before (rest := c :: b) h (w := []) (ws := splitByte c b) (by simp [splitByte])
  simpa using this

theorem first_line {v : Bytes} (h : (10 : UInt8) ∈ v) : ∃ a b, v = a ++ 10 :: b ∧ (10 : UInt8) ∉ a := by
  induction v with
  | nil => cases h
  | cons x v ih =>
    by_cases hx : x = 10
    · exact ⟨[], v, by simp [hx], by simp⟩
    · have hv : (10 : UInt8) ∈ v := by
        rcases List.mem_cons.1 h with e | h
        · exact absurd e.symm hx
        · exact h
      obtain ⟨a, b, rfl, ha⟩ := ih hv
      refine ⟨x :: a, b, rfl, ?_⟩
      intro hm
      rcases List.mem_cons.1 hm with e | hm
      · exact hx e.symm
      · exact ha hm

theorem splitByte_last (x y : Bytes) : splitByte 10 (x ++ 10 :: y) = splitByte 10 x ++ splitByte 10 y := by
  induction x with
  | nil => rfl
  | cons c x ih =>
    simp only [List.cons_append, splitByte]
    split
    · rw [ih]; rfl
    · rw [ih]
      cases h : splitByte 10 x with
      | nil => exact absurd h (splitByte_ne_nil 10 x)
      | cons w ws => rfl

theorem rawLinesB_append (x y : Bytes) : rawLinesB (x ++ 10 :: y) = splitByte 10 x ++ rawLinesB y := by
  unfold rawLinesB
  simp only
  rw [splitByte_last]
  have hn := splitByte_ne_nil 10 y
  have hl : (splitByte 10 x ++ splitByte 10 y).getLast? = (splitByte 10 y).getLast? := by
    rw [List.getLast?_append]
    cases h : (splitByte 10 y).getLast? with
    | none => exact absurd (List.getLast?_eq_none_iff.1 h) hn
    | some z => rfl
  rw [hl]
  split
  · rw [List.dropLast_append_of_ne_nil hn]
  · rfl

theorem dropCRB_of_last_ne {l : Bytes} (h : ∀ t, l ≠ t ++ [13]) : dropCRB l = l := by
  unfold dropCRB
  split
  · rename_i b t hr
    rw [if_neg]
    rintro rfl
    refine h t.reverse ?_
    rw [← List.reverse_reverse l, hr, List.reverse_cons]
  · rfl

/-! ## Reading fields of any bytes -/

theorem lit_colon : utf8 g!":" = [58] := by decide
theorem lit_hash : utf8 g!"#" = [35] := by decide
theorem lit_newline : utf8 g!"\n" = [10] := by decide
theorem lit_crlf : utf8 g!"\r\n" = [13, 10] := by decide
theorem lit_between : utf8 g!": " = [58, 32] := by decide
theorem lit_open : utf8 g!"<text>" = [60, 116, 101, 120, 116, 62] := by decide
theorem lit_close : utf8 g!"</text>" = [60, 47, 116, 101, 120, 116, 62] := by decide

/-- A line `tag: rest`. -/
theorem readLineB_head {r : BReader} {t rest : Bytes} (hm : r.midtext = false) (ht : GoodTagB t) :
    readLineB r (t ++ 58 :: rest) =
      match cutB (utf8 g!"<text>") rest with
      | none => .ok { r with tvList := r.tvList ++ [⟨t, trimSpaceB rest⟩], currentTag := [], currentValue := [] }
      | some (_, body) =>
        match cutB (utf8 g!"</text>") body with
        | some (inner, _) =>
          .ok { r with tvList := r.tvList ++ [⟨t, inner⟩], currentTag := [], currentValue := [] }
        | none => .ok { r with currentTag := t, currentValue := body ++ utf8 g!"\n", midtext := true } := by
  have h1 : trimLeftB isSpaceRune (t ++ 58 :: rest) = t ++ 58 :: rest :=
    trimLeftLoop_self (noSpaceFirst_append ht.first (by decide) (by decide)) _
  have h2 : hasPrefixB (utf8 g!"#") (t ++ 58 :: rest) = false := by
    rw [lit_hash]
    unfold hasPrefixB
    rw [Bool.eq_false_iff, ne_eq, List.isPrefixOf_iff_prefix]
    rintro ⟨x, e⟩
    cases t with
    | nil => exact absurd (List.cons.inj e).1 (by decide)
    | cons a t =>
      have := (List.cons.inj e).1
      subst this
      exact ht.notComment t rfl
  have h3 : cutB (utf8 g!":") (t ++ 58 :: rest) = some (t, rest) := by
    rw [lit_colon]; exact cutB_single ht.noColon
  unfold readLineB
  rw [if_neg (by simp [hm])]
  unfold readLineReadyB
  simp only [h1, h2, h3]
  rw [if_neg (by simp), if_neg (by simp), trimSpaceB_self ht.first ht.last]
  cases cutB (utf8 g!"<text>") rest with
  | none => rfl
  | some x =>
    obtain ⟨_, body⟩ := x
    simp only
    cases cutB (utf8 g!"</text>") body <;> rfl

theorem readLinesB_append (r : BReader) (a b : List Bytes) :
    readLinesB r (a ++ b) = (readLinesB r a >>= fun r => readLinesB r b) := by
  induction a generalizing r with
  | nil => rfl
  | cons l a ih =>
    rw [List.cons_append]
    simp only [readLinesB]
    cases readLineB r l with
    | ok r' => exact ih r'
    | err => rfl
    | panic => rfl

/-- Reading the remaining lines of an open text block. -/
theorem readLinesB_block (n : Nat) : ∀ (v : Bytes), v.length ≤ n → ∀ r : BReader, r.midtext = true →
    WithoutB g!"</text>" v → WithoutB g!"\r\n" v →
    readLinesB r ((splitByte 10 (v ++ utf8 g!"</text>")).map dropCRB) =
      .ok { midtext := false, tvList := r.tvList ++ [⟨r.currentTag, r.currentValue ++ v⟩],
            currentTag := [], currentValue := [] } := by
  induction n with
  | zero =>
    intro v hl r hm hc hr
    have : v = [] := List.eq_nil_of_length_eq_zero (by omega)
    subst this
    have hs : splitByte 10 ([] ++ utf8 g!"</text>") = [utf8 g!"</text>"] := by decide
    have hd : dropCRB (utf8 g!"</text>") = utf8 g!"</text>" := by decide
    have hcut : cutB (utf8 g!"</text>") (utf8 g!"</text>") = some ([], []) := by decide
    rw [hs]
    simp only [List.map_cons, List.map_nil, hd, readLinesB, readLineB, hm, if_true, readLineMidtextB, hcut]
  | succ n ih =>
    intro v hl r hm hc hr
    by_cases hv : (10 : UInt8) ∈ v
    · obtain ⟨a, b, rfl, ha⟩ := first_line hv
      have hlen : b.length ≤ n := by simp only [List.length_append, List.length_cons] at hl; omega
      have hca : ∀ x y, a ≠ x ++ utf8 g!"</text>" ++ y := fun x y e => hc x (y ++ 10 :: b) (by rw [e]; simp)
      have hcb : WithoutB g!"</text>" b := fun x y e => hc (a ++ 10 :: x) y (by rw [e]; simp)
      have hrb : WithoutB g!"\r\n" b := fun x y e => hr (a ++ 10 :: x) y (by rw [e]; simp)
      have hd : dropCRB a = a := dropCRB_of_last_ne fun t e => hr t b (by rw [e, lit_crlf]; simp)
      rw [List.append_assoc, List.cons_append, splitByte_append ha]
      simp only [List.map_cons, hd, readLinesB, readLineB, hm, if_true, readLineMidtextB, cutB_none hca]
      rw [ih b hlen _ rfl hcb hrb]
      simp [lit_newline, -utf8_cons]
    · have hn : (10 : UInt8) ∉ v ++ utf8 g!"</text>" := by
        rw [lit_close]
        simp only [List.mem_append, not_or]
        exact ⟨hv, by decide⟩
      have hd : dropCRB (v ++ utf8 g!"</text>") = v ++ utf8 g!"</text>" := by
        refine dropCRB_of_last_ne fun t e => ?_
        rw [lit_close, show v ++ [60, 47, 116, 101, 120, 116, 62] = (v ++ [60, 47, 116, 101, 120, 116]) ++ [62] by simp] at e
        have := (List.append_inj' e rfl).2
        exact absurd this (by decide)
      have hcut : cutB (utf8 g!"</text>") (v ++ utf8 g!"</text>") = some (v, []) := by
        have := cutB_append_sep (c := 60) (t := [47, 116, 101, 120, 116, 62]) (v := v) (r := []) (by decide) (by
          intro a b e
          exact hc a b (by rw [e, lit_close]))
        rw [List.append_nil] at this
        rw [lit_close]
        exact this
      rw [splitByte_not_mem hn]
      simp only [List.map_cons, List.map_nil, hd, readLinesB, readLineB, hm, if_true, readLineMidtextB, hcut]

/-- Reading one written field. -/
theorem readLinesB_field (r : BReader) (p : BPair) (hm : r.midtext = false) (hct : r.currentTag = [])
    (hcv : r.currentValue = []) (ht : GoodTagB p.tag) (hv : GoodValueB p.value) (rest : Bytes) :
    readLinesB r ((rawLinesB (fieldBytes p ++ rest)).map dropCRB) =
      readLinesB { r with tvList := r.tvList ++ [p] } ((rawLinesB rest).map dropCRB) := by
  obtain ⟨t, v⟩ := p
  simp only at ht hv
  unfold fieldBytes
  simp only
  rcases hv with ⟨hnl, hv1, hv2⟩ | ⟨hnl, hv1, hv2, hv3⟩
  · rw [if_pos hnl]
    obtain ⟨a, b, rfl, ha⟩ := first_line hnl
    have e : t ++ utf8 g!": " ++ (utf8 g!"<text>" ++ (a ++ 10 :: b) ++ utf8 g!"</text>") ++ [10] ++ rest =
        ((t ++ 58 :: (32 :: utf8 g!"<text>" ++ a)) ++ 10 :: (b ++ utf8 g!"</text>")) ++ 10 :: rest := by
      simp [lit_between, -utf8_cons]
    have hn : (10 : UInt8) ∉ t ++ 58 :: (32 :: utf8 g!"<text>" ++ a) := by
      rw [lit_open]
      simp only [List.mem_append, List.mem_cons, not_or, List.cons_append, List.nil_append]
      exact ⟨ht.oneLine, by decide, by decide, by decide, by decide, by decide, by decide, by decide, by decide, ha⟩
    rw [e, rawLinesB_append, splitByte_append hn, List.cons_append, List.map_cons]
    have hd : dropCRB (t ++ 58 :: (32 :: utf8 g!"<text>" ++ a)) = t ++ 58 :: (32 :: utf8 g!"<text>" ++ a) := by
      refine dropCRB_of_last_ne fun u hu => ?_
      rcases List.eq_nil_or_concat a with rfl | ⟨a', c, rfl⟩
      · rw [lit_open, show t ++ 58 :: (32 :: [60, 116, 101, 120, 116, 62] ++ []) = (t ++ [58, 32, 60, 116, 101, 120, 116]) ++ [62] by simp] at hu
        have := (List.append_inj' hu rfl).2
        exact absurd this (by decide)
      · rw [List.concat_eq_append, show t ++ 58 :: (32 :: utf8 g!"<text>" ++ (a' ++ [c])) = (t ++ 58 :: (32 :: utf8 g!"<text>" ++ a')) ++ [c] by simp] at hu
        have := (List.append_inj' hu rfl).2
        have : c = 13 := (List.cons.inj this).1
        subst this
        exact hv2 a' b (by simp [lit_crlf, -utf8_cons])
    have hca : ∀ x y, a ≠ x ++ utf8 g!"</text>" ++ y := fun x y e => hv1 x (y ++ 10 :: b) (by rw [e]; simp)
    have hcb : WithoutB g!"</text>" b := fun x y e => hv1 (a ++ 10 :: x) y (by rw [e]; simp)
    have hrb : WithoutB g!"\r\n" b := fun x y e => hv2 (a ++ 10 :: x) y (by rw [e]; simp)
    have hcut : cutB (utf8 g!"<text>") (32 :: utf8 g!"<text>" ++ a) = some ([32], a) := by
      have := cutB_append_sep (c := 60) (t := [116, 101, 120, 116, 62]) (v := [32]) (r := a) (by decide) (by
        intro x y e
        have := congrArg List.length e
        simp at this
        omega)
      rw [lit_open]
      exact this
    have hline := readLineB_head (r := r) (rest := 32 :: utf8 g!"<text>" ++ a) hm ht
    rw [hcut] at hline
    simp only [cutB_none hca] at hline
    rw [hd]
    simp only [readLinesB, hline]
    rw [List.map_append, readLinesB_append, readLinesB_block _ b (Nat.le_refl _) _ rfl hcb hrb]
    simp [lit_newline, hm, hct, hcv, -utf8_cons]
  · rw [if_neg hnl]
    have e : t ++ utf8 g!": " ++ v ++ [10] ++ rest = (t ++ 58 :: 32 :: v) ++ 10 :: rest := by simp [lit_between, -utf8_cons]
    have hn : (10 : UInt8) ∉ t ++ 58 :: 32 :: v := by
      simp only [List.mem_append, List.mem_cons, not_or]
      exact ⟨ht.oneLine, by decide, by decide, hnl⟩
    rw [e, rawLinesB_append, splitByte_not_mem hn]
    have hd : dropCRB (t ++ 58 :: 32 :: v) = t ++ 58 :: 32 :: v := by
      refine dropCRB_of_last_ne fun u hu => ?_
      rcases List.eq_nil_or_concat v with rfl | ⟨v', c, rfl⟩
      · rw [show t ++ 58 :: 32 :: [] = (t ++ [58]) ++ [32] by simp] at hu
        have := (List.append_inj' hu rfl).2
        exact absurd this (by decide)
      · rw [List.concat_eq_append, show t ++ 58 :: 32 :: (v' ++ [c]) = (t ++ 58 :: 32 :: v') ++ [c] by simp] at hu
        have := (List.append_inj' hu rfl).2
        have : c = 13 := (List.cons.inj this).1
        subst this
        exact hv2 '\r' v' (by decide) (by rw [List.concat_eq_append]; rfl)
    have hcut : cutB (utf8 g!"<text>") (32 :: v) = none := by
      refine cutB_none fun a b e => ?_
      cases a with
      | nil => rw [lit_open] at e; exact absurd (List.cons.inj e).1 (by decide)
      | cons x a => exact hv3 a b (List.cons.inj e).2
    have hline := readLineB_head (r := r) (rest := 32 :: v) hm ht
    rw [hcut] at hline
    simp only [trimSpaceB_pad hv1 hv2] at hline
    simp only [List.map_cons, List.cons_append, List.nil_append, hd, readLinesB, hline]
    simp [hm, hct, hcv]

theorem readLinesB_fields (ps : List BPair) (h : ∀ p ∈ ps, GoodTagB p.tag ∧ GoodValueB p.value) (r : BReader)
    (hm : r.midtext = false) (hct : r.currentTag = []) (hcv : r.currentValue = []) :
    readLinesB r ((rawLinesB (ps.flatMap fieldBytes)).map dropCRB) = .ok { r with tvList := r.tvList ++ ps } := by
  induction ps generalizing r with
  | nil => simp [rawLinesB, splitByte, readLinesB]
  | cons p ps ih =>
    rw [List.flatMap_cons, readLinesB_field r p hm hct hcv (h p (by simp)).1 (h p (by simp)).2,
      ih (fun q hq => h q (by simp [hq])) { r with tvList := r.tvList ++ [p] } hm hct hcv]
    simp

theorem splitByte_part {s l : Bytes} (h : l ∈ splitByte 10 s) : ∃ a b, s = a ++ l ++ b ∧ (10 : UInt8) ∉ l := by
  induction s generalizing l with
  | nil =>
    simp only [splitByte, List.mem_cons, List.not_mem_nil, or_false] at h
    subst h
    exact ⟨[], [], rfl, by simp⟩
  | cons c s ih =>
    simp only [splitByte] at h
    split at h
    · rcases List.mem_cons.1 h with rfl | h
      · exact ⟨[], c :: s, rfl, by simp⟩
      · obtain ⟨a, b, rfl, hl⟩ := ih h
        exact ⟨c :: a, b, rfl, hl⟩
    · rename_i hc
      cases hs : splitByte 10 s with
      | nil => exact absurd hs (splitByte_ne_nil 10 s)
      | cons w ws =>
        rw [hs] at h
        rcases List.mem_cons.1 h with rfl | h
        · have key : ∀ s : Bytes, ∀ w ws, splitByte 10 s = w :: ws → ∃ b, s = w ++ b ∧ (10 : UInt8) ∉ w := by
            intro s
            induction s with
            | nil => intro w ws h; cases h; exact ⟨[], rfl, by simp⟩
            | cons d s ihs =>
              intro w ws h
              simp only [splitByte] at h
              split at h
              · cases h; exact ⟨d :: s, rfl, by simp⟩
              · rename_i hd
                cases hs' : splitByte 10 s with
                | nil => exact absurd hs' (splitByte_ne_nil 10 s)
                | cons w' ws' =>
                  rw [hs'] at h
                  cases h
                  obtain ⟨b, rfl, hb⟩ := ihs w' _ hs'
                  refine ⟨b, rfl, ?_⟩
                  intro hm
                  rcases List.mem_cons.1 hm with e | hm
                  · exact hd e.symm
                  · exact hb hm
          obtain ⟨b, rfl, hb⟩ := key s w ws hs
          refine ⟨[], b, rfl, ?_⟩
          intro hm
          rcases List.mem_cons.1 hm with e | hm
          · exact hc e.symm
          · exact hb hm
        · obtain ⟨a, b, rfl, hl⟩ := ih (l := l) (by rw [hs]; exact List.mem_cons_of_mem _ h)
          exact ⟨c :: a, b, rfl, hl⟩

theorem rawLinesB_mem {s l : Bytes} (h : l ∈ rawLinesB s) : l ∈ splitByte 10 s := by
  unfold rawLinesB at h
  simp only at h
  split at h
  · exact List.dropLast_subset _ h
  · exact h

theorem scanLinesB_ok {text : Bytes} (h : LinesFitB text) : scanLinesB text = .ok ((rawLinesB text).map dropCRB) := by
  unfold scanLinesB
  have : (rawLinesB text).all (fun l => l.length < maxScanToken) = true := by
    rw [List.all_eq_true]
    intro l hl
    obtain ⟨a, b, e, hl⟩ := splitByte_part (rawLinesB_mem hl)
    exact decide_eq_true (h a l b e hl)
  simp [this]

end Verif
