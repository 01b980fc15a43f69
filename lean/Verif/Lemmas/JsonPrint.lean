import Verif.Lemmas.JsonGrammar
import Verif.Lemmas.Json

/-!
# Printed values are spelt as the grammar says
-/

namespace Verif
open Spec

mutual
/-- The strings and numbers of a value are spelt as in JSON. -/
def WellSpelt : Json → Prop
  | .num l => NumberSpelt l
  | .str raw => StringText raw
  | .arr l => WellSpeltList l
  | .obj l => WellSpeltFields l
  | _ => True
/-- The same for the values of a list. -/
def WellSpeltList : List Json → Prop
  | [] => True
  | j :: l => WellSpelt j ∧ WellSpeltList l
/-- The same for the entries of an object. -/
def WellSpeltFields : List (Str × Json) → Prop
  | [] => True
  | (_, j) :: l => WellSpelt j ∧ WellSpeltFields l
end

/-! ## Strings -/

theorem hexDigit_mem : ∀ n : Nat, n < 16 → hexDigit n ∈ g!"0123456789abcdefABCDEF" := by decide

theorem stringText_code (n : Nat) (h : n < 65536) {t : Str} (ht : StringText t) :
    StringText (['\\', 'u', hexDigit (n / 4096), hexDigit (n / 256 % 16), hexDigit (n / 16 % 16), hexDigit (n % 16)] ++ t) := by
  refine .code (x := [hexDigit (n / 4096), hexDigit (n / 256 % 16), hexDigit (n / 16 % 16), hexDigit (n % 16)]) ⟨rfl, ?_⟩ ht
  intro c hc
  simp only [List.mem_cons, List.not_mem_nil, or_false] at hc
  rcases hc with rfl | rfl | rfl | rfl <;> exact hexDigit_mem _ (by omega)

theorem stringText_escape (c : Char) {t : Str} (ht : StringText t) : StringText (jsonEscapeChar c ++ t) := by
  unfold jsonEscapeChar
  split
  · exact .short (by decide) ht
  · split
    · exact .short (by decide) ht
    · split
      · exact .short (by decide) ht
      · split
        · exact .short (by decide) ht
        · split
          · exact .short (by decide) ht
          · split
            · next h => exact stringText_code c.toNat (by omega) ht
            · next h1 h2 _ _ _ h => exact .char (by omega) h1 h2 ht

theorem stringText_escaped (s : Str) : StringText (s.flatMap jsonEscapeChar) := by
  induction s with
  | nil => exact .nil
  | cons c s ih => exact stringText_escape c ih

theorem stringText_htmlChar {c : Char} (h1 : 0x20 ≤ c.toNat) (h2 : c ≠ '"') (h3 : c ≠ '\\') {t : Str} (ht : StringText t) :
    StringText (escapeHtmlChar c ++ t) := by
  unfold escapeHtmlChar
  split
  · exact .code (x := g!"003c") ⟨rfl, by decide⟩ ht
  · split
    · exact .code (x := g!"003e") ⟨rfl, by decide⟩ ht
    · split
      · exact .code (x := g!"0026") ⟨rfl, by decide⟩ ht
      · exact .char h1 h2 h3 ht

theorem stringText_html {s : Str} (h : StringText s) : StringText (s.flatMap escapeHtmlChar) := by
  induction h with
  | nil => exact .nil
  | char h1 h2 h3 _ ih => exact stringText_htmlChar h1 h2 h3 ih
  | @short e t h _ ih =>
    have key : ∀ e ∈ g!"\"\\/bfnrt", escapeHtmlChar e = [e] := by decide
    show StringText (escapeHtmlChar '\\' ++ (escapeHtmlChar e ++ t.flatMap escapeHtmlChar))
    rw [key e h]
    exact .short h ih
  | @code x t h _ ih =>
    have key : ∀ e ∈ g!"0123456789abcdefABCDEF", escapeHtmlChar e = [e] := by decide
    have hx : x.flatMap escapeHtmlChar = x := by
      have : ∀ y : Str, (∀ c ∈ y, c ∈ g!"0123456789abcdefABCDEF") → y.flatMap escapeHtmlChar = y := by
        intro y
        induction y with
        | nil => intro _; rfl
        | cons c y ih =>
          intro hy
          rw [List.flatMap_cons, key c (hy c (by simp)), ih fun d hd => hy d (by simp [hd])]
          rfl
      exact this x h.2
    rw [List.flatMap_append, List.flatMap_append, hx]
    exact .code h ih

/-! ## Numbers -/

theorem toDigits_no_zero (n : Nat) : n ≠ 0 → ∀ t, Nat.toDigits 10 n ≠ '0' :: t := by
  induction n using Nat.strongRecOn with
  | ind n ih =>
    intro h0 t ht
    by_cases hn : n < 10
    · rw [Nat.toDigits_of_lt_base hn] at ht
      have key : ∀ n, n < 10 → n ≠ 0 → Nat.digitChar n ≠ '0' := by decide
      exact key n hn h0 (List.cons.inj ht).1
    · rw [Nat.toDigits_of_base_le (by decide) (by omega)] at ht
      have hne : Nat.toDigits 10 (n / 10) ≠ [] := Nat.toDigits_ne_nil
      cases hd : Nat.toDigits 10 (n / 10) with
      | nil => exact hne hd
      | cons c u =>
        rw [hd] at ht
        have hc : c = '0' := (List.cons.inj ht).1
        rw [hc] at hd
        exact ih (n / 10) (by omega) (by omega) u hd

theorem natDigits_spelt (n : Nat) : natDigits n = g!"0" ∨ (Digits (natDigits n) ∧ ∀ t, natDigits n ≠ '0' :: t) := by
  unfold natDigits
  have hd : ∀ c ∈ Nat.toDigits 10 n, c ∈ g!"0123456789" := by
    intro c hc
    have := Nat.isDigit_of_mem_toDigits (b := 10) (by decide) (by decide) hc
    refine isDigit_iff.1 ?_
    rw [Char.isDigit, Bool.and_eq_true, decide_eq_true_eq, decide_eq_true_eq] at this
    rw [isDigit, Bool.and_eq_true, decide_eq_true_eq, decide_eq_true_eq]
    exact ⟨UInt32.le_iff_toNat_le.1 this.1, UInt32.le_iff_toNat_le.1 this.2⟩
  by_cases h0 : n = 0
  · subst h0; exact .inl (by decide)
  · exact .inr ⟨⟨Nat.toDigits_ne_nil, hd⟩, toDigits_no_zero n h0⟩

theorem itoa_spelt (n : Int) : NumberSpelt (itoa n) := by
  cases n with
  | ofNat n => exact ⟨[], natDigits n, [], [], by simp [itoa], .inl rfl, natDigits_spelt n, .inl rfl, .inl rfl⟩
  | negSucc n => exact ⟨g!"-", natDigits (n + 1), [], [], by simp [itoa], .inr rfl, natDigits_spelt _, .inl rfl, .inl rfl⟩

/-! ## Values -/

/-- The elements with line breaks before them and a last one after them. -/
def parts (f : Json → Str) (nl tail : Str) : List Json → List ElementText
  | [] => []
  | [j] => [⟨nl, f j, tail, j⟩]
  | j :: l => ⟨nl, f j, [], j⟩ :: parts f nl tail l

theorem parts_ne (f : Json → Str) (nl tail : Str) (j : Json) (l : List Json) : parts f nl tail (j :: l) ≠ [] := by
  cases l <;> simp [parts]

theorem parts_text (f : Json → Str) (nl tail : Str) (l : List Json) (h : l ≠ []) :
    join g!"," ((parts f nl tail l).map (·.all)) = nl ++ join (g!"," ++ nl) (l.map f) ++ tail := by
  induction l with
  | nil => exact absurd rfl h
  | cons j l ih =>
    cases l with
    | nil => simp [parts, join, ElementText.all]
    | cons k l =>
      rw [parts, List.map_cons, joinComma_cons _ (by simpa using parts_ne f nl tail k l), ih (by simp)]
      · simp [join, ElementText.all]
      · simp

theorem parts_value (f : Json → Str) (nl tail : Str) (l : List Json) : (parts f nl tail l).map (·.value) = l := by
  induction l with
  | nil => rfl
  | cons j l ih =>
    cases l with
    | nil => rfl
    | cons k l =>
      rw [parts, List.map_cons, ih]
      simp

theorem parts_mem {f : Json → Str} {nl tail : Str} {l : List Json} {p : ElementText} (hp : p ∈ parts f nl tail l) :
    p.value ∈ l ∧ p.text = f p.value ∧ p.before = nl ∧ (p.after = tail ∨ p.after = []) := by
  induction l with
  | nil => cases hp
  | cons j l ih =>
    cases l with
    | nil =>
      cases List.mem_singleton.1 hp
      simp
    | cons k l =>
      rw [parts] at hp
      · rcases List.mem_cons.1 hp with rfl | hp
        · simp
        · have := ih hp
          exact ⟨List.mem_cons_of_mem _ this.1, this.2⟩
      · simp

theorem spelt_array {f : Json → Str} {nl tail : Str} (hn : Blank nl) (ht : Blank tail) {l : List Json} (hne : l ≠ [])
    (h : ∀ j ∈ l, Spelt (f j) j) : Spelt (g!"[" ++ (nl ++ join (g!"," ++ nl) (l.map f) ++ tail) ++ g!"]") (.arr l) := by
  have hps : parts f nl tail l ≠ [] := by
    cases l with
    | nil => exact absurd rfl hne
    | cons j l => exact parts_ne f nl tail j l
  have := Spelt.arr hps ?_ ?_
  · rw [parts_text f nl tail l hne, parts_value] at this
    exact this
  · intro p hp
    obtain ⟨-, -, h1, h2⟩ := parts_mem hp
    refine ⟨h1 ▸ hn, ?_⟩
    rcases h2 with h2 | h2
    · rw [h2]; exact ht
    · rw [h2]; exact blank_nil
  · intro p hp
    obtain ⟨h1, h2, -⟩ := parts_mem hp
    rw [h2]
    exact h _ h1

/-- The members with line breaks before them and a last one after them. -/
def members (f : Json → Str) (nl sp tail : Str) : List (Str × Json) → List MemberText
  | [] => []
  | [e] => [⟨nl, e.1.flatMap jsonEscapeChar, [], e.1, ⟨sp, f e.2, tail, e.2⟩⟩]
  | e :: l => ⟨nl, e.1.flatMap jsonEscapeChar, [], e.1, ⟨sp, f e.2, [], e.2⟩⟩ :: members f nl sp tail l

theorem members_ne (f : Json → Str) (nl sp tail : Str) (j : Str × Json) (l : List (Str × Json)) : members f nl sp tail (j :: l) ≠ [] := by
  cases l <;> simp [members]

theorem members_text (f : Json → Str) (nl sp tail : Str) (l : List (Str × Json)) (h : l ≠ []) :
    join g!"," ((members f nl sp tail l).map (·.all)) =
      nl ++ join (g!"," ++ nl) (l.map fun e => jsonQuote e.1 ++ g!":" ++ sp ++ f e.2) ++ tail := by
  induction l with
  | nil => exact absurd rfl h
  | cons j l ih =>
    cases l with
    | nil => simp [members, join, ElementText.all, MemberText.all, jsonQuote]
    | cons k l =>
      rw [members, List.map_cons, joinComma_cons _ (by simpa using members_ne f nl sp tail k l), ih (by simp)]
      · simp [join, ElementText.all, MemberText.all, jsonQuote]
      · simp

theorem members_value (f : Json → Str) (nl sp tail : Str) (l : List (Str × Json)) :
    ((members f nl sp tail l).map fun m => (m.key, m.part.value)) = l := by
  induction l with
  | nil => rfl
  | cons j l ih =>
    cases l with
    | nil => rfl
    | cons k l =>
      rw [members, List.map_cons, ih]
      simp

theorem members_mem {f : Json → Str} {nl sp tail : Str} {l : List (Str × Json)} {m : MemberText} (hp : m ∈ members f nl sp tail l) :
    (∃ e ∈ l, m.part.value = e.2) ∧ m.part.text = f m.part.value ∧ m.beforeKey = nl ∧ m.raw = m.key.flatMap jsonEscapeChar ∧
      m.afterKey = [] ∧ m.part.before = sp ∧ (m.part.after = tail ∨ m.part.after = []) := by
  induction l with
  | nil => cases hp
  | cons j l ih =>
    cases l with
    | nil =>
      cases List.mem_singleton.1 hp
      simp
    | cons k l =>
      rw [members] at hp
      · rcases List.mem_cons.1 hp with rfl | hp
        · simp
        · obtain ⟨⟨e, he, h1⟩, h2⟩ := ih hp
          exact ⟨⟨e, List.mem_cons_of_mem _ he, h1⟩, h2⟩
      · simp

theorem spelt_object {f : Json → Str} {nl sp tail : Str} (hn : Blank nl) (hs : Blank sp) (ht : Blank tail) {l : List (Str × Json)}
    (hne : l ≠ []) (h : ∀ e ∈ l, Spelt (f e.2) e.2) :
    Spelt (g!"{" ++ (nl ++ join (g!"," ++ nl) (l.map fun e => jsonQuote e.1 ++ g!":" ++ sp ++ f e.2) ++ tail) ++ g!"}") (.obj l) := by
  have hps : members f nl sp tail l ≠ [] := by
    cases l with
    | nil => exact absurd rfl hne
    | cons j l => exact members_ne f nl sp tail j l
  have := Spelt.obj hps ?_ ?_
  · rw [members_text f nl sp tail l hne, members_value] at this
    exact this
  · intro p hp
    obtain ⟨-, -, h1, h2, h3, h4, h5⟩ := members_mem hp
    refine ⟨h1 ▸ hn, h3 ▸ blank_nil, h2 ▸ stringText_escaped _, ?_, h4 ▸ hs, ?_⟩
    · rw [h2]; exact unescape_escaped false p.key
    · rcases h5 with h5 | h5
      · rw [h5]; exact ht
      · rw [h5]; exact blank_nil
  · intro p hp
    obtain ⟨⟨e, he, h1⟩, h2, -⟩ := members_mem hp
    rw [h2, h1]
    exact h e he

theorem textList_join (l : List Json) : Json.textList l = join g!"," (l.map Json.text) := by
  induction l with
  | nil => rfl
  | cons j l ih =>
    cases l with
    | nil => simp [Json.textList, join]
    | cons k l => rw [Json.textList, ih]; rfl; simp

theorem textFields_join (l : List (Str × Json)) : Json.textFields l = join g!"," (l.map fun e => jsonQuote e.1 ++ g!":" ++ [] ++ e.2.text) := by
  induction l with
  | nil => rfl
  | cons j l ih =>
    cases l with
    | nil => simp [Json.textFields, join]
    | cons k l =>
      rw [Json.textFields, ih]
      · simp [join]
      · simp

theorem indentedList_join (indent : Str) (d : Nat) (l : List Json) :
    Json.indentedList indent d l = join (g!"," ++ newline indent d) (l.map (Json.indented indent d)) := by
  induction l with
  | nil => rfl
  | cons j l ih =>
    cases l with
    | nil => simp [Json.indentedList, join]
    | cons k l =>
      rw [Json.indentedList, ih]
      · simp [join]
      · simp

theorem indentedFields_join (indent : Str) (d : Nat) (l : List (Str × Json)) :
    Json.indentedFields indent d l = join (g!"," ++ newline indent d) (l.map fun e => jsonQuote e.1 ++ g!":" ++ g!" " ++ Json.indented indent d e.2) := by
  induction l with
  | nil => rfl
  | cons j l ih =>
    cases l with
    | nil => simp [Json.indentedFields, join]
    | cons k l =>
      rw [Json.indentedFields, ih]
      · simp [join]
      · simp

mutual
theorem text_spelt : ∀ j : Json, WellSpelt j → Spelt j.text j
  | .null, _ => by rw [Json.text]; exact .null
  | .bool true, _ => by rw [Json.text]; exact .true
  | .bool false, _ => by rw [Json.text]; exact .false
  | .num l, h => by rw [Json.text]; exact .num h
  | .str raw, h => by rw [Json.text]; exact .str h
  | .arr [], _ => by rw [Json.text, Json.textList]; exact .noElements blank_nil
  | .obj [], _ => by rw [Json.text, Json.textFields]; exact .noMembers blank_nil
  | .arr (j :: l), h => by
    have := spelt_array (f := Json.text) blank_nil blank_nil (by simp) (text_speltList (j :: l) h)
    rw [Json.text, textList_join]
    simpa using this
  | .obj (e :: l), h => by
    have := spelt_object (f := Json.text) blank_nil blank_nil blank_nil (by simp) (text_speltFields (e :: l) h)
    rw [Json.text, textFields_join]
    simpa using this
theorem text_speltList : ∀ l : List Json, WellSpeltList l → ∀ j ∈ l, Spelt j.text j
  | [], _ => by simp
  | j :: l, h => by
    intro k hk
    rcases List.mem_cons.1 hk with e | hk
    · rw [e]; exact text_spelt j h.1
    · exact text_speltList l h.2 k hk
theorem text_speltFields : ∀ l : List (Str × Json), WellSpeltFields l → ∀ e ∈ l, Spelt e.2.text e.2
  | [], _ => by simp
  | (_, j) :: l, h => by
    intro k hk
    rcases List.mem_cons.1 hk with e | hk
    · rw [e]; exact text_spelt j h.1
    · exact text_speltFields l h.2 k hk
end

theorem blank_newline {indent : Str} (h : Blank indent) (d : Nat) : Blank (newline indent d) := by
  intro c hc
  rcases List.mem_cons.1 hc with rfl | hc
  · simp
  · rw [List.mem_flatten] at hc
    obtain ⟨l, hl, hc⟩ := hc
    rw [List.mem_replicate] at hl
    exact h c (hl.2 ▸ hc)

mutual
theorem indented_spelt {indent : Str} (hi : Blank indent) : ∀ (j : Json) (d : Nat), WellSpelt j → Spelt (j.indented indent d) j
  | .null, _, h => by rw [Json.indented]; exact text_spelt _ h; all_goals simp
  | .bool b, _, h => by rw [Json.indented]; exact text_spelt _ h; all_goals simp
  | .num l, _, h => by rw [Json.indented]; exact text_spelt _ h; all_goals simp
  | .str raw, _, h => by rw [Json.indented]; exact text_spelt _ h; all_goals simp
  | .arr [], _, h => by rw [Json.indented]; exact text_spelt _ h; all_goals simp
  | .obj [], _, h => by rw [Json.indented]; exact text_spelt _ h; all_goals simp
  | .arr (j :: l), d, h => by
    have := spelt_array (f := Json.indented indent (d + 1)) (blank_newline hi (d + 1)) (blank_newline hi d) (by simp)
      (indented_speltList hi (j :: l) (d + 1) h)
    rw [Json.indented, indentedList_join]
    simpa using this
  | .obj (e :: l), d, h => by
    have := spelt_object (f := Json.indented indent (d + 1)) (sp := g!" ") (blank_newline hi (d + 1)) (by simp [Blank]) (blank_newline hi d) (by simp)
      (indented_speltFields hi (e :: l) (d + 1) h)
    rw [Json.indented, indentedFields_join]
    simpa using this
theorem indented_speltList {indent : Str} (hi : Blank indent) : ∀ (l : List Json) (d : Nat), WellSpeltList l →
    ∀ j ∈ l, Spelt (j.indented indent d) j
  | [], _, _ => by simp
  | j :: l, d, h => by
    intro k hk
    rcases List.mem_cons.1 hk with e | hk
    · rw [e]; exact indented_spelt hi j d h.1
    · exact indented_speltList hi l d h.2 k hk
theorem indented_speltFields {indent : Str} (hi : Blank indent) : ∀ (l : List (Str × Json)) (d : Nat), WellSpeltFields l →
    ∀ e ∈ l, Spelt (e.2.indented indent d) e.2
  | [], _, _ => by simp
  | (_, j) :: l, d, h => by
    intro k hk
    rcases List.mem_cons.1 hk with e | hk
    · rw [e]; exact indented_spelt hi j d h.1
    · exact indented_speltFields hi l d h.2 k hk
end

end Verif
