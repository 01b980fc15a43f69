import Verif.Lemmas.JsonBytesQuote
import Verif.Props.C59_JsonOrder

/-!
# C83: JSON files of any bytes
-/

namespace Verif
open Spec

/-- Every file reads as exactly one text, with U+FFFD for every byte that is part of no character; `repair` computes it. -/
theorem C83_repair (b : Bytes) (s : Str) : repair b = s ↔ Repairs b s :=
  ⟨fun h => h ▸ repair_spec b, repair_eq⟩

/-- A file of any bytes is JSON exactly if its repaired text is, and then it has the value of that text, with all strings
repaired. -/
theorem C83_scan {b : Bytes} {s : Str} (h : Repairs b s) (j : Json) :
    (∃ bj, scanJsonB b = some bj ∧ bj.repaired = j) ↔ JsonTextOf s j := by
  rw [← scanJson_iff, ← scanJsonB_repairs h, Option.map_eq_some_iff]

/-- A string of any bytes between quotes stands for what its repaired text stands for. -/
theorem C83_string {raw : Bytes} {s : Str} (h : Repairs raw s) (hs : StringText s) :
    ∃ t, unescape s = some t ∧ unquoteB raw = some (utf8 t) := by
  obtain ⟨us, hus⟩ := units_some hs
  refine ⟨_, unescape_map hus, ?_⟩
  rw [unquoteB_repairs (rep_of h) hs, unescape_map hus]
  rfl

section
variable (so : Sorter) (copy : Version → Version → Doc → Doc) (float : Str → Bool) (odd : Bytes → Res Doc) (isPtr : Bool)
  (target : Version)

/-- A file of any bytes, all identifiers and agents of which are UTF-8, is read as its repaired text is. -/
theorem C83_read {b : Bytes} {s : Str} (h : Repairs b s) (hr : ∀ j, scanJsonB b = some j → j.rawUtf8 = true) :
    readJsonBytes so copy float odd isPtr target b = readJsonText so copy float (fun _ => odd b) isPtr target s := by
  unfold readJsonBytes readJsonText
  have h1 := scanJsonB_repairs h
  cases e : scanJsonB b with
  | none =>
    rw [e] at h1
    rw [← h1]
    rfl
  | some j =>
    rw [e] at h1
    rw [← h1]
    simp only [Option.map_some, hr j e, Bool.true_and]

/-- A file in UTF-8 is read as the text it is. -/
theorem C83_read_text (s : Str) :
    readJsonBytes so copy float odd isPtr target (utf8 s) = readJsonText so copy float (fun _ => odd (utf8 s)) isPtr target s :=
  C83_read so copy float odd isPtr target (repairs_utf8 s) fun j hj => allUtf8_raw j (scanJsonB_utf8 hj)

/-- A file that is not JSON when repaired is an error. -/
theorem C83_not_json {b : Bytes} {s : Str} (h : Repairs b s) (hn : ∀ j, ¬ JsonTextOf s j) :
    readJsonBytes so copy float odd isPtr target b = .err := by
  unfold readJsonBytes
  cases e : scanJsonB b with
  | none => cases isPtr <;> rfl
  | some j => exact absurd ((C83_scan h j.repaired).1 ⟨j, e, rfl⟩) (hn _)

/-- No file makes the reader panic, as far as the bytes left open do not. -/
theorem C83_never_panics (b : Bytes) (ho : odd b ≠ .panic) : readJsonBytes so copy float odd isPtr target b ≠ .panic := by
  by_cases hr : ∀ j, scanJsonB b = some j → j.rawUtf8 = true
  · rw [C83_read so copy float odd isPtr target (repair_spec b) hr]
    exact C59_never_panics so copy float (fun _ => odd b) (fun _ => ho) isPtr target (repair b)
  · obtain ⟨j, hj⟩ := Classical.not_forall.1 hr
    have e : scanJsonB b = some j := Classical.byContradiction fun h => hj fun h' => absurd h' h
    have e2 : j.rawUtf8 = false := by
      cases e3 : j.rawUtf8 with
      | false => rfl
      | true => exact absurd (fun _ => e3) hj
    unfold readJsonBytes
    rw [e]
    simp only [e2, Bool.false_and]
    cases isPtr with
    | false => intro h; cases h
    | true =>
      cases j.repaired.floats float with
      | false => intro h; cases h
      | true => exact ho

/-- A file that begins with a byte that is not ASCII is an error: one with a byte order mark, in UTF-8 or UTF-16. -/
theorem C83_first_byte (x : UInt8) (b : Bytes) (hx : 0x80 ≤ x.toNat) :
    readJsonBytes so copy float odd isPtr target (x :: b) = .err := by
  have h := repair_spec (x :: b)
  have key : ∃ c s, repair (x :: b) = c :: s ∧ 0x80 ≤ c.toNat := by
    rcases (rep_of h).cases with ⟨e, -⟩ | ⟨y, b', s', e, e', hy, -⟩ | ⟨w, b', c, s', -, e', -, -, hc, -⟩
    · cases e
    · cases e; omega
    · exact ⟨c, s', e', hc⟩
  obtain ⟨c, s, e, hc⟩ := key
  rw [e] at h
  refine C83_not_json so copy float odd isPtr target h fun j hj => ?_
  obtain ⟨a, t, r, e1, ha, -, ht, -⟩ := hj
  cases a with
  | cons y a =>
    cases e1
    rcases ha c (by simp) with rfl | rfl | rfl | rfl <;> exact absurd hc (by decide)
  | nil =>
    have hs := scanLiteral_beyond hc s
    have := spelt_scanned ht (2 * t.length + 1) (depth j) [] [] blank_nil (by intro c t h; cases h) (Nat.le_refl _) (Nat.le_refl _)
    obtain ⟨c', u, rfl, -, -⟩ := spelt_head ht
    cases e1
    rw [List.nil_append, List.append_nil] at this
    rw [scanValue_cons, skip_self (space_ascii c hc)] at this
    simp only [char_beyond hc (show '"'.toNat < 0x80 by decide), char_beyond hc (show '['.toNat < 0x80 by decide),
      char_beyond hc (show '{'.toNat < 0x80 by decide), if_false, scanLiteral_beyond hc] at this
    cases this
end

/-- A document written as JSON and read from the bytes of the file comes back as `keptDoc` says (`C58_round_trip`). -/
theorem C83_round_trip (so so' : Sorter) (copy : Version → Version → Doc → Doc) (float : Str → Bool)
    (hf : ∀ n, IsInt64 n → float (itoa n) = true) (odd : Bytes → Res Doc) (v : Version) (html : Bool) (indent : Str) (hi : Blank indent)
    (d : Doc) (hd : JsonDocument html d) (hv : d.spdxVersion = versionName v) :
    ∃ s, writeJsonText so v html indent d = .ok s ∧ readJsonBytes so' copy float odd true v (utf8 s) = .ok (keptDoc v d) := by
  obtain ⟨t, ht, -⟩ := C58_round_trip so so' copy float hf (fun _ => .err) v html indent hi d hd hv
  obtain ⟨u, hu, hr⟩ := C58_round_trip so so' copy float hf (fun _ => odd (utf8 t)) v html indent hi d hd hv
  have e : u = t := by rw [ht] at hu; exact (Res.ok.inj hu).symm
  subst e
  exact ⟨u, hu, by rw [C83_read_text]; exact hr⟩

/-- A Go string of any bytes, written as a JSON string and read again, comes back with the bytes replaced that are part of no
character, whatever follows it in the file. -/
theorem C83_string_round_trip (html : Bool) {b : Bytes} {s : Str} (h : Repairs b s) (r : Bytes) :
    scanStringB (quoteB html b ++ 34 :: r) = some (quoteB html b, r) ∧ unquoteB (quoteB html b) = some (utf8 s) := by
  rw [← repair_eq h]
  exact ⟨scan_quote html b r, unquote_quote html b⟩

/-- It comes back as it was exactly if it was UTF-8. -/
theorem C83_string_same (html : Bool) (b : Bytes) : unquoteB (quoteB html b) = some b ↔ ∃ s, b = utf8 s := by
  rw [unquote_quote, ← isUtf8_iff]
  simp [isUtf8]

/-- What is written for a Go string is always UTF-8. -/
theorem C83_writes_text (html : Bool) (b : Bytes) : ∃ t, quoteB html b = utf8 t ∧ StringText t := by
  obtain ⟨t, h1, h2, -⟩ := quoteB_spec html b
  exact ⟨t, h1, h2⟩

/-- For a string that is text, it is what the model of text says. -/
theorem C83_write_text (html : Bool) (s : Str) : quoteB html (utf8 s) = utf8 (htmlText html (s.flatMap jsonEscapeChar)) :=
  quoteB_utf8 html s

/-- An element identifier of any bytes is read as it stands, byte by byte: nothing is replaced. -/
theorem C83_id_kept (id : Bytes) (hne : id ≠ []) (hq : ∀ x ∈ id, x ≠ 34) :
    elementIdOfJsonB (34 :: (utf8 g!"SPDXRef-" ++ id) ++ [34]) = .ok id := by
  have ht : trimQuotesB (34 :: (utf8 g!"SPDXRef-" ++ id) ++ [34]) = utf8 g!"SPDXRef-" ++ id := by
    have h1 : (34 :: (utf8 g!"SPDXRef-" ++ id) ++ [34] : Bytes).dropWhile (· = 34) = utf8 g!"SPDXRef-" ++ id ++ [34] := by
      rw [List.cons_append, List.dropWhile_cons_of_pos (by decide)]
      exact List.dropWhile_cons_of_neg (by decide)
    unfold trimQuotesB
    rw [h1, List.reverse_append, List.reverse_singleton, List.singleton_append, List.dropWhile_cons_of_pos (by decide),
      List.reverse_append]
    cases e : id.reverse with
    | nil => exact absurd (List.reverse_eq_nil_iff.1 e) hne
    | cons y l =>
      have hy : y ≠ 34 := hq y (by rw [← List.mem_reverse, e]; simp)
      rw [List.cons_append, List.dropWhile_cons_of_neg (by simp [hy]), ← List.cons_append, ← e, ← List.reverse_append,
        List.reverse_reverse]
  unfold elementIdOfJsonB
  rw [ht, cutPrefixB_eq_some.2 (show utf8 g!"SPDXRef-" ++ id = utf8 spdxRefPrefix ++ id from rfl)]
  simp [hne]

/-- When it is written, it is repaired like any string. -/
theorem C83_id_written (id : Bytes) {s : Str} (h : Repairs id s) (hp : ∀ r, id ≠ utf8 g!"SPDXRef-" ++ r) :
    unquoteB (elementIdToJsonB id) = some (utf8 (g!"SPDXRef-" ++ s)) := by
  unfold elementIdToJsonB
  have hn : cutPrefixB (utf8 spdxRefPrefix) id = none := by
    cases e : cutPrefixB (utf8 spdxRefPrefix) id with
    | none => rfl
    | some r => exact absurd (cutPrefixB_eq_some.1 e) (hp r)
  rw [hn]
  simp only [Option.isNone_none, if_true]
  rw [unquote_quote]
  have key : ∀ p : Str, Repairs (utf8 p ++ id) (p ++ s) := by
    intro p
    induction p with
    | nil => exact h
    | cons c p ih =>
      show Repairs ((bytesOf c ++ utf8 p) ++ id) _
      rw [List.append_assoc]
      exact .char c ih
  rw [repair_eq (key spdxRefPrefix)]
  rfl

/-! ## Samples -/

/-- A document the name of which has an e acute in Latin-1: one byte, no UTF-8. -/
def latin1File : Bytes := utf8 g!"{\"spdxVersion\":\"SPDX-2.3\",\"SPDXID\":\"SPDXRef-DOCUMENT\",\"name\":\"caf" ++ [0xE9] ++
  utf8 g!"\",\"creationInfo\":null}"

/-- The name of the document of version 2.3 read from a file. -/
def nameRead (b : Bytes) : Option Str :=
  match readJsonBytes insertionSorter (fun _ _ d => d) (fun _ => true) (fun _ => .err) true .v23 b with
  | .ok d => some d.name
  | _ => none

/-- Not all strings are kept: the letter is replaced, and the three bytes of U+FFFD stand for its one. -/
theorem C83_name_kept_false : nameRead latin1File = some g!"caf�" ∧ utf8 g!"caf�" ≠ utf8 g!"caf" ++ [0xE9] := by
  decide +kernel

/-- A byte order mark is not passed over. -/
theorem C83_bom_false : nameRead (utf8 g!"{\"spdxVersion\":\"SPDX-2.3\",\"name\":\"é\"}") = some g!"é" ∧
    nameRead ([0xEF, 0xBB, 0xBF] ++ utf8 g!"{\"spdxVersion\":\"SPDX-2.3\",\"name\":\"é\"}") = none := by
  decide +kernel

/-- An identifier that is not UTF-8 does not survive being read and written: it is read as it stands, and written with U+FFFD. -/
theorem C83_id_round_trip_false : elementIdOfJsonB (34 :: (utf8 g!"SPDXRef-" ++ [0xE9]) ++ [34]) = .ok [0xE9] ∧
    unquoteB (elementIdToJsonB [0xE9]) = some (utf8 g!"SPDXRef-�") := by
  decide +kernel

/-- What is left without the quotation marks at both ends. -/
theorem trimQuotesB_spec (b : Bytes) : ∃ p q, b = p ++ trimQuotesB b ++ q ∧ (∀ x ∈ p ++ q, x = 34) ∧
    (trimQuotesB b).head? ≠ some 34 ∧ (trimQuotesB b).getLast? ≠ some 34 := by
  have hd : ∀ l : Bytes, (l.dropWhile (· = 34)).head? ≠ some 34 := by
    intro l h
    have := List.head?_dropWhile_not (fun x : UInt8 => decide (x = 34)) l
    rw [h] at this
    simp at this
  have ht : ∀ l : Bytes, ∀ x ∈ l.takeWhile (· = 34), x = 34 := fun l x hx => by
    have := List.all_takeWhile (l := l) (p := fun x : UInt8 => decide (x = 34))
    have := List.all_eq_true.1 this x hx
    simpa using this
  refine ⟨b.takeWhile (· = 34), ((b.dropWhile (· = 34)).reverse.takeWhile (· = 34)).reverse, ?_, ?_, ?_, ?_⟩
  · unfold trimQuotesB
    rw [List.append_assoc, ← List.reverse_append, List.takeWhile_append_dropWhile, List.reverse_reverse,
      List.takeWhile_append_dropWhile]
  · intro x hx
    rcases List.mem_append.1 hx with hx | hx
    · exact ht _ x hx
    · exact ht _ x (List.mem_reverse.1 hx)
  · intro h
    unfold trimQuotesB at h
    cases e : b.dropWhile (· = 34) with
    | nil => rw [e] at h; cases h
    | cons y l =>
      have hy : y ≠ 34 := fun hy => hd b (by rw [e, hy]; rfl)
      rw [e] at h
      have : ∃ m, ((y :: l).reverse.dropWhile (· = 34)).reverse = y :: m := by
        rw [List.reverse_cons, List.dropWhile_append]
        split
        · exact ⟨[], by rw [List.dropWhile_cons_of_neg (by simp [hy])]; rfl⟩
        · exact ⟨_, by rw [List.reverse_append]; rfl⟩
      obtain ⟨m, hm⟩ := this
      rw [hm] at h
      exact hy (Option.some.inj h)
  · rw [trimQuotesB, List.getLast?_reverse]
    exact hd _

/-- An identifier is refused exactly if it is not, between quotation marks, `SPDXRef-` and something after it. -/
theorem C83_id_refused (data : Bytes) : elementIdOfJsonB data = .err ↔
    ∀ p q id, data = p ++ (utf8 g!"SPDXRef-" ++ id) ++ q → (∀ x ∈ p ++ q, x = 34) → ∀ x ∈ id, x = 34 := by
  have hdrop : ∀ (p l : Bytes), (∀ x ∈ p, x = 34) → (p ++ l).dropWhile (· = 34) = l.dropWhile (· = 34) := by
    intro p l hp
    induction p with
    | nil => rfl
    | cons y p ih =>
      rw [List.cons_append, List.dropWhile_cons_of_pos (by simp [hp y (by simp)])]
      exact ih fun x hx => hp x (List.mem_cons_of_mem _ hx)
  constructor
  · intro h p q id e hq
    refine Classical.byContradiction fun hid => ?_
    have hne : id.reverse.dropWhile (· = 34) ≠ [] := by
      intro hn
      refine hid fun x hx => ?_
      have h1 := List.takeWhile_append_dropWhile (p := fun x : UInt8 => decide (x = 34)) (l := id.reverse)
      rw [hn, List.append_nil] at h1
      have h2 := List.all_eq_true.1 (List.all_takeWhile (l := id.reverse) (p := fun x : UInt8 => decide (x = 34))) x
        (by rw [h1]; exact List.mem_reverse.2 hx)
      simpa using h2
    have ht : trimQuotesB data = utf8 g!"SPDXRef-" ++ (id.reverse.dropWhile (· = 34)).reverse := by
      have h1 : data.dropWhile (· = 34) = utf8 g!"SPDXRef-" ++ id ++ q := by
        rw [e, List.append_assoc, hdrop p _ fun x hx => hq x (List.mem_append_left _ hx)]
        exact List.dropWhile_cons_of_neg (by decide)
      unfold trimQuotesB
      rw [h1, List.reverse_append, hdrop _ _ fun x hx => hq x (List.mem_append_right _ (List.mem_reverse.1 hx)),
        List.reverse_append, List.dropWhile_append]
      cases e2 : id.reverse.dropWhile (· = 34) with
      | nil => exact absurd e2 hne
      | cons y l => simp
    unfold elementIdOfJsonB at h
    rw [cutPrefixB_eq_some.2 (show trimQuotesB data = utf8 spdxRefPrefix ++ (id.reverse.dropWhile (· = 34)).reverse from ht)] at h
    simp [hne] at h
  · intro h
    obtain ⟨p, q, e, hq, -, hl⟩ := trimQuotesB_spec data
    unfold elementIdOfJsonB
    cases e2 : cutPrefixB (utf8 spdxRefPrefix) (trimQuotesB data) with
    | none => rfl
    | some r =>
      have e3 : trimQuotesB data = utf8 g!"SPDXRef-" ++ r := cutPrefixB_eq_some.1 e2
      show (if r = [] then Res.err else .ok r) = .err
      split
      · rfl
      · rename_i hr
        rw [e3] at e hl
        have := h p q r e hq (r.getLast hr) (List.getLast_mem hr)
        refine absurd ?_ hl
        rw [List.getLast?_append, List.getLast?_eq_some_getLast hr, this]
        rfl

/-- A part of a value, at any depth. -/
inductive PartOf : BJson → BJson → Prop
  | self (j : BJson) : PartOf j j
  | item {j x : BJson} {l : List BJson} (hx : x ∈ l) (h : PartOf j x) : PartOf j (.arr l)
  | entry {j x : BJson} {k : Bytes} {l : List (Bytes × BJson)} (hx : (k, x) ∈ l) (h : PartOf j x) : PartOf j (.obj l)

theorem allUtf8List_all : ∀ {l : List BJson}, BJson.allUtf8List l = true → ∀ x ∈ l, x.allUtf8 = true
  | [], _, x, hx => nomatch hx
  | y :: l, h, x, hx => by
    rw [BJson.allUtf8List, Bool.and_eq_true] at h
    rcases List.mem_cons.1 hx with rfl | hx
    · exact h.1
    · exact allUtf8List_all h.2 x hx

theorem allUtf8Fields_all : ∀ {l : List (Bytes × BJson)}, BJson.allUtf8Fields l = true → ∀ x ∈ l, x.2.allUtf8 = true
  | [], _, x, hx => nomatch hx
  | (k, y) :: l, h, x, hx => by
    rw [BJson.allUtf8Fields, Bool.and_eq_true] at h
    rcases List.mem_cons.1 hx with rfl | hx
    · exact h.1
    · exact allUtf8Fields_all h.2 x hx

theorem rawUtf8List_all : ∀ {l : List BJson}, BJson.rawUtf8List l = true → ∀ x ∈ l, x.rawUtf8 = true
  | [], _, x, hx => nomatch hx
  | y :: l, h, x, hx => by
    rw [BJson.rawUtf8List, Bool.and_eq_true] at h
    rcases List.mem_cons.1 hx with rfl | hx
    · exact h.1
    · exact rawUtf8List_all h.2 x hx

theorem rawUtf8Fields_all : ∀ {l : List (Bytes × BJson)}, BJson.rawUtf8Fields l = true → ∀ x ∈ l,
    (if rawKeys.any fun k => sameKey k (repair x.1) then x.2.allUtf8 else x.2.rawUtf8) = true
  | [], _, x, hx => nomatch hx
  | (k, y) :: l, h, x, hx => by
    rw [BJson.rawUtf8Fields, Bool.and_eq_true] at h
    rcases List.mem_cons.1 hx with rfl | hx
    · exact h.1
    · exact rawUtf8Fields_all h.2 x hx

theorem PartOf.allUtf8 {i j : BJson} (h : PartOf i j) (hj : j.allUtf8 = true) : i.allUtf8 = true := by
  induction h with
  | self => exact hj
  | item hx _ ih => exact ih (allUtf8List_all hj _ hx)
  | entry hx _ ih => exact ih (allUtf8Fields_all hj _ hx)

theorem PartOf.rawUtf8 {i j : BJson} (h : PartOf i j) (hj : j.rawUtf8 = true) : i.rawUtf8 = true := by
  induction h with
  | self => exact hj
  | item hx _ ih => exact ih (rawUtf8List_all hj _ hx)
  | entry hx _ ih =>
    have := rawUtf8Fields_all hj _ hx
    split at this
    · exact ih (allUtf8_raw _ this)
    · exact ih this

/-- The claim `C83_read` is made of no file in which a string under one of the keys of identifiers and agents, at any depth, is
not UTF-8: what becomes of such a file is left open. -/
theorem C83_open (so : Sorter) (copy : Version → Version → Doc → Doc) (float : Str → Bool) (odd : Bytes → Res Doc) (isPtr : Bool)
    (target : Version) (b : Bytes) {j : BJson} (hj : scanJsonB b = some j) {l : List (Bytes × BJson)} (hl : PartOf (.obj l) j)
    {k : Str} (hk : k ∈ identifierKeys) {x : BJson} (hx : (utf8 k, x) ∈ l) {raw : Bytes} (hr : PartOf (.str raw) x)
    (hu : ∀ s, raw ≠ utf8 s) : readJsonBytes so copy float odd isPtr target b = .err ∨
      readJsonBytes so copy float odd isPtr target b = odd b := by
  have key : j.rawUtf8 = false := by
    cases e : j.rawUtf8 with
    | false => rfl
    | true =>
      have h1 := rawUtf8Fields_all (hl.rawUtf8 e) _ hx
      have h2 : (rawKeys.any fun k' => sameKey k' (repair (utf8 k))) = true := by
        rw [repair_utf8]
        have : ∀ k ∈ identifierKeys, (rawKeys.any fun k' => sameKey k' k) = true := by decide +kernel
        exact this k hk
      simp only [h2, if_true] at h1
      obtain ⟨s, hs⟩ := isUtf8_iff.1 (show isUtf8 raw = true from hr.allUtf8 h1)
      exact absurd hs (hu s)
  unfold readJsonBytes
  rw [hj]
  simp only [key, Bool.false_and]
  cases isPtr with
  | false => exact .inl rfl
  | true =>
    cases j.repaired.floats float with
    | false => exact .inl rfl
    | true => exact .inr rfl
/-- Such a file: an object with an identifier that is not UTF-8. -/
example : ∃ raw, scanJsonB (utf8 g!"{\"SPDXID\":\"SPDXRef-" ++ 0xFF :: utf8 g!"\"}") = some (.obj [(utf8 g!"SPDXID", .str raw)]) ∧
    ∀ s, raw ≠ utf8 s := by
  refine ⟨utf8 g!"SPDXRef-" ++ [0xFF], by rfl, fun s h => ?_⟩
  have h1 : isUtf8 (utf8 g!"SPDXRef-" ++ [0xFF]) = true := isUtf8_iff.2 ⟨s, h⟩
  exact absurd h1 (by decide +kernel)

/-- The file meets the conditions of `C83_read`: it is JSON, it is not UTF-8, and its identifiers are. -/
theorem C83_sample : (scanJsonB latin1File).map (·.rawUtf8) = some true ∧ (scanJsonB latin1File).map (·.allUtf8) = some false ∧
    unquoteB [0x5C, 0x75, 0x64, 0x38, 0x33, 0x64, 0x5C, 0x75, 0x64, 0x65, 0x30, 0x30, 0xFF] = some (utf8 g!"😀�") := by
  decide +kernel

end Verif
