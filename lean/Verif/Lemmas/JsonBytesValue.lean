import Verif.Lemmas.JsonBytesUnquote

/-!
# Scanning JSON values on bytes
-/

namespace Verif
open Spec

variable {k : Bool}

/-! ## Scanning by the first character -/

theorem scanLiteral_nil : scanLiteral [] = none := by decide

theorem scanValue_nil (n d : Nat) : scanValue n d [] = none := by
  cases n with
  | zero => simp [scanValue]
  | succ n => rw [scanValue]; exact scanLiteral_nil

theorem scanElements_nil (n d : Nat) : scanElements n d [] = none := by
  cases n with
  | zero => simp [scanElements]
  | succ n => rw [scanElements, scanValue_nil]

theorem scanMembers_nil (n d : Nat) : scanMembers n d [] = none := by
  cases n with
  | zero => simp [scanMembers]
  | succ n => rw [scanMembers]; rfl

/-- A value by its first character. -/
theorem scanValue_cons (n d : Nat) (s : Str) : scanValue (n + 1) d s = match skipJsonSpace s with
    | [] => none
    | c :: t =>
      if c = '"' then (scanString t).map fun r => (.str r.1, r.2)
      else if c = '[' then match d with
        | 0 => none
        | d + 1 => match skipJsonSpace t with
          | [] => none
          | c :: u => if c = ']' then some (.arr [], u) else (scanElements n d (c :: u)).map fun r => (.arr r.1, r.2)
      else if c = '{' then match d with
        | 0 => none
        | d + 1 => match skipJsonSpace t with
          | [] => none
          | c :: u => if c = '}' then some (.obj [], u) else (scanMembers n d (c :: u)).map fun r => (.obj r.1, r.2)
      else scanLiteral (c :: t) := by
  rw [scanValue]
  cases e : skipJsonSpace s with
  | nil => exact scanLiteral_nil
  | cons c t =>
    by_cases h1 : c = '"'
    · subst h1; rfl
    by_cases h2 : c = '['
    · subst h2
      cases d with
      | zero => rfl
      | succ d =>
        show (match skipJsonSpace t with
          | ']' :: t => some (Json.arr [], t)
          | t => (scanElements n d t).map fun r : List Json × Str => (Json.arr r.1, r.2)) = match skipJsonSpace t with
            | [] => none
            | c :: u => if c = ']' then some (.arr [], u) else (scanElements n d (c :: u)).map fun r => (.arr r.1, r.2)
        cases skipJsonSpace t with
        | nil => show (scanElements n d []).map _ = none; rw [scanElements_nil]; rfl
        | cons x u =>
          by_cases hx : x = ']'
          · subst hx; rfl
          · split <;> simp_all
    by_cases h3 : c = '{'
    · subst h3
      cases d with
      | zero => rfl
      | succ d =>
        show (match skipJsonSpace t with
          | '}' :: t => some (Json.obj [], t)
          | t => (scanMembers n d t).map fun r : List (Str × Json) × Str => (Json.obj r.1, r.2)) = match skipJsonSpace t with
            | [] => none
            | c :: u => if c = '}' then some (.obj [], u) else (scanMembers n d (c :: u)).map fun r => (.obj r.1, r.2)
        cases skipJsonSpace t with
        | nil => show (scanMembers n d []).map _ = none; rw [scanMembers_nil]; rfl
        | cons x u =>
          by_cases hx : x = '}'
          · subst hx; rfl
          · split <;> simp_all
    · simp only [h1, h2, h3, if_false]
      split
      · next h => cases h; exact absurd rfl h1
      · next h => cases h; exact absurd rfl h2
      · next h => cases h; exact absurd rfl h3
      · rfl

/-- The values of an array, by the character after the first. -/
theorem scanElements_cons (n d : Nat) (s : Str) : scanElements (n + 1) d s = match scanValue n d s with
    | none => none
    | some (j, t) => match skipJsonSpace t with
      | [] => none
      | c :: u =>
        if c = ',' then (scanElements n d u).map fun r => (j :: r.1, r.2)
        else if c = ']' then some ([j], u)
        else none := by
  rw [scanElements]
  cases scanValue n d s with
  | none => rfl
  | some p =>
    obtain ⟨j, t⟩ := p
    show (match skipJsonSpace t with
      | ',' :: t => (scanElements n d t).map fun r : List Json × Str => (j :: r.1, r.2)
      | ']' :: t => some ([j], t)
      | _ => none) = match skipJsonSpace t with
      | [] => none
      | c :: u =>
        if c = ',' then (scanElements n d u).map fun r => (j :: r.1, r.2)
        else if c = ']' then some ([j], u)
        else none
    cases skipJsonSpace t with
    | nil => rfl
    | cons x u =>
      by_cases h1 : x = ','
      · subst h1; rfl
      by_cases h2 : x = ']'
      · subst h2; rfl
      split <;> simp_all

/-- The members of an object, by their characters. -/
theorem scanMembers_cons (n d : Nat) (s : Str) : scanMembers (n + 1) d s = match skipJsonSpace s with
    | [] => none
    | c :: t =>
      if c ≠ '"' then none
      else match scanString t with
        | none => none
        | some (raw, t) => match unescape raw, skipJsonSpace t with
          | some key, c :: t =>
            if c ≠ ':' then none
            else match scanValue n d t with
              | none => none
              | some (j, t) => match skipJsonSpace t with
                | [] => none
                | c :: u =>
                  if c = ',' then (scanMembers n d u).map fun r => ((key, j) :: r.1, r.2)
                  else if c = '}' then some ([(key, j)], u)
                  else none
          | _, _ => none := by
  rw [scanMembers]
  cases skipJsonSpace s with
  | nil => rfl
  | cons c t =>
    by_cases h1 : c = '"'
    · subst h1
      simp only [ne_eq, not_true_eq_false, if_false]
      cases scanString t with
      | none => rfl
      | some p =>
        obtain ⟨raw, t⟩ := p
        simp only
        cases unescape raw with
        | none => rfl
        | some key =>
          cases skipJsonSpace t with
          | nil => rfl
          | cons c t =>
            by_cases h2 : c = ':'
            · subst h2
              simp only [not_true_eq_false, if_false]
              cases scanValue n d t with
              | none => rfl
              | some p =>
                obtain ⟨j, t⟩ := p
                simp only
                cases skipJsonSpace t with
                | nil => rfl
                | cons x u =>
                  by_cases h1 : x = ','
                  · subst h1; rfl
                  by_cases h2 : x = '}'
                  · subst h2; rfl
                  split <;> simp_all
            · simp only [h2, not_false_eq_true, if_true]
              split <;> simp_all
    · simp only [ne_eq, h1, not_false_eq_true, if_true]
      split <;> simp_all

/-- Nothing but a string, an array or an object has characters beyond ASCII at its beginning. -/
theorem scanLiteral_beyond {c : Char} (hc : 0x80 ≤ c.toNat) (s : Str) : scanLiteral (c :: s) = none := by
  have no : ∀ a p, a.toNat < 0x80 → cutPrefix (a :: p) (c :: s) = none := fun a p ha => by
    simp [cutPrefix, (char_beyond hc ha).symm]
  unfold scanLiteral
  rw [no 'n' _ (by decide), no 't' _ (by decide), no 'f' _ (by decide)]
  have h1 : scanSign (c :: s) = ([], c :: s) := by
    unfold scanSign
    split
    · next e => cases e; exact absurd hc (by decide)
    · rfl
  have h2 : scanInt (c :: s) = none := by
    unfold scanInt
    split
    · next e => cases e; exact absurd hc (by decide)
    · simp [scanDigits1, scanDigits, digit_ascii c hc]
  simp [scanNumber, h1, h2]

/-! ## Values on bytes -/

/-- Two results of scanning: both failed, or the same was found up to repairs, and only UTF-8 if nothing else was there. -/
def SameUpTo (k : Bool) {α β : Type} (f : α → β) (p : α → Bool) : Option (α × Bytes) → Option (β × Str) → Prop
  | none, none => True
  | some (a, b), some (a', s) => f a = a' ∧ (k = false → p a = true) ∧ Rep k b s
  | _, _ => False

theorem SameUpTo.map {α β γ δ : Type} {f : α → β} {p : α → Bool} {o : Option (α × Bytes)} {o' : Option (β × Str)}
    (h : SameUpTo k f p o o') (g : α → γ) (g' : β → δ) (f' : γ → δ) (p' : γ → Bool) (hg : ∀ a, f' (g a) = g' (f a))
    (hp : ∀ a, k = false → p a = true → p' (g a) = true) :
    SameUpTo k f' p' (o.map fun r => (g r.1, r.2)) (o'.map fun r => (g' r.1, r.2)) := by
  match o, o', h with
  | none, none, _ => trivial
  | some (a, b), some (_, s), ⟨rfl, h1, h2⟩ => exact ⟨hg a, fun hk => hp a hk (h1 hk), h2⟩

/-- The first byte and the first character. -/
theorem Rep.first {b : Bytes} {s : Str} (h : Rep k b s) :
    (b = [] ∧ s = []) ∨ ∃ x b' c s', b = x :: b' ∧ s = c :: s' ∧
      (∀ m : Nat, m < 0x80 → (x = UInt8.ofNat m ↔ c = Char.ofNat m)) ∧ ((∃ m, m < 0x80 ∧ c = Char.ofNat m) → Rep k b' s') := by
  rcases h.cases with ⟨rfl, rfl⟩ | ⟨x, b', s', rfl, rfl, hx, h'⟩ | ⟨w, b', c, s', rfl, rfl, hw, hx, hc, h'⟩
  · exact .inl ⟨rfl, rfl⟩
  · refine .inr ⟨x, b', _, s', rfl, rfl, ?_, fun _ => h'⟩
    intro m hm
    constructor
    · rintro rfl; rw [byte_ofNat (by omega)]
    · intro e
      have := congrArg Char.toNat e
      rw [char_byte, ofNat_toNat_char (by omega)] at this
      rw [← this, UInt8.ofNat_toNat]
  · cases w with
    | nil => exact absurd rfl hw
    | cons x w =>
      have no : ∀ m : Nat, m < 0x80 → c ≠ Char.ofNat m := by
        rintro m hm rfl
        rw [ofNat_toNat_char (by omega)] at hc
        omega
      refine .inr ⟨x, w ++ b', c, s', rfl, rfl, ?_, ?_⟩
      · intro m hm
        constructor
        · rintro rfl
          have := hx (UInt8.ofNat m) (by simp)
          rw [byte_ofNat (by omega)] at this
          omega
        · intro e; exact absurd e (no m hm)
      · rintro ⟨m, hm, e⟩; exact absurd e (no m hm)

theorem ofLiteral_repaired {s r : Str} {j : Json} (h : scanLiteral s = some (j, r)) :
    (BJson.ofLiteral j).repaired = j ∧ (BJson.ofLiteral j).allUtf8 = true := by
  unfold scanLiteral at h
  split at h
  · cases h; exact ⟨rfl, rfl⟩
  · split at h
    · cases h; exact ⟨rfl, rfl⟩
    · split at h
      · cases h; exact ⟨rfl, rfl⟩
      · rw [Option.map_eq_some_iff] at h
        obtain ⟨p, -, e⟩ := h
        cases e
        exact ⟨rfl, rfl⟩

theorem repairs_literal {b : Bytes} {s : Str} (h : Rep k b s) : SameUpTo k BJson.repaired BJson.allUtf8 (scanLiteralB b) (scanLiteral s) := by
  have h1 := alike_literal (alike_of h)
  unfold scanLiteralB
  cases e : scanLiteral (latin b) with
  | none =>
    rw [e] at h1
    cases e' : scanLiteral s with
    | none => trivial
    | some p => rw [e'] at h1; exact h1
  | some p =>
    obtain ⟨j, t⟩ := p
    rw [e] at h1
    cases e' : scanLiteral s with
    | none => rw [e'] at h1; exact h1
    | some p =>
      obtain ⟨j', s'⟩ := p
      rw [e'] at h1
      obtain ⟨rfl, h2⟩ := h1
      exact ⟨(ofLiteral_repaired e).1, fun _ => (ofLiteral_repaired e).2, h2.back⟩

/-- A JSON text with more steps than needed. -/
theorem scanJson_fuel {s : Str} {fuel : Nat} (hf : 2 * s.length + 1 ≤ fuel) :
    (match scanValue fuel maxNestingDepth s with
      | none => none
      | some (j, t) => if skipJsonSpace t = [] then some j else none) = scanJson s := by
  have one : ∀ j, (match scanValue fuel maxNestingDepth s with
      | none => none
      | some (j, t) => if skipJsonSpace t = [] then some j else none) = some j ↔ scanJson s = some j := by
    intro j
    rw [scanJson_iff]
    constructor
    · intro h
      split at h
      · cases h
      · next j' t hv =>
        split at h
        · next ht =>
          cases h
          obtain ⟨b, u, h1, h2, h3, h4⟩ := (scan_sound _).1 _ _ _ _ hv
          exact ⟨b, u, t, h1, h2, skip_nil_iff.1 ht, h3, h4⟩
        · cases h
    · rintro ⟨a, t, b, rfl, ha, hb, h, hd⟩
      rw [spelt_scanned h _ maxNestingDepth a b ha (ends_blanks hb) (by simp only [List.length_append] at hf; omega) hd]
      simp [skip_nil_iff.2 hb]
  generalize (match scanValue fuel maxNestingDepth s with
      | none => none
      | some (j, t) => if skipJsonSpace t = [] then some j else none) = o at one
  cases o with
  | none =>
    cases e : scanJson s with
    | none => rfl
    | some j => exact (one j).2 e
  | some j => exact ((one j).1 rfl).symm

theorem repairs_scan (n : Nat) :
    (∀ d b s, Rep k b s → SameUpTo k BJson.repaired BJson.allUtf8 (scanValueB n d b) (scanValue n d s)) ∧
    (∀ d b s, Rep k b s → SameUpTo k BJson.repairedList BJson.allUtf8List (scanElementsB n d b) (scanElements n d s)) ∧
    (∀ d b s, Rep k b s → SameUpTo k BJson.repairedFields BJson.allUtf8Fields (scanMembersB n d b) (scanMembers n d s)) := by
  induction n with
  | zero =>
    refine ⟨?_, ?_, ?_⟩ <;> intro d b s _
    · rw [scanValueB, scanValue]; trivial
    · rw [scanElementsB, scanElements]; trivial
    · rw [scanMembersB, scanMembers]; trivial
  | succ n ih =>
    obtain ⟨ihV, ihE, ihM⟩ := ih
    refine ⟨?_, ?_, ?_⟩
    · intro d b s h
      rw [scanValueB, scanValue_cons]
      have h1 := repairs_skip h
      generalize skipSpaceB b = b1 at h1 ⊢
      generalize skipJsonSpace s = s1 at h1 ⊢
      rcases h1.first with ⟨rfl, rfl⟩ | ⟨x, b', c, s', rfl, rfl, hx, hr⟩
      · trivial
      simp only
      by_cases e1 : c = '"'
      · rw [if_pos e1, if_pos (show x = 34 from (hx 34 (by omega)).2 e1)]
        rcases repairs_scanString (hr ⟨34, by omega, e1⟩) with ⟨g1, g2⟩ | ⟨raw, r, raw', r', g1, g2, g3, g4, -⟩
        · rw [g1, g2]; trivial
        · rw [g1, g2]; exact ⟨by show Json.str _ = _; rw [g3.repair], fun hk => by subst hk; exact g3.isUtf8, g4⟩
      rw [if_neg e1, if_neg (show ¬ x = 34 from fun e => e1 ((hx 34 (by omega)).1 e))]
      by_cases e2 : c = '['
      · rw [if_pos e2, if_pos (show x = 91 from (hx 91 (by omega)).2 e2)]
        have h2 := repairs_skip (hr ⟨91, by omega, e2⟩)
        cases d with
        | zero => trivial
        | succ d =>
          simp only
          generalize skipSpaceB b' = b2 at h2 ⊢
          generalize skipJsonSpace s' = s2 at h2 ⊢
          rcases h2.first with ⟨rfl, rfl⟩ | ⟨y, b3, c', s3, rfl, rfl, hy, hr'⟩
          · trivial
          simp only
          by_cases e3 : c' = ']'
          · rw [if_pos e3, if_pos (show y = 93 from (hy 93 (by omega)).2 e3)]
            exact ⟨rfl, fun _ => rfl, hr' ⟨93, by omega, e3⟩⟩
          · rw [if_neg e3, if_neg (show ¬ y = 93 from fun e => e3 ((hy 93 (by omega)).1 e))]
            exact (ihE d _ _ h2).map BJson.arr Json.arr BJson.repaired BJson.allUtf8 (fun l => rfl) fun l _ h => h
      rw [if_neg e2, if_neg (show ¬ x = 91 from fun e => e2 ((hx 91 (by omega)).1 e))]
      by_cases e3 : c = '{'
      · rw [if_pos e3, if_pos (show x = 123 from (hx 123 (by omega)).2 e3)]
        have h2 := repairs_skip (hr ⟨123, by omega, e3⟩)
        cases d with
        | zero => trivial
        | succ d =>
          simp only
          generalize skipSpaceB b' = b2 at h2 ⊢
          generalize skipJsonSpace s' = s2 at h2 ⊢
          rcases h2.first with ⟨rfl, rfl⟩ | ⟨y, b3, c', s3, rfl, rfl, hy, hr'⟩
          · trivial
          simp only
          by_cases e3 : c' = '}'
          · rw [if_pos e3, if_pos (show y = 125 from (hy 125 (by omega)).2 e3)]
            exact ⟨rfl, fun _ => rfl, hr' ⟨125, by omega, e3⟩⟩
          · rw [if_neg e3, if_neg (show ¬ y = 125 from fun e => e3 ((hy 125 (by omega)).1 e))]
            exact (ihM d _ _ h2).map BJson.obj Json.obj BJson.repaired BJson.allUtf8 (fun l => rfl) fun l _ h => h
      rw [if_neg e3, if_neg (show ¬ x = 123 from fun e => e3 ((hx 123 (by omega)).1 e))]
      exact repairs_literal h1
    · intro d b s h
      rw [scanElementsB, scanElements_cons]
      have h1 := ihV d b s h
      generalize scanValueB n d b = o at h1 ⊢
      generalize scanValue n d s = o' at h1 ⊢
      match o, o', h1 with
      | none, none, _ => trivial
      | some (j, b1), some (_, s1), ⟨rfl, hj, h2⟩ =>
        simp only
        replace h2 := repairs_skip h2
        generalize skipSpaceB b1 = b2 at h2 ⊢
        generalize skipJsonSpace s1 = s2 at h2 ⊢
        rcases h2.first with ⟨rfl, rfl⟩ | ⟨x, b', c, s', rfl, rfl, hx, hr⟩
        · trivial
        simp only
        by_cases e1 : c = ','
        · rw [if_pos e1, if_pos (show x = 44 from (hx 44 (by omega)).2 e1)]
          exact (ihE d _ _ (hr ⟨44, by omega, e1⟩)).map (j :: ·) (j.repaired :: ·) BJson.repairedList
            BJson.allUtf8List (fun l => rfl) fun l hk h => by rw [BJson.allUtf8List, hj hk, h]; rfl
        rw [if_neg e1, if_neg (show ¬ x = 44 from fun e => e1 ((hx 44 (by omega)).1 e))]
        by_cases e2 : c = ']'
        · rw [if_pos e2, if_pos (show x = 93 from (hx 93 (by omega)).2 e2)]
          exact ⟨rfl, fun hk => by rw [BJson.allUtf8List, hj hk]; rfl, hr ⟨93, by omega, e2⟩⟩
        rw [if_neg e2, if_neg (show ¬ x = 93 from fun e => e2 ((hx 93 (by omega)).1 e))]
        trivial
    · intro d b s h
      rw [scanMembersB, scanMembers_cons]
      have h1 := repairs_skip h
      generalize skipSpaceB b = b1 at h1 ⊢
      generalize skipJsonSpace s = s1 at h1 ⊢
      rcases h1.first with ⟨rfl, rfl⟩ | ⟨x, b', c, s', rfl, rfl, hx, hr⟩
      · trivial
      simp only
      by_cases e1 : c ≠ '"'
      · rw [if_pos e1, if_pos (show x ≠ 34 from fun e => e1 ((hx 34 (by omega)).1 e))]; trivial
      replace e1 := Classical.not_not.1 e1
      rw [if_neg (not_not_intro e1), if_neg (show ¬ x ≠ 34 from not_not_intro ((hx 34 (by omega)).2 e1))]
      rcases repairs_scanString (hr ⟨34, by omega, e1⟩) with ⟨g1, g2⟩ | ⟨raw, r, raw', r', g1, g2, g3, g4, g5⟩
      · rw [g1, g2]; trivial
      rw [g1, g2]
      simp only
      rw [unquoteB_repairs g3 g5]
      obtain ⟨us, hus⟩ := units_some g5
      rw [unescape_map hus, Option.map_some]
      generalize combineUnits us = key
      have h2 := repairs_skip g4
      generalize skipSpaceB r = b2 at h2 ⊢
      generalize skipJsonSpace r' = s2 at h2 ⊢
      rcases h2.first with ⟨rfl, rfl⟩ | ⟨y, b3, c', s3, rfl, rfl, hy, hr'⟩
      · trivial
      simp only
      by_cases e2 : c' ≠ ':'
      · rw [if_pos e2, if_pos (show y ≠ 58 from fun e => e2 ((hy 58 (by omega)).1 e))]; trivial
      replace e2 := Classical.not_not.1 e2
      rw [if_neg (not_not_intro e2), if_neg (show ¬ y ≠ 58 from not_not_intro ((hy 58 (by omega)).2 e2))]
      have h3 := ihV d b3 s3 (hr' ⟨58, by omega, e2⟩)
      generalize scanValueB n d b3 = o at h3 ⊢
      generalize scanValue n d s3 = o' at h3 ⊢
      match o, o', h3 with
      | none, none, _ => trivial
      | some (j, b4), some (_, s4), ⟨rfl, hj, h4⟩ =>
        simp only
        replace h4 := repairs_skip h4
        generalize skipSpaceB b4 = b5 at h4 ⊢
        generalize skipJsonSpace s4 = s5 at h4 ⊢
        rcases h4.first with ⟨rfl, rfl⟩ | ⟨z, b', c, s', rfl, rfl, hz, hr⟩
        · trivial
        simp only
        by_cases e3 : c = ','
        · rw [if_pos e3, if_pos (show z = 44 from (hz 44 (by omega)).2 e3)]
          refine (ihM d _ _ (hr ⟨44, by omega, e3⟩)).map ((utf8 key, j) :: ·) ((key, j.repaired) :: ·)
            BJson.repairedFields BJson.allUtf8Fields (fun l => ?_) fun l hk h => by rw [BJson.allUtf8Fields, hj hk, h]; rfl
          rw [BJson.repairedFields, repair_utf8]
        rw [if_neg e3, if_neg (show ¬ z = 44 from fun e => e3 ((hz 44 (by omega)).1 e))]
        by_cases e4 : c = '}'
        · rw [if_pos e4, if_pos (show z = 125 from (hz 125 (by omega)).2 e4)]
          refine ⟨?_, fun hk => by rw [BJson.allUtf8Fields, hj hk]; rfl, hr ⟨125, by omega, e4⟩⟩
          rw [BJson.repairedFields, BJson.repairedFields, repair_utf8]
        rw [if_neg e4, if_neg (show ¬ z = 125 from fun e => e4 ((hz 125 (by omega)).1 e))]
        trivial

theorem scanJsonB_same {b : Bytes} {s : Str} (h : Rep k b s) :
    (scanJsonB b).map BJson.repaired = scanJson s ∧ (k = false → ∀ j, scanJsonB b = some j → j.allUtf8 = true) := by
  rw [← scanJson_fuel (s := s) (fuel := 2 * b.length + 1) (by have := h.length; omega)]
  unfold scanJsonB
  have h1 := (repairs_scan (2 * b.length + 1)).1 maxNestingDepth b s h
  generalize scanValueB (2 * b.length + 1) maxNestingDepth b = o at h1 ⊢
  generalize scanValue (2 * b.length + 1) maxNestingDepth s = o' at h1 ⊢
  match o, o', h1 with
  | none, none, _ => exact ⟨rfl, fun _ j e => by cases e⟩
  | some (j, b1), some (_, s1), ⟨rfl, hj, h2⟩ =>
    have h3 := (repairs_skip h2).eq_nil
    simp only
    by_cases e : skipSpaceB b1 = []
    · rw [if_pos e, if_pos (h3.1 e)]
      exact ⟨rfl, fun hk j' e' => by cases e'; exact hj hk⟩
    · rw [if_neg e, if_neg (fun e' => e (h3.2 e'))]
      exact ⟨rfl, fun hk j' e' => by cases e'⟩

/-- **A file of any bytes is scanned as its repaired text is.** -/
theorem scanJsonB_repairs {b : Bytes} {s : Str} (h : Repairs b s) : (scanJsonB b).map BJson.repaired = scanJson s :=
  (scanJsonB_same (rep_of h)).1

/-- All strings of a file that is text are text. -/
theorem scanJsonB_utf8 {s : Str} {j : BJson} (h : scanJsonB (utf8 s) = some j) : j.allUtf8 = true :=
  (scanJsonB_same (rep_utf8 s)).2 rfl j h

mutual
theorem allUtf8_raw : ∀ j : BJson, j.allUtf8 = true → j.rawUtf8 = true
  | .null, _ | .bool _, _ | .num _, _ | .str _, _ => rfl
  | .arr l, h => allUtf8_rawList l h
  | .obj l, h => allUtf8_rawFields l h
theorem allUtf8_rawList : ∀ l : List BJson, BJson.allUtf8List l = true → BJson.rawUtf8List l = true
  | [], _ => rfl
  | j :: l, h => by
    rw [BJson.allUtf8List, Bool.and_eq_true] at h
    rw [BJson.rawUtf8List, allUtf8_raw j h.1, allUtf8_rawList l h.2]; rfl
theorem allUtf8_rawFields : ∀ l : List (Bytes × BJson), BJson.allUtf8Fields l = true → BJson.rawUtf8Fields l = true
  | [], _ => rfl
  | (k, j) :: l, h => by
    rw [BJson.allUtf8Fields, Bool.and_eq_true] at h
    rw [BJson.rawUtf8Fields, allUtf8_raw j h.1, allUtf8_rawFields l h.2, h.1]
    simp
end

end Verif
