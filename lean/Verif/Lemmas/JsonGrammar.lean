import Verif.Lemmas.JsonScan

/-!
# A text is scanned as a value exactly if it spells it
-/

namespace Verif
open Spec

/-! ## Joined texts -/

theorem joinComma_cons (x : Str) {l : List Str} (h : l ≠ []) : join g!"," (x :: l) = x ++ g!"," ++ join g!"," l := by
  cases l with
  | nil => exact absurd rfl h
  | cons y l => rfl

/-! ## Scanning skips blanks -/

theorem skip_skip (s : Str) : skipJsonSpace (skipJsonSpace s) = skipJsonSpace s := by
  obtain ⟨b, h1, h2⟩ := skip_split s
  have := skip_blank (t := skipJsonSpace s) h2
  rw [← h1] at this
  exact this.symm

theorem scanValue_skip (n d : Nat) (s : Str) : scanValue n d (skipJsonSpace s) = scanValue n d s := by
  cases n with
  | zero => simp [scanValue]
  | succ n => rw [scanValue, scanValue, skip_skip]

theorem scanElements_skip (n d : Nat) (s : Str) : scanElements n d (skipJsonSpace s) = scanElements n d s := by
  cases n with
  | zero => simp [scanElements]
  | succ n => rw [scanElements, scanElements, scanValue_skip]

theorem scanMembers_skip (n d : Nat) (s : Str) : scanMembers n d (skipJsonSpace s) = scanMembers n d s := by
  cases n with
  | zero => simp [scanMembers]
  | succ n => rw [scanMembers, scanMembers, skip_skip]

/-! ## One step of scanning -/

theorem scanValue_end_array {n d : Nat} {s t u : Str} (h : skipJsonSpace s = '[' :: t) (h' : skipJsonSpace t = ']' :: u) :
    scanValue (n + 1) (d + 1) s = some (.arr [], u) := by
  rw [scanValue, h]
  show (match skipJsonSpace t with
    | ']' :: t => some (Json.arr [], t)
    | t => (scanElements n d t).map fun r : List Json × Str => (Json.arr r.1, r.2)) = _
  rw [h']
  rfl

theorem scanValue_array {n d : Nat} {s t : Str} (h : skipJsonSpace s = '[' :: t) (h' : ∀ u, skipJsonSpace t ≠ ']' :: u) :
    scanValue (n + 1) (d + 1) s = (scanElements n d t).map fun r : List Json × Str => (.arr r.1, r.2) := by
  rw [scanValue, h]
  show (match skipJsonSpace t with
    | ']' :: t => some (Json.arr [], t)
    | t => (scanElements n d t).map fun r : List Json × Str => (Json.arr r.1, r.2)) = _
  split
  · next u hu => exact absurd hu (h' u)
  · rw [scanElements_skip]

theorem scanValue_end_object {n d : Nat} {s t u : Str} (h : skipJsonSpace s = '{' :: t) (h' : skipJsonSpace t = '}' :: u) :
    scanValue (n + 1) (d + 1) s = some (.obj [], u) := by
  rw [scanValue, h]
  show (match skipJsonSpace t with
    | '}' :: t => some (Json.obj [], t)
    | t => (scanMembers n d t).map fun r : List (Str × Json) × Str => (Json.obj r.1, r.2)) = _
  rw [h']
  rfl

theorem scanValue_object {n d : Nat} {s t : Str} (h : skipJsonSpace s = '{' :: t) (h' : ∀ u, skipJsonSpace t ≠ '}' :: u) :
    scanValue (n + 1) (d + 1) s = (scanMembers n d t).map fun r : List (Str × Json) × Str => (.obj r.1, r.2) := by
  rw [scanValue, h]
  show (match skipJsonSpace t with
    | '}' :: t => some (Json.obj [], t)
    | t => (scanMembers n d t).map fun r : List (Str × Json) × Str => (Json.obj r.1, r.2)) = _
  split
  · next u hu => exact absurd hu (h' u)
  · rw [scanMembers_skip]

theorem scanElements_end {n d : Nat} {s t u : Str} {j : Json} (h : scanValue n d s = some (j, t)) (h' : skipJsonSpace t = ']' :: u) :
    scanElements (n + 1) d s = some ([j], u) := by
  rw [scanElements, h]
  show (match skipJsonSpace t with
    | ',' :: t => (scanElements n d t).map fun r : List Json × Str => (j :: r.1, r.2)
    | ']' :: t => some ([j], t)
    | _ => none) = _
  rw [h']
  rfl

theorem scanElements_comma {n d : Nat} {s t u : Str} {j : Json} (h : scanValue n d s = some (j, t)) (h' : skipJsonSpace t = ',' :: u) :
    scanElements (n + 1) d s = (scanElements n d u).map fun r => (j :: r.1, r.2) := by
  rw [scanElements, h]
  show (match skipJsonSpace t with
    | ',' :: t => (scanElements n d t).map fun r : List Json × Str => (j :: r.1, r.2)
    | ']' :: t => some ([j], t)
    | _ => none) = _
  rw [h']
  rfl

/-- The first member of an object. -/
structure ScannedMember (n d : Nat) (s key : Str) (j : Json) (t : Str) : Prop where
  scanned : ∃ t0 raw t1 t2, skipJsonSpace s = '"' :: t0 ∧ scanString t0 = some (raw, t1) ∧ unescape raw = some key ∧
    skipJsonSpace t1 = ':' :: t2 ∧ scanValue n d t2 = some (j, t)

theorem scanMembers_step {n d : Nat} {s key t : Str} {j : Json} (h : ScannedMember n d s key j t) :
    scanMembers (n + 1) d s = match skipJsonSpace t with
      | ',' :: t => (scanMembers n d t).map fun r : List (Str × Json) × Str => ((key, j) :: r.1, r.2)
      | '}' :: t => some ([(key, j)], t)
      | _ => none := by
  obtain ⟨t0, raw, t1, t2, h1, h2, h3, h4, h5⟩ := h.scanned
  rw [scanMembers, h1]
  show (match scanString t0 with
      | none => none
      | some (raw, t) => match unescape raw, skipJsonSpace t with
        | some key, ':' :: t => match scanValue n d t with
          | none => none
          | some (j, t) => match skipJsonSpace t with
            | ',' :: t => (scanMembers n d t).map fun r : List (Str × Json) × Str => ((key, j) :: r.1, r.2)
            | '}' :: t => some ([(key, j)], t)
            | _ => none
        | _, _ => none) = _
  rw [h2]
  show (match unescape raw, skipJsonSpace t1 with
        | some key, ':' :: t => match scanValue n d t with
          | none => none
          | some (j, t) => match skipJsonSpace t with
            | ',' :: t => (scanMembers n d t).map fun r : List (Str × Json) × Str => ((key, j) :: r.1, r.2)
            | '}' :: t => some ([(key, j)], t)
            | _ => none
        | _, _ => none) = _
  rw [h3, h4]
  show (match scanValue n d t2 with
          | none => none
          | some (j, t) => match skipJsonSpace t with
            | ',' :: t => (scanMembers n d t).map fun r : List (Str × Json) × Str => ((key, j) :: r.1, r.2)
            | '}' :: t => some ([(key, j)], t)
            | _ => none) = _
  rw [h5]

theorem scanMembers_end {n d : Nat} {s key t u : Str} {j : Json} (h : ScannedMember n d s key j t)
    (h' : skipJsonSpace t = '}' :: u) : scanMembers (n + 1) d s = some ([(key, j)], u) := by
  rw [scanMembers_step h, h']
  rfl

theorem scanMembers_comma {n d : Nat} {s key t u : Str} {j : Json} (h : ScannedMember n d s key j t)
    (h' : skipJsonSpace t = ',' :: u) :
    scanMembers (n + 1) d s = (scanMembers n d u).map fun r => ((key, j) :: r.1, r.2) := by
  rw [scanMembers_step h, h']
  rfl

/-! ## What is scanned is spelt -/

theorem scanLiteral_sound {s : Str} {j : Json} {r : Str} (h : scanLiteral s = some (j, r)) :
    ∃ t, s = t ++ r ∧ Spelt t j ∧ depth j = 0 := by
  unfold scanLiteral at h
  split at h
  · next h1 => cases h; exact ⟨_, cutPrefix_eq_some.1 h1, .null, rfl⟩
  · split at h
    · next h1 => cases h; exact ⟨_, cutPrefix_eq_some.1 h1, .true, rfl⟩
    · split at h
      · next h1 => cases h; exact ⟨_, cutPrefix_eq_some.1 h1, .false, rfl⟩
      · rw [Option.map_eq_some_iff] at h
        obtain ⟨⟨l, r'⟩, h1, h2⟩ := h
        cases h2
        obtain ⟨e, hn⟩ := scanNumber_sound h1
        exact ⟨l, e, .num hn, rfl⟩

/-- The elements of an array up to its end. -/
def ElementsText (s : Str) (d : Nat) (js : List Json) (r : Str) : Prop :=
  ∃ ps : List ElementText, ps ≠ [] ∧ s = join g!"," (ps.map (·.all)) ++ g!"]" ++ r ∧ (∀ p ∈ ps, p.Ok) ∧
    (∀ p ∈ ps, Spelt p.text p.value) ∧ js = ps.map (·.value) ∧ depthList js ≤ d

/-- The members of an object up to its end. -/
def MembersText (s : Str) (d : Nat) (js : List (Str × Json)) (r : Str) : Prop :=
  ∃ ms : List MemberText, ms ≠ [] ∧ s = join g!"," (ms.map (·.all)) ++ g!"}" ++ r ∧ (∀ m ∈ ms, m.Ok) ∧
    (∀ m ∈ ms, Spelt m.part.text m.part.value) ∧ js = (ms.map fun m => (m.key, m.part.value)) ∧ depthFields js ≤ d

theorem elements_spelt {s : Str} {d : Nat} {js : List Json} {r : Str} (h : ElementsText s d js r) :
    ∃ t, '[' :: s = t ++ r ∧ Spelt t (.arr js) ∧ depth (.arr js) ≤ d + 1 := by
  obtain ⟨ps, hne, rfl, ho, hs, rfl, hd⟩ := h
  refine ⟨_, ?_, .arr hne ho hs, ?_⟩
  · simp
  · rw [depth]; omega

theorem members_spelt {s : Str} {d : Nat} {js : List (Str × Json)} {r : Str} (h : MembersText s d js r) :
    ∃ t, '{' :: s = t ++ r ∧ Spelt t (.obj js) ∧ depth (.obj js) ≤ d + 1 := by
  obtain ⟨ps, hne, rfl, ho, hs, rfl, hd⟩ := h
  refine ⟨_, ?_, .obj hne ho hs, ?_⟩
  · simp
  · rw [depth]; omega

theorem scan_sound (n : Nat) :
    (∀ d s j r, scanValue n d s = some (j, r) → ∃ b t, s = b ++ t ++ r ∧ Blank b ∧ Spelt t j ∧ depth j ≤ d) ∧
    (∀ d s js r, scanElements n d s = some (js, r) → ElementsText s d js r) ∧
    (∀ d s js r, scanMembers n d s = some (js, r) → MembersText s d js r) := by
  induction n with
  | zero => simp [scanValue, scanElements, scanMembers]
  | succ n ih =>
    obtain ⟨ihV, ihE, ihM⟩ := ih
    refine ⟨?_, ?_, ?_⟩
    · intro d s j r h
      obtain ⟨b, hb, hbl⟩ := skip_split s
      have fin : ∀ t, skipJsonSpace s = t ++ r → Spelt t j → depth j ≤ d →
          ∃ b t, s = b ++ t ++ r ∧ Blank b ∧ Spelt t j ∧ depth j ≤ d := fun t h1 h2 h3 =>
        ⟨b, t, by rw [List.append_assoc, ← h1]; exact hb, hbl, h2, h3⟩
      rw [scanValue] at h
      split at h
      · next t ht =>
        rw [Option.map_eq_some_iff] at h
        obtain ⟨⟨raw, r'⟩, h1, h2⟩ := h
        cases h2
        obtain ⟨e, hs⟩ := scanString_sound _ _ _ h1
        exact fin _ (by rw [ht, e]; simp) (.str hs) (Nat.zero_le _)
      · next t ht =>
        cases d with
        | zero => cases h
        | succ d =>
          obtain ⟨b', hb', hbl'⟩ := skip_split t
          dsimp only at h
          split at h
          · next u hu =>
            cases h
            rw [hu] at hb'
            refine fin _ ?_ (.noElements hbl') (by simp [depth, depthList])
            rw [ht, hb']; simp
          · rw [Option.map_eq_some_iff] at h
            obtain ⟨⟨js, r'⟩, h1, h2⟩ := h
            cases h2
            rw [scanElements_skip] at h1
            obtain ⟨u, h3, h4, h5⟩ := elements_spelt (ihE _ _ _ _ h1)
            exact fin u (ht.trans h3) h4 h5
      · next t ht =>
        cases d with
        | zero => cases h
        | succ d =>
          obtain ⟨b', hb', hbl'⟩ := skip_split t
          dsimp only at h
          split at h
          · next u hu =>
            cases h
            rw [hu] at hb'
            refine fin _ ?_ (.noMembers hbl') (by simp [depth, depthFields])
            rw [ht, hb']; simp
          · rw [Option.map_eq_some_iff] at h
            obtain ⟨⟨js, r'⟩, h1, h2⟩ := h
            cases h2
            rw [scanMembers_skip] at h1
            obtain ⟨u, h3, h4, h5⟩ := members_spelt (ihM _ _ _ _ h1)
            exact fin u (ht.trans h3) h4 h5
      · obtain ⟨t, h1, h2, h3⟩ := scanLiteral_sound h
        exact fin t h1 h2 (by omega)
    · intro d s js r h
      rw [scanElements] at h
      split at h
      · cases h
      · next j t hv =>
        obtain ⟨b, u, hs, hb, hsp, hd⟩ := ihV _ _ _ _ hv
        obtain ⟨b', hb', hbl'⟩ := skip_split t
        split at h
        · next w hw =>
          rw [Option.map_eq_some_iff] at h
          obtain ⟨⟨js', r'⟩, h1, h2⟩ := h
          cases h2
          obtain ⟨ps, hne, h3, ho, h4, h5, h6⟩ := ihE _ _ _ _ h1
          subst h5
          refine ⟨⟨b, u, b', j⟩ :: ps, by simp, ?_, ?_, ?_, rfl, ?_⟩
          · rw [List.map_cons, joinComma_cons _ (by simpa using hne), hs, hb', hw, h3]
            simp [ElementText.all]
          · intro p hp
            rcases List.mem_cons.1 hp with rfl | hp
            · exact ⟨hb, hbl'⟩
            · exact ho p hp
          · intro p hp
            rcases List.mem_cons.1 hp with rfl | hp
            · exact hsp
            · exact h4 p hp
          · rw [depthList]
            exact Nat.max_le.2 ⟨hd, h6⟩
        · next w hw =>
          cases h
          refine ⟨[⟨b, u, b', j⟩], by simp, ?_, ?_, ?_, rfl, ?_⟩
          · rw [hs, hb', hw]
            simp [ElementText.all, join]
          · intro p hp
            rw [List.mem_singleton.1 hp]
            exact ⟨hb, hbl'⟩
          · intro p hp
            rw [List.mem_singleton.1 hp]
            exact hsp
          · simp [depthList, hd]
        · cases h
    · intro d s js r h
      obtain ⟨b0, hb0, hbl0⟩ := skip_split s
      rw [scanMembers] at h
      split at h
      · next t0 ht0 =>
        split at h
        · cases h
        · next raw t1 hraw =>
          obtain ⟨e1, hst⟩ := scanString_sound _ _ _ hraw
          obtain ⟨b1, hb1, hbl1⟩ := skip_split t1
          split at h
          · next key t2 hkey ht2 =>
            split at h
            · cases h
            · next j t hv =>
              obtain ⟨b, u, hs, hb, hsp, hd⟩ := ihV _ _ _ _ hv
              obtain ⟨b', hb', hbl'⟩ := skip_split t
              have all : ∀ c w, skipJsonSpace t = c :: w → s = (MemberText.mk b0 raw b1 key ⟨b, u, b', j⟩).all ++ c :: w := by
                intro c w hw
                rw [hb0, ht0, e1, hb1, ht2, hs, hb', hw]
                simp [MemberText.all, ElementText.all]
              split at h
              · next w hw =>
                rw [Option.map_eq_some_iff] at h
                obtain ⟨⟨js', r'⟩, h1, h2⟩ := h
                cases h2
                obtain ⟨ps, hne, h3, ho, h4, h5, h6⟩ := ihM _ _ _ _ h1
                subst h5
                refine ⟨⟨b0, raw, b1, key, ⟨b, u, b', j⟩⟩ :: ps, by simp, ?_, ?_, ?_, rfl, ?_⟩
                · rw [List.map_cons, joinComma_cons _ (by simpa using hne), all _ _ hw, h3]
                  simp
                · intro p hp
                  rcases List.mem_cons.1 hp with rfl | hp
                  · exact ⟨hbl0, hbl1, hst, hkey, hb, hbl'⟩
                  · exact ho p hp
                · intro p hp
                  rcases List.mem_cons.1 hp with rfl | hp
                  · exact hsp
                  · exact h4 p hp
                · rw [depthFields]
                  exact Nat.max_le.2 ⟨hd, h6⟩
              · next w hw =>
                cases h
                refine ⟨[⟨b0, raw, b1, key, ⟨b, u, b', j⟩⟩], by simp, ?_, ?_, ?_, rfl, ?_⟩
                · rw [all _ _ hw]
                  simp [join]
                · intro p hp
                  rw [List.mem_singleton.1 hp]
                  exact ⟨hbl0, hbl1, hst, hkey, hb, hbl'⟩
                · intro p hp
                  rw [List.mem_singleton.1 hp]
                  exact hsp
                · simp [depthFields, hd]
              · cases h
          · cases h
      · cases h

/-! ## What is spelt is scanned -/

theorem ends_blank {b : Str} {c : Char} {t : Str} (hb : Blank b) (hc : c = ',' ∨ c = ']' ∨ c = '}') : NumEnds (b ++ c :: t) := by
  intro x u h
  cases b with
  | nil =>
    cases h
    rcases hc with rfl | rfl | rfl <;> decide
  | cons y b =>
    cases h
    rcases hb x (by simp) with rfl | rfl | rfl | rfl <;> decide

theorem ends_blanks {b : Str} (hb : Blank b) : NumEnds b := by
  intro x u h
  subst h
  rcases hb x (by simp) with rfl | rfl | rfl | rfl <;> decide

theorem digit_not_space {c : Char} (h : isDigit c = true) : isJsonSpace c = false := by
  have key : ∀ c ∈ g!"0123456789", isJsonSpace c = false := by decide
  exact key c (isDigit_iff.1 h)

theorem spelt_head {t : Str} {j : Json} (h : Spelt t j) : ∃ c u, t = c :: u ∧ isJsonSpace c = false ∧ c ≠ ']' := by
  cases h with
  | null => exact ⟨_, _, rfl, by decide, by decide⟩
  | true => exact ⟨_, _, rfl, by decide, by decide⟩
  | false => exact ⟨_, _, rfl, by decide, by decide⟩
  | num h =>
    obtain ⟨c, u, rfl, hc⟩ := number_head h
    refine ⟨c, u, rfl, ?_, ?_⟩
    · rcases hc with rfl | hc
      · decide
      · exact digit_not_space hc
    · rintro rfl
      exact absurd hc (by decide)
  | str => exact ⟨_, _, rfl, by decide, by decide⟩
  | noElements => exact ⟨_, _, rfl, by decide, by decide⟩
  | arr => exact ⟨_, _, rfl, by decide, by decide⟩
  | noMembers => exact ⟨_, _, rfl, by decide, by decide⟩
  | obj => exact ⟨_, _, rfl, by decide, by decide⟩

theorem skip_spelt {t : Str} {j : Json} (h : Spelt t j) {b : Str} (hb : Blank b) (r : Str) :
    skipJsonSpace (b ++ t ++ r) = t ++ r := by
  obtain ⟨c, u, rfl, hc, -⟩ := spelt_head h
  rw [List.append_assoc, skip_blank hb, List.cons_append, skip_self hc]

theorem scanLiteral_number {l r : Str} (h : NumberSpelt l) (hr : NumEnds r) : scanLiteral (l ++ r) = some (.num l, r) := by
  obtain ⟨c, u, rfl, hc⟩ := number_head h
  have no : ∀ p ps, c ≠ p → cutPrefix (p :: ps) (c :: u ++ r) = none := by
    intro p ps h
    rw [cutPrefix_eq_none]
    rintro x hx
    exact h (List.cons.inj hx).1
  have ne : ∀ p, isDigit p = false → p ≠ '-' → c ≠ p := by
    rintro p h1 h2 rfl
    rcases hc with h | h
    · exact h2 h
    · rw [h1] at h; cases h
  unfold scanLiteral
  rw [no _ _ (ne _ (by decide) (by decide)), no _ _ (ne _ (by decide) (by decide)), no _ _ (ne _ (by decide) (by decide)),
    scanNumber_complete h hr]
  rfl

theorem scanValue_number {l r : Str} (h : NumberSpelt l) (hr : NumEnds r) (n d : Nat) {b : Str} (hb : Blank b) :
    scanValue (n + 1) d (b ++ l ++ r) = some (.num l, r) := by
  rw [scanValue, skip_spelt (.num h) hb, ← scanLiteral_number h hr]
  obtain ⟨c, u, rfl, hc⟩ := number_head h
  have ne : ∀ p, isDigit p = false → p ≠ '-' → c ≠ p := by
    rintro p h1 h2 rfl
    rcases hc with h | h
    · exact h2 h
    · rw [h1] at h; cases h
  split
  · next e => cases e; exact absurd rfl (ne _ (by decide) (by decide))
  · next e => cases e; exact absurd rfl (ne _ (by decide) (by decide))
  · next e => cases e; exact absurd rfl (ne _ (by decide) (by decide))
  · rfl

/-- The value is scanned off every text that begins with its spelling. -/
def Scanned (t : Str) (j : Json) : Prop :=
  ∀ fuel d b r, Blank b → NumEnds r → 2 * t.length + 1 ≤ fuel → depth j ≤ d → scanValue fuel d (b ++ t ++ r) = some (j, r)

theorem scanElements_complete (ps : List ElementText) (hne : ps ≠ []) (ho : ∀ p ∈ ps, p.Ok) (h : ∀ p ∈ ps, Scanned p.text p.value)
    (fuel d : Nat) (r : Str) (hf : 2 * (join g!"," (ps.map (·.all))).length + 2 ≤ fuel) (hd : depthList (ps.map (·.value)) ≤ d) :
    scanElements fuel d (join g!"," (ps.map (·.all)) ++ g!"]" ++ r) = some (ps.map (·.value), r) := by
  induction ps generalizing fuel with
  | nil => exact absurd rfl hne
  | cons p ps ih =>
    obtain ⟨hb, ha⟩ := ho p (by simp)
    have hp := h p (by simp)
    rw [List.map_cons, depthList, Nat.max_le] at hd
    cases fuel with
    | zero => omega
    | succ n =>
      by_cases hps : ps = []
      · subst hps
        simp only [List.map_cons, List.map_nil, join, ElementText.all, List.length_append] at hf
        have e : join g!"," ([p].map (·.all)) ++ g!"]" ++ r = p.before ++ p.text ++ (p.after ++ ']' :: r) := by
          simp [join, ElementText.all]
        rw [e, scanElements_end (hp n d _ _ hb (ends_blank ha (by simp)) (by omega) hd.1)
          ((skip_blank ha).trans (skip_self (by decide)))]
        rfl
      · have hps' : ps.map (·.all) ≠ [] := by simpa using hps
        rw [List.map_cons, joinComma_cons _ hps'] at hf ⊢
        simp only [List.length_append, List.length_cons, List.length_nil] at hf
        have hl : p.text.length ≤ p.all.length := by simp only [ElementText.all, List.length_append]; omega
        have e : p.all ++ g!"," ++ join g!"," (ps.map (·.all)) ++ g!"]" ++ r =
            p.before ++ p.text ++ (p.after ++ ',' :: (join g!"," (ps.map (·.all)) ++ g!"]" ++ r)) := by
          simp [ElementText.all]
        rw [e, scanElements_comma (hp n d _ _ hb (ends_blank ha (by simp)) (by omega) hd.1)
          ((skip_blank ha).trans (skip_self (by decide))),
          ih hps (fun q hq => ho q (by simp [hq])) (fun q hq => h q (by simp [hq])) n (by omega) hd.2]
        rfl

theorem scanMembers_complete (ms : List MemberText) (hne : ms ≠ []) (ho : ∀ m ∈ ms, m.Ok)
    (h : ∀ m ∈ ms, Scanned m.part.text m.part.value)
    (fuel d : Nat) (r : Str) (hf : 2 * (join g!"," (ms.map (·.all))).length + 2 ≤ fuel)
    (hd : depthFields (ms.map fun m => (m.key, m.part.value)) ≤ d) :
    scanMembers fuel d (join g!"," (ms.map (·.all)) ++ g!"}" ++ r) = some (ms.map fun m => (m.key, m.part.value), r) := by
  induction ms generalizing fuel with
  | nil => exact absurd rfl hne
  | cons p ps ih =>
    obtain ⟨hk, hk', hraw, hkey, hb, ha⟩ := ho p (by simp)
    have hp := h p (by simp)
    rw [List.map_cons, depthFields, Nat.max_le] at hd
    cases fuel with
    | zero => omega
    | succ n =>
      have go : ∀ c w, c = ',' ∨ c = '}' → 2 * p.all.length ≤ n →
          ScannedMember n d (p.all ++ c :: w) p.key p.part.value (p.part.after ++ c :: w) := by
        intro c w hc hn
        have e : p.all ++ c :: w = p.beforeKey ++ '"' :: (p.raw ++ g!"\"" ++ (p.afterKey ++ ':' ::
            (p.part.before ++ p.part.text ++ (p.part.after ++ c :: w)))) := by
          simp [MemberText.all, ElementText.all]
        simp only [MemberText.all, ElementText.all, List.length_append, List.length_cons, List.length_nil] at hn
        rw [e]
        exact ⟨_, _, _, _, (skip_blank hk).trans (skip_self (by decide)), scanString_complete hraw _, hkey,
          (skip_blank hk').trans (skip_self (by decide)),
          hp n d _ _ hb (ends_blank ha (by rcases hc with rfl | rfl <;> simp)) (by omega) hd.1⟩
      by_cases hps : ps = []
      · subst hps
        simp only [List.map_cons, List.map_nil, join] at hf
        have e : join g!"," ([p].map (·.all)) ++ g!"}" ++ r = p.all ++ '}' :: r := by
          simp [join]
        rw [e, scanMembers_end (go '}' r (by simp) (by omega)) ((skip_blank ha).trans (skip_self (by decide)))]
        rfl
      · have hps' : ps.map (·.all) ≠ [] := by simpa using hps
        rw [List.map_cons, joinComma_cons _ hps'] at hf ⊢
        simp only [List.length_append, List.length_cons, List.length_nil] at hf
        have e : p.all ++ g!"," ++ join g!"," (ps.map (·.all)) ++ g!"}" ++ r =
            p.all ++ ',' :: (join g!"," (ps.map (·.all)) ++ g!"}" ++ r) := by
          simp
        rw [e, scanMembers_comma (go ',' _ (by simp) (by omega)) ((skip_blank ha).trans (skip_self (by decide))),
          ih hps (fun q hq => ho q (by simp [hq])) (fun q hq => h q (by simp [hq])) n (by omega) hd.2]
        rfl

theorem spelt_scanned {t : Str} {j : Json} (h : Spelt t j) : Scanned t j := by
  induction h with
  | null =>
    intro fuel d b r hb hr hf hd
    cases fuel with
    | zero => omega
    | succ n => rw [scanValue, skip_spelt .null hb]; rfl
  | true =>
    intro fuel d b r hb hr hf hd
    cases fuel with
    | zero => omega
    | succ n => rw [scanValue, skip_spelt .true hb]; rfl
  | false =>
    intro fuel d b r hb hr hf hd
    cases fuel with
    | zero => omega
    | succ n => rw [scanValue, skip_spelt .false hb]; rfl
  | num h =>
    intro fuel d b r hb hr hf hd
    cases fuel with
    | zero => omega
    | succ n => exact scanValue_number h hr n d hb
  | @str raw h =>
    intro fuel d b r hb hr hf hd
    cases fuel with
    | zero => omega
    | succ n =>
      rw [scanValue, skip_spelt (.str h) hb]
      show (scanString (raw ++ g!"\"" ++ r)).map _ = _
      rw [scanString_complete h]; rfl
  | @noElements x h =>
    intro fuel d b r hb hr hf hd
    cases fuel with
    | zero => omega
    | succ n =>
      cases d with
      | zero => simp [depth] at hd
      | succ d =>
        have e : g!"[" ++ x ++ g!"]" ++ r = '[' :: (x ++ ']' :: r) := by simp
        exact scanValue_end_array ((skip_spelt (.noElements h) hb _).trans e) ((skip_blank h).trans (skip_self (by decide)))
  | @noMembers x h =>
    intro fuel d b r hb hr hf hd
    cases fuel with
    | zero => omega
    | succ n =>
      cases d with
      | zero => simp [depth] at hd
      | succ d =>
        have e : g!"{" ++ x ++ g!"}" ++ r = '{' :: (x ++ '}' :: r) := by simp
        exact scanValue_end_object ((skip_spelt (.noMembers h) hb _).trans e) ((skip_blank h).trans (skip_self (by decide)))
  | @arr ps hne ho h ih =>
    intro fuel d b r hb hr hf hd
    simp only [List.length_append, List.length_cons, List.length_nil] at hf
    cases fuel with
    | zero => omega
    | succ n =>
      cases d with
      | zero => simp [depth] at hd
      | succ d =>
        rw [depth] at hd
        have key := scanElements_complete ps hne ho ih n d r (by omega) (by omega)
        have e : g!"[" ++ join g!"," (ps.map (·.all)) ++ g!"]" ++ r = '[' :: (join g!"," (ps.map (·.all)) ++ g!"]" ++ r) := by
          simp
        rw [scanValue_array ((skip_spelt (.arr hne ho h) hb _).trans e), key]
        · rfl
        · intro u hu
          cases ps with
          | nil => exact absurd rfl hne
          | cons p ps =>
            exfalso
            obtain ⟨w, hw⟩ : ∃ w, join g!"," ((p :: ps).map (·.all)) ++ g!"]" ++ r = p.before ++ p.text ++ w := by
              cases ps with
              | nil => exact ⟨p.after ++ ']' :: r, by simp [join, ElementText.all]⟩
              | cons q ps =>
                rw [List.map_cons, joinComma_cons _ (by simp)]
                exact ⟨p.after ++ (g!"," ++ join g!"," ((q :: ps).map (·.all)) ++ g!"]" ++ r), by simp [ElementText.all]⟩
            have hp := h p (by simp)
            rw [hw, skip_spelt hp (ho p (by simp)).1] at hu
            obtain ⟨c, x, hx, -, hc⟩ := spelt_head hp
            rw [hx] at hu
            cases hu
            exact hc rfl
  | @obj ms hne ho h ih =>
    intro fuel d b r hb hr hf hd
    simp only [List.length_append, List.length_cons, List.length_nil] at hf
    cases fuel with
    | zero => omega
    | succ n =>
      cases d with
      | zero => simp [depth] at hd
      | succ d =>
        rw [depth] at hd
        have key := scanMembers_complete ms hne ho ih n d r (by omega) (by omega)
        have e : g!"{" ++ join g!"," (ms.map (·.all)) ++ g!"}" ++ r = '{' :: (join g!"," (ms.map (·.all)) ++ g!"}" ++ r) := by
          simp
        rw [scanValue_object ((skip_spelt (.obj hne ho h) hb _).trans e), key]
        · rfl
        · intro u hu
          cases ms with
          | nil => exact absurd rfl hne
          | cons p ps =>
            exfalso
            obtain ⟨w, hw⟩ : ∃ w, join g!"," ((p :: ps).map (·.all)) ++ g!"}" ++ r = p.beforeKey ++ '"' :: w := by
              cases ps with
              | nil => exact ⟨p.raw ++ '"' :: (p.afterKey ++ ':' :: (p.part.all ++ '}' :: r)), by simp [join, MemberText.all]⟩
              | cons q ps =>
                rw [List.map_cons, joinComma_cons _ (by simp)]
                exact ⟨p.raw ++ '"' :: (p.afterKey ++ ':' :: (p.part.all ++ ',' ::
                  (join g!"," ((q :: ps).map (·.all)) ++ g!"}" ++ r))), by simp [MemberText.all]⟩
            rw [hw, skip_blank (ho p (by simp)).1, skip_self (by decide)] at hu
            cases hu

/-- **A text is scanned as a value exactly if it is JSON for it.** -/
theorem scanJson_iff {s : Str} {j : Json} : scanJson s = some j ↔ JsonTextOf s j := by
  constructor
  · intro h
    unfold scanJson at h
    split at h
    · cases h
    · next j' t hv =>
      split at h
      · next ht =>
        cases h
        obtain ⟨b, u, h1, h2, h3, h4⟩ := (scan_sound _).1 _ _ _ _ hv
        exact ⟨b, u, t, h1, h2, skip_nil_iff.1 ht, h3, h4⟩
      · cases h
  · rintro ⟨a, t, b, rfl, ha, hb, h, hd⟩
    unfold scanJson
    rw [spelt_scanned h _ maxNestingDepth a b ha (ends_blanks hb) (by simp only [List.length_append]; omega) hd]
    simp [skip_nil_iff.2 hb]

end Verif
