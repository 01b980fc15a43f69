import Verif.Spec.Programs
import Verif.Lemmas.JsonGrammar
import Verif.Props.C63_Streams

/-!
# Lemmas about programs that convert files, and about JSON texts that are cut off
-/

namespace Verif
open Spec

/-! ## JSON texts that are cut off -/

theorem object_scanned {t : Str} {es : List (Str × Json)} (h : Spelt t (.obj es)) {fuel d : Nat} {b : Str} (r : Str) (hb : Blank b)
    (hf : 2 * t.length + 1 ≤ fuel) (hd : depth (.obj es) ≤ d) : scanValue fuel d (b ++ t ++ r) = some (.obj es, r) := by
  cases fuel with
  | zero => omega
  | succ n =>
    cases d with
    | zero => simp [depth] at hd
    | succ d =>
      have hs := skip_spelt h hb r
      cases h with
      | @noMembers x hx =>
        have e : g!"{" ++ x ++ g!"}" ++ r = '{' :: (x ++ '}' :: r) := by simp
        exact scanValue_end_object (hs.trans e) ((skip_blank hx).trans (skip_self (by decide)))
      | @obj ms hne ho h =>
        simp only [List.length_append, List.length_cons, List.length_nil] at hf
        rw [depth] at hd
        have key := scanMembers_complete ms hne ho (fun m hm => spelt_scanned (h m hm)) n d r (by omega) (by omega)
        have e : g!"{" ++ join g!"," (ms.map (·.all)) ++ g!"}" ++ r = '{' :: (join g!"," (ms.map (·.all)) ++ g!"}" ++ r) := by
          simp
        rw [scanValue_object (hs.trans e), key]
        · rfl
        · intro u hu
          cases ms with
          | nil => exact absurd rfl hne
          | cons p ps =>
            exfalso
            obtain ⟨w, hw⟩ : ∃ w, join g!"," ((p :: ps).map (·.all)) ++ g!"}" ++ r = p.beforeKey ++ '"' :: w := by
              cases ps with
              | nil => exact ⟨p.raw ++ '"' :: (p.afterKey ++ ':' :: (p.part.all ++ '}' :: r)), by simp [join, MemberText.all]⟩
              | cons q ps =>
                rw [List.map_cons, joinComma_cons _ (by simp)]
                exact ⟨p.raw ++ '"' :: (p.afterKey ++ ':' :: (p.part.all ++ ',' ::
                  (join g!"," ((q :: ps).map (·.all)) ++ g!"}" ++ r))), by simp [MemberText.all]⟩
            rw [hw, skip_blank (ho p (by simp)).1, skip_self (by decide)] at hu
            cases hu

theorem spelt_brace {t u : Str} {j : Json} (h : Spelt t j) (ht : t = '{' :: u) : ∃ es, j = .obj es := by
  cases h with
  | null => cases ht
  | true => cases ht
  | false => cases ht
  | num h =>
    obtain ⟨c, u', rfl, hc⟩ := number_head h
    cases ht
    exact absurd hc (by decide)
  | str => cases ht
  | noElements => cases ht
  | arr => cases ht
  | noMembers => exact ⟨_, rfl⟩
  | obj => exact ⟨_, rfl⟩

theorem object_brace {t : Str} {es : List (Str × Json)} (h : Spelt t (.obj es)) : ∃ u, t = '{' :: u := by
  cases h with
  | noMembers => exact ⟨_, rfl⟩
  | obj => exact ⟨_, rfl⟩

/-- The text of an object that is cut off is no JSON, unless only blanks are cut off. -/
theorem cut_object {q r : Str} {es : List (Str × Json)} (h : JsonTextOf (q ++ r) (.obj es)) {j : Json} (hq : JsonTextOf q j) :
    Blank r ∧ j = .obj es := by
  obtain ⟨a, t, b, rfl, ha, hb, ht, hd⟩ := hq
  have h' := scanJson_iff.2 h
  obtain ⟨a', t', b', he, ha', hb', ht', -⟩ := h
  have e1 : skipJsonSpace (a ++ t ++ (b ++ r)) = t ++ (b ++ r) := skip_spelt ht ha _
  have e2 : skipJsonSpace (a' ++ t' ++ b') = t' ++ b' := skip_spelt ht' ha' _
  rw [List.append_assoc _ b r] at he h'
  rw [he, e2] at e1
  obtain ⟨u, rfl⟩ := object_brace ht'
  obtain ⟨c, x, rfl, -, -⟩ := spelt_head ht
  obtain ⟨rfl, -⟩ := List.cons.inj e1
  obtain ⟨es', rfl⟩ := spelt_brace ht rfl
  unfold scanJson at h'
  rw [object_scanned (d := maxNestingDepth) ht _ ha (by simp only [List.length_append]; omega) hd] at h'
  simp only at h'
  split at h'
  · next hs =>
    rw [skip_nil_iff] at hs
    exact ⟨fun c hc => hs c (by simp [hc]), Option.some.inj h'⟩
  · cases h'

/-! ## Writing piece by piece -/

theorem growing_mem {c q x : Str} (h : x ∈ growing c q) : ∃ r, r <+: q ∧ x = c ++ r := by
  simp only [growing, List.mem_map, List.mem_range] at h
  obtain ⟨n, -, rfl⟩ := h
  exact ⟨_, List.take_prefix _ _, rfl⟩

theorem growing_nil (c : Str) : growing c [] = [] := rfl

theorem writing_takes_all {m : Mishaps} (h : m.TakesAll) (heeds : Bool) (n : Nat) (c : Str) (ps : List Str) :
    (writing m.takes heeds n c ps).2 = (c ++ ps.flatten, true) := by
  induction ps generalizing n c with
  | nil => simp [writing]
  | cons p ps ih =>
    simp [writing, h n, arriving, ih]

theorem growing_complete {c q r : Str} (h : r <+: q) (hr : r ≠ []) : c ++ r ∈ growing c q := by
  obtain ⟨t, rfl⟩ := h
  have hl : 0 < r.length := List.length_pos_iff.2 hr
  simp only [growing, List.mem_map, List.mem_range]
  refine ⟨r.length - 1, by simp only [List.length_append]; omega, ?_⟩
  rw [show r.length - 1 + 1 = r.length by omega, List.take_left']
  rfl

theorem writing_complete {m : Mishaps} (h : m.TakesAll) (heeds : Bool) (ps : List Str) : ∀ (n : Nat) (c r : Str),
    r <+: ps.flatten → r ≠ [] → c ++ r ∈ (writing m.takes heeds n c ps).1 := by
  induction ps with
  | nil => intro n c r hr hne; exact absurd (List.prefix_nil.1 hr) hne
  | cons p ps ih =>
    intro n c r hr hne
    simp only [writing, h n, arriving, Bool.not_true, Bool.and_false, Bool.false_eq_true, if_false, List.mem_append]
    rw [List.flatten_cons] at hr
    by_cases hl : r.length ≤ p.length
    · exact .inl (growing_complete (List.prefix_of_prefix_length_le hr (List.prefix_append _ _) hl) hne)
    · obtain ⟨s, rfl⟩ := List.prefix_of_prefix_length_le (List.prefix_append p ps.flatten) hr (by omega)
      rw [List.prefix_append_right_inj] at hr
      rw [← List.append_assoc]
      refine .inr (ih _ _ _ hr ?_)
      rintro rfl
      simp at hl

theorem writing_unheeded (takes : Nat → Option Nat) (n : Nat) (c : Str) (ps : List Str) :
    (writing takes false n c ps).2.2 = true := by
  induction ps generalizing n c with
  | nil => rfl
  | cons p ps ih => simp [writing, ih]

theorem writing_dead {takes : Nat → Option Nat} {heeds : Bool} {n : Nat} {c : Str} {ps : List Str} (h : ∀ k, n ≤ k → takes k = some 0) :
    (writing takes heeds n c ps).1 = [] ∧ (writing takes heeds n c ps).2.1 = c := by
  induction ps generalizing n with
  | nil => exact ⟨rfl, rfl⟩
  | cons p ps ih =>
    have ih := ih (n := n + 1) fun k hk => h k (by omega)
    cases heeds <;> simp_all [writing, arriving, growing]

/-- All that is ever in the file is a beginning of the text, if nothing arrives after a failure or the failure is
heeded. -/
theorem writing_prefix {m : Mishaps} {heeds : Bool} (hm : heeds = true ∨ m.Final) (n : Nat) (c : Str) (ps : List Str) :
    ∀ x ∈ (writing m.takes heeds n c ps).2.1 :: (writing m.takes heeds n c ps).1, ∃ r, r <+: ps.flatten ∧ x = c ++ r := by
  induction ps generalizing n c with
  | nil => simp [writing]
  | cons p ps ih =>
    have later : ∀ x, (∃ r, r <+: ps.flatten ∧ x = c ++ p ++ r) → ∃ r, r <+: (p :: ps).flatten ∧ x = c ++ r := by
      rintro x ⟨r, ⟨y, hy⟩, rfl⟩
      exact ⟨p ++ r, ⟨y, by simp [← hy]⟩, by simp⟩
    have now : ∀ q, q <+: p → ∀ x ∈ growing c q, ∃ r, r <+: (p :: ps).flatten ∧ x = c ++ r := by
      intro q hq x hx
      obtain ⟨r, hr, rfl⟩ := growing_mem hx
      exact ⟨r, (hr.trans hq).trans ⟨ps.flatten, by simp⟩, rfl⟩
    cases ht : m.takes n with
    | none =>
      have e : writing m.takes heeds n c (p :: ps) =
          (growing c p ++ (writing m.takes heeds (n + 1) (c ++ p) ps).1, (writing m.takes heeds (n + 1) (c ++ p) ps).2) := by
        simp [writing, ht, arriving]
      have ih := ih (n + 1) (c ++ p)
      rw [e]
      intro x hx
      simp only [List.mem_cons, List.mem_append] at hx
      rcases hx with hx | hx | hx
      · exact later x (ih x (by simp [hx]))
      · exact now p List.prefix_rfl x hx
      · exact later x (ih x (by simp [hx]))
    | some k =>
      have hk : p.take k <+: p := List.take_prefix _ _
      have stop : ∀ x ∈ (c ++ p.take k) :: growing c (p.take k), ∃ r, r <+: (p :: ps).flatten ∧ x = c ++ r := by
        intro x hx
        rcases List.mem_cons.1 hx with rfl | hx
        · exact ⟨_, hk.trans ⟨ps.flatten, by simp⟩, rfl⟩
        · exact now _ hk x hx
      cases hh : heeds with
      | true =>
        have e : writing m.takes true n c (p :: ps) = (growing c (p.take k), c ++ p.take k, false) := by
          simp [writing, ht, arriving]
        rw [e]
        exact stop
      | false =>
        subst hh
        have hf : m.Final := by rcases hm with h | h; cases h; exact h
        have hd := writing_dead (heeds := false) (c := c ++ p.take k) (ps := ps) (n := n + 1) (takes := m.takes)
          fun i hi => hf n i (by rw [ht]; simp) (by omega)
        have e : writing m.takes false n c (p :: ps) = (growing c (p.take k) ++ (writing m.takes false (n + 1) (c ++ p.take k) ps).1,
            (writing m.takes false (n + 1) (c ++ p.take k) ps).2) := by
          simp [writing, ht, arriving]
        rw [e]
        simp only [hd, List.append_nil]
        exact stop

/-! ## The programs -/

/-- What a program reads from. -/
def Spec.Conversion.input (c : Conversion) (w : Surroundings) : Source → Res Doc :=
  match c with
  | .loadSave | .tvToJson | .tvToYaml => readTagValueFrom w.copy true .v23
  | .jsonToTv => readJsonFrom w.so w.copy w.float w.odd true .v23
  | .yamlToTv => readYamlFrom w.y w.so w.copy true .v23

/-- What a program writes. -/
def Spec.Conversion.output (c : Conversion) (w : Surroundings) : Doc → Output :=
  match c with
  | .loadSave | .jsonToTv | .yamlToTv => tagValueOutput w.so
  | .tvToJson => fun d => textOutput (writeJsonText w.so .v23 true [] d)
  | .tvToYaml => fun d => textOutput (writeYamlText w.y w.so .v23 d)

theorem run_eq (c : Conversion) (w : Surroundings) : c.run w = conversionProgram (c.input w) (c.output w) := by
  cases c <;> rfl

theorem source_ok (c : Conversion) (w : Surroundings) (src : Source) (h : src.fails = false) :
    c.input w src = c.reads w src.pieces.flatten := by
  obtain ⟨h1, h2, h3⟩ := C63_pieces src h true .v23
  cases c
  · exact h1 _
  · exact h2 _ _ _ _
  · exact h1 _
  · exact h3 _ _ _
  · exact h1 _

theorem source_fails (c : Conversion) (w : Surroundings) (src : Source) (h : src.fails = true) : c.input w src = .err := by
  obtain ⟨h1, h2, h3⟩ := C63_reader_fails src h true .v23
  cases c
  · exact h1 _
  · exact h2 _ _ _ _
  · exact h1 _
  · exact h3 _ _ _
  · exact h1 _

theorem tagValueOutput_text (so : Sorter) (d : Doc) :
    match writeTagValue .v23 so d with
    | .ok t => (tagValueOutput so d).calls.flatten = t ∧ (tagValueOutput so d).ending = .ok ()
    | .err => tagValueOutput so d = ⟨[], false, .err⟩
    | .panic => tagValueOutput so d = ⟨[], false, .panic⟩ := by
  unfold writeTagValue tagValueOutput
  cases h : renderDocument .v23 so d with
  | ok r => exact ⟨writeCalls_flatten _, rfl⟩
  | err => rfl
  | panic => rfl

theorem output_heeds (c : Conversion) (w : Surroundings) (d : Doc) : (c.output w d).heeds = true ↔ c.Checked := by
  have h1 : (tagValueOutput w.so d).heeds = false := by unfold tagValueOutput; split <;> rfl
  have h2 : ∀ t, (textOutput t).heeds = true := by intro t; cases t <;> rfl
  have no : ¬ (FileKind.tagValue ≠ FileKind.tagValue) := fun h => h rfl
  cases c
  · exact iff_of_false (fun h => by rw [show (tagValueOutput w.so d).heeds = true from h] at h1; cases h1) no
  · exact iff_of_false (fun h => by rw [show (tagValueOutput w.so d).heeds = true from h] at h1; cases h1) no
  · exact iff_of_true (h2 _) (by intro h; cases h)
  · exact iff_of_false (fun h => by rw [show (tagValueOutput w.so d).heeds = true from h] at h1; cases h1) no
  · exact iff_of_true (h2 _) (by intro h; cases h)

theorem output_text (c : Conversion) (w : Surroundings) (d : Doc) :
    match c.writes w d with
    | .ok t => (c.output w d).calls.flatten = t ∧ (c.output w d).ending = .ok ()
    | .err => (c.output w d).calls = [] ∧ (c.output w d).ending = .err
    | .panic => (c.output w d).calls = [] ∧ (c.output w d).ending = .panic := by
  have h1 : match writeTagValue .v23 w.so d with
    | .ok t => (tagValueOutput w.so d).calls.flatten = t ∧ (tagValueOutput w.so d).ending = .ok ()
    | .err => (tagValueOutput w.so d).calls = [] ∧ (tagValueOutput w.so d).ending = .err
    | .panic => (tagValueOutput w.so d).calls = [] ∧ (tagValueOutput w.so d).ending = .panic := by
    have h := tagValueOutput_text w.so d
    split <;> simp_all
  have h2 : ∀ t : Res Str, match t with
    | .ok s => (textOutput t).calls.flatten = s ∧ (textOutput t).ending = .ok ()
    | .err => (textOutput t).calls = [] ∧ (textOutput t).ending = .err
    | .panic => (textOutput t).calls = [] ∧ (textOutput t).ending = .panic := by
    intro t
    cases t with
    | ok s => exact ⟨by simp [textOutput], rfl⟩
    | err => exact ⟨rfl, rfl⟩
    | panic => exact ⟨rfl, rfl⟩
  cases c
  · exact h1
  · exact h1
  · exact h2 _
  · exact h1
  · exact h2 _

end Verif
