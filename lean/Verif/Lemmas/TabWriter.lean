import Verif.Model.TabWriter
import Verif.Spec.Report
import Verif.Lemmas.Composite

/-!
# Lemmas on the tab writer
-/

namespace Verif
open Spec

theorem splitCells_oneCell (s : Str) (h : OneCell s) : splitCells s = [s] := by
  induction s with
  | nil => rfl
  | cons c s ih =>
    have hc := h c (by simp)
    rw [splitCells, if_neg (by simp [hc.1, hc.2.1]), ih fun x hx => h x (by simp [hx])]

theorem splitCells_tab (a s : Str) (h : OneCell a) : splitCells (a ++ '\t' :: s) = a :: splitCells s := by
  induction a with
  | nil => simp [splitCells]
  | cons c a ih =>
    have hc := h c (by simp)
    rw [List.cons_append, splitCells, if_neg (by simp [hc.1, hc.2.1]), ih fun x hx => h x (by simp [hx])]

/-- No character of the text ends a line. -/
def NoLineEnd (s : Str) : Prop := ∀ c ∈ s, c ≠ '\n' ∧ c ≠ '\x0c'

theorem tabLines_line (a s : Str) (h : NoLineEnd a) :
    tabLines (a ++ '\n' :: s) = ((a, false) :: (tabLines s).1, (tabLines s).2) := by
  induction a with
  | nil => simp [tabLines]
  | cons c a ih =>
    have hc := h c (by simp)
    rw [List.cons_append, tabLines]
    simp only [ih fun x hx => h x (by simp [hx]), hc.1, hc.2, or_self, if_false]

theorem oneCell_natDigits (n : Nat) : OneCell (natDigits n) := fun c hc => by
  have := natDigits_digits hc
  refine ⟨?_, ?_, ?_, ?_⟩ <;> rintro rfl <;> revert this <;> decide

/-- The cells of a line of the report. -/
def countCells (r : Nat × Str) : List Str := [natDigits r.1, g!"  " ++ r.2]

theorem tabLines_counts (rows : List (Nat × Str)) (h : ∀ r ∈ rows, OneCell r.2) (s : Str) :
    tabLines (rows.flatMap (fun r => countLine r.1 r.2) ++ s) =
      (rows.map (fun r => (natDigits r.1 ++ g!"\t  " ++ r.2, false)) ++ (tabLines s).1, (tabLines s).2) := by
  induction rows with
  | nil => simp
  | cons r rows ih =>
    have e : (r :: rows).flatMap (fun r => countLine r.1 r.2) ++ s =
        (natDigits r.1 ++ g!"\t  " ++ r.2) ++ '\n' :: (rows.flatMap (fun r => countLine r.1 r.2) ++ s) := by
      simp [countLine, List.append_assoc]
    rw [e, tabLines_line, ih fun x hx => h x (by simp [hx])]
    · simp
    · intro c hc
      simp only [List.mem_append] at hc
      rcases hc with (hc | hc) | hc
      · exact ⟨(oneCell_natDigits r.1 c hc).2.2.1, (oneCell_natDigits r.1 c hc).2.2.2⟩
      · have : c = '\t' ∨ c = ' ' := by simpa using hc
        rcases this with rfl | rfl <;> decide
      · exact ⟨(h r (by simp) c hc).2.2.1, (h r (by simp) c hc).2.2.2⟩

theorem splitCells_count (n : Nat) (l : Str) (h : OneCell l) :
    splitCells (natDigits n ++ g!"\t  " ++ l) = [natDigits n, g!"  " ++ l] := by
  have e : natDigits n ++ g!"\t  " ++ l = natDigits n ++ '\t' :: (g!"  " ++ l) := by simp [List.append_assoc]
  rw [e, splitCells_tab _ _ (oneCell_natDigits n), splitCells_oneCell]
  intro c hc
  rcases List.mem_append.1 hc with hc | hc
  · have : c = ' ' := by simpa using hc
    subst this; decide
  · exact h c hc

theorem tabGroups_counts (rows : List (Nat × Str)) (h : ∀ r ∈ rows, OneCell r.2) (cur : List (List Str))
    (ls : List (Str × Bool)) (rest : Str) :
    tabGroups cur (rows.map (fun r => (natDigits r.1 ++ g!"\t  " ++ r.2, false)) ++ ls) rest =
      tabGroups (cur ++ rows.map countCells) ls rest := by
  induction rows generalizing cur with
  | nil => simp
  | cons r rows ih =>
    rw [List.map_cons, List.cons_append, tabGroups]
    simp only [splitCells_count r.1 r.2 (h r (by simp))]
    rw [if_neg (by simp), ih fun x hx => h x (by simp [hx])]
    simp [countCells]

theorem tabRuns_all (b : Bool) (column : Nat) (ls : List (List Str)) (hne : ls ≠ [])
    (h : ∀ l ∈ ls, decide (column + 1 < l.length) = b) : tabRuns column ls = [(b, ls)] := by
  induction ls with
  | nil => exact absurd rfl hne
  | cons l ls ih =>
    cases ls with
    | nil => simp [tabRuns, h l (by simp)]
    | cons m ls =>
      rw [tabRuns, ih (by simp) fun x hx => h x (by simp [hx])]
      simp [h l (by simp)]

theorem tabRuns_append (column : Nat) (ls ms : List (List Str)) (hne : ls ≠ []) (hne' : ms ≠ [])
    (h : ∀ l ∈ ls, column + 1 < l.length) (h' : ∀ l ∈ ms, ¬ column + 1 < l.length) :
    tabRuns column (ls ++ ms) = [(true, ls), (false, ms)] := by
  induction ls with
  | nil => exact absurd rfl hne
  | cons l ls ih =>
    cases ls with
    | nil =>
      rw [List.singleton_append, tabRuns, tabRuns_all false column ms hne' fun x hx => by simpa using h' x hx]
      simp [h l (by simp)]
    | cons m ls =>
      rw [List.cons_append, tabRuns, ih (by simp) fun x hx => h x (by simp [hx])]
      simp [h l (by simp)]

theorem tabWidth_from (rows : List (Nat × Str)) (w : Nat) :
    (rows.map countCells).foldl (fun w l => max w ((l.getD 0 []).length + 2)) w =
      rows.foldl (fun w r => max w ((natDigits r.1).length + 2)) w := by
  rw [List.foldl_map]
  rfl

theorem foldl_max_spec {α : Type} (f : α → Nat) (l : List α) (w : Nat) :
    w ≤ l.foldl (fun w a => max w (f a)) w ∧ (∀ a ∈ l, f a ≤ l.foldl (fun w a => max w (f a)) w) ∧
    (l.foldl (fun w a => max w (f a)) w = w ∨ ∃ a ∈ l, f a = l.foldl (fun w a => max w (f a)) w) := by
  induction l generalizing w with
  | nil => simp
  | cons a l ih =>
    obtain ⟨h1, h2, h3⟩ := ih (max w (f a))
    refine ⟨Nat.le_trans (Nat.le_max_left _ _) h1, fun x hx => ?_, ?_⟩
    · rcases List.mem_cons.1 hx with rfl | hx
      · exact Nat.le_trans (Nat.le_max_right _ _) h1
      · exact h2 x hx
    · rcases h3 with h3 | ⟨x, hx, e⟩
      · rcases Nat.le_total w (f a) with hl | hl
        · exact .inr ⟨a, by simp, by simp only [List.foldl_cons]; rw [h3]; exact (Nat.max_eq_right hl).symm⟩
        · exact .inl (by simp only [List.foldl_cons]; rw [h3]; exact Nat.max_eq_left hl)
      · exact .inr ⟨x, by simp [hx], e⟩

theorem tabWidth_counts (rows : List (Nat × Str)) (hne : rows ≠ []) :
    ColumnWidth (rows.map (·.1)) (tabWidth 0 (rows.map countCells)) := by
  rw [tabWidth, tabWidth_from]
  obtain ⟨-, h2, h3⟩ := foldl_max_spec (fun r : Nat × Str => (natDigits r.1).length + 2) rows 0
  refine ⟨fun n hn => ?_, ?_⟩
  · obtain ⟨r, hr, rfl⟩ := List.mem_map.1 hn
    exact h2 r hr
  · rcases h3 with h3 | ⟨r, hr, e⟩
    · obtain ⟨r, l, rfl⟩ := List.exists_cons_of_ne_nil hne
      have := h2 r (by simp)
      omega
    · exact ⟨r.1, List.mem_map.2 ⟨r, hr, rfl⟩, e⟩

theorem tabFormat_two (n w : Nat) (rows : List (Nat × Str)) :
    tabFormat n [w] (rows.map countCells) = (rows.map countCells).map (tabLine [w]) := by
  cases n with
  | zero => rfl
  | succ n =>
    rw [tabFormat]
    by_cases hne : rows = []
    · subst hne; rfl
    · rw [tabRuns_all false _ _ (by simpa using hne)]
      · simp
      · intro l hl
        obtain ⟨r, -, rfl⟩ := List.mem_map.1 hl
        simp [countCells]

theorem tabFormat_counts (n : Nat) (rows : List (Nat × Str)) (ms : List (List Str)) (hne : rows ≠ []) (hms : ms ≠ [])
    (h : ∀ m ∈ ms, m = [] ∨ m = [[]]) :
    tabFormat (n + 1) [] (rows.map countCells ++ ms) =
      (rows.map countCells).map (tabLine [tabWidth 0 (rows.map countCells)]) ++ ms.map (fun _ => []) := by
  rw [tabFormat, tabRuns_append _ _ _ (by simpa using hne) hms]
  · simp only [List.flatMap_cons, List.flatMap_nil, if_true, List.append_nil, List.nil_append, List.length_nil]
    rw [tabFormat_two]
    simp only [Bool.false_eq_true, if_false, List.append_cancel_left_eq]
    refine List.map_congr_left fun m hm => ?_
    rcases h m hm with rfl | rfl <;> rfl
  · intro l hl
    obtain ⟨r, -, rfl⟩ := List.mem_map.1 hl
    simp [countCells]
  · intro m hm
    rcases h m hm with rfl | rfl <;> simp

theorem join_lines (ls : List Str) (last : Str) : join g!"\n" (ls ++ [last]) = ls.flatMap (fun l => l ++ g!"\n") ++ last := by
  induction ls with
  | nil => simp [join]
  | cons l ls ih =>
    cases hm : ls ++ [last] with
    | nil => simp at hm
    | cons m ms =>
      rw [List.cons_append, hm, join, ← hm, ih]
      simp [List.append_assoc]

theorem foldl_max_pos (l : List Nat) (a : Nat) (h : a ∈ l) (w : Nat) : a ≤ l.foldl max w :=
  (foldl_max_spec id l w).2.1 a h

theorem tabLine_count (w : Nat) (r : Nat × Str) : tabLine [w] (countCells r) ++ g!"\n" = row w r.1 r.2 := by
  simp [countCells, tabLine, row, List.append_assoc]

theorem tabGroup_counts (rows : List (Nat × Str)) (ms : List (List Str)) (hne : rows ≠ [])
    (h : ∀ m ∈ ms, m = [] ∨ m = [[]]) : ∃ w, ColumnWidth (rows.map (·.1)) w ∧
    tabGroup (rows.map countCells ++ (ms ++ [[]])) = rows.flatMap (fun r => row w r.1 r.2) ++ ms.flatMap (fun _ => g!"\n") := by
  refine ⟨_, tabWidth_counts rows hne, ?_⟩
  obtain ⟨k, hk⟩ : ∃ k, ((rows.map countCells ++ (ms ++ [[]])).map (fun l : List Str => l.length)).foldl max 0 = k + 1 := by
    obtain ⟨r, l, rfl⟩ := List.exists_cons_of_ne_nil hne
    have := foldl_max_pos (((r :: l).map countCells ++ (ms ++ [[]])).map (fun l : List Str => l.length)) 2 (by simp [countCells]) 0
    exact ⟨_, (Nat.sub_add_cancel (by omega : 1 ≤ _)).symm⟩
  rw [tabGroup, hk, tabFormat_counts k rows _ hne (by simp)]
  · rw [List.map_append, ← List.append_assoc, List.map_singleton, join_lines]
    simp only [List.flatMap_append, List.flatMap_map, tabLine_count, List.append_nil, List.nil_append]
  · intro m hm
    rcases List.mem_append.1 hm with hm | hm
    · exact h m hm
    · exact .inl (by simpa using hm)

/-- The layout of two tables with an empty line between them. -/
theorem tabText_tables (rows rows' : List (Nat × Str)) (hne : rows ≠ []) (hne' : rows' ≠ [])
    (h : ∀ r ∈ rows, OneCell r.2) (h' : ∀ r ∈ rows', OneCell r.2) : ∃ w w',
    ColumnWidth (rows.map (·.1)) w ∧ ColumnWidth (rows'.map (·.1)) w' ∧
    tabText (rows.flatMap (fun r => countLine r.1 r.2) ++ g!"\n" ++ rows'.flatMap (fun r => countLine r.1 r.2)) =
      rows.flatMap (fun r => row w r.1 r.2) ++ g!"\n" ++ rows'.flatMap (fun r => row w' r.1 r.2) := by
  obtain ⟨w, h1, h2⟩ := tabGroup_counts rows [[[]]] hne (by simp)
  obtain ⟨w', h3, h4⟩ := tabGroup_counts rows' [] hne' (by simp)
  refine ⟨w, w', h1, h3, ?_⟩
  have e1 : tabLines (g!"\n" ++ rows'.flatMap (fun r => countLine r.1 r.2)) =
      (([], false) :: rows'.map (fun r => (natDigits r.1 ++ g!"\t  " ++ r.2, false)), []) := by
    have := tabLines_counts rows' h' []
    simp only [List.append_nil, tabLines] at this
    rw [show (g!"\n" ++ rows'.flatMap (fun r => countLine r.1 r.2)) =
      '\n' :: rows'.flatMap (fun r => countLine r.1 r.2) from rfl, tabLines]
    simp [this]
  have e2 := tabGroups_counts rows' h' [] [] []
  simp only [List.append_nil, List.nil_append] at e2
  rw [tabText, List.append_assoc, tabLines_counts rows h, e1]
  simp only [tabGroups_counts rows h]
  rw [tabGroups]
  simp only [splitCells, List.length_singleton, or_true, if_true, List.nil_append, e2]
  rw [tabGroups, lastCells]
  simp only [splitCells, List.getLast?_singleton, if_true, List.dropLast_singleton, List.flatMap_cons, List.flatMap_nil,
    List.append_nil]
  rw [show rows.map countCells ++ [[[]], []] = rows.map countCells ++ ([[[]]] ++ [[]]) from rfl, h2]
  rw [show rows'.map countCells ++ [[]] = rows'.map countCells ++ ([] ++ [[]]) from rfl, h4]
  simp

/-! ## Nothing but blanks is added or removed -/

theorem inked_append (a b : Str) : inked (a ++ b) = inked a ++ inked b := List.filter_append ..

theorem inked_cons (c : Char) (s : Str) : inked (c :: s) = inked [c] ++ inked s := inked_append [c] s

theorem inked_nil : inked [] = [] := rfl

theorem inked_spaces (n : Nat) : inked (List.replicate n ' ') = [] := by
  simp [inked]

theorem inked_splitCells (s : Str) : inked (splitCells s).flatten = inked s := by
  induction s with
  | nil => rfl
  | cons c s ih =>
    rw [splitCells, inked_cons c s, ← ih]
    split
    · next h => rcases h with rfl | rfl <;> simp [inked]
    · cases splitCells s with
      | nil => simp [inked]
      | cons x xs => rw [← inked_append]; simp

theorem inked_lastCells (s : Str) : inked (lastCells s).flatten = inked s := by
  rw [← inked_splitCells s, lastCells]
  split
  · next h =>
    obtain ⟨ys, e⟩ := List.getLast?_eq_some_iff.1 h
    rw [e]
    simp
  · rfl

theorem inked_tabLines (s : Str) : inked (((tabLines s).1.map (·.1)).flatten ++ (tabLines s).2) = inked s := by
  induction s with
  | nil => rfl
  | cons c s ih =>
    rw [inked_cons c s, ← ih, tabLines]
    split
    · next h => rcases h with rfl | rfl <;> simp [inked]
    · cases (tabLines s).1 with
      | nil => simp only [List.map_nil, List.flatten_nil, List.nil_append]; rw [← inked_append]; rfl
      | cons x xs => rw [← inked_append]; simp

theorem inked_tabLine (ws : List Nat) (cs : List Str) : inked (tabLine ws cs) = inked cs.flatten := by
  induction ws generalizing cs with
  | nil => rfl
  | cons w ws ih =>
    cases cs with
    | nil => rfl
    | cons c cs => simp [tabLine, inked_append, inked_spaces, ih]

theorem tabRuns_flatten (column : Nat) (ls : List (List Str)) : (tabRuns column ls).flatMap (·.2) = ls := by
  induction ls with
  | nil => rfl
  | cons l ls ih =>
    conv => rhs; rw [← ih]
    rw [tabRuns]
    cases tabRuns column ls with
    | nil => simp
    | cons r rs =>
      obtain ⟨b, run⟩ := r
      simp only
      split <;> simp

theorem inked_lines (ws : List Nat) (ls : List (List Str)) : inked (ls.map (tabLine ws)).flatten = inked ls.flatten.flatten := by
  induction ls with
  | nil => rfl
  | cons l ls ih => simp [inked_append, inked_tabLine, ih]

theorem inked_tabFormat (n : Nat) (ws : List Nat) (ls : List (List Str)) :
    inked (tabFormat n ws ls).flatten = inked ls.flatten.flatten := by
  induction n generalizing ws ls with
  | zero => exact inked_lines ws ls
  | succ n ih =>
    rw [tabFormat]
    conv => rhs; rw [← tabRuns_flatten ws.length ls]
    induction tabRuns ws.length ls with
    | nil => rfl
    | cons r rs ih' =>
      simp only [List.flatMap_cons, List.flatten_append, inked_append, ih']
      congr 1
      split
      · exact ih _ _
      · exact inked_lines _ _

theorem inked_join (ls : List Str) : inked (join g!"\n" ls) = inked ls.flatten := by
  induction ls with
  | nil => rfl
  | cons l ls ih =>
    cases ls with
    | nil => simp [join]
    | cons m ls =>
      rw [join, inked_append, inked_append, ih, List.flatten_cons (l := l), inked_append l]
      simp [inked]

theorem inked_tabGroups (cur : List (List Str)) (ls : List (Str × Bool)) (rest : Str) :
    inked ((tabGroups cur ls rest).flatMap tabGroup) =
      inked cur.flatten.flatten ++ inked ((ls.map (·.1)).flatten ++ rest) := by
  induction ls generalizing cur with
  | nil =>
    simp only [tabGroups, List.flatMap_cons, List.flatMap_nil, List.append_nil, tabGroup, inked_join, inked_tabFormat]
    simp [inked_append, inked_lastCells]
  | cons l ls ih =>
    obtain ⟨l, f⟩ := l
    rw [tabGroups]
    split
    · rw [List.flatMap_cons, inked_append, ih, tabGroup, inked_join, inked_tabFormat]
      simp [inked_append, inked_splitCells, inked_nil]
    · rw [ih]
      simp [inked_append, inked_splitCells]

/-- The layout changes nothing but blanks. -/
theorem inked_tabText (s : Str) : inked (tabText s) = inked s := by
  rw [tabText]
  rw [inked_tabGroups, ← inked_tabLines s]
  simp [inked]

end Verif
