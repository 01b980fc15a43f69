import Verif.Spec.Streams
import Verif.Lemmas.TVRead

/-!
# Lemmas about piecewise reading and writing
-/

namespace Verif

theorem cutLines_spec (s : Str) :
    s = (cutLines s).1.flatMap (fun l => l ++ g!"\n") ++ (cutLines s).2 ∧ (∀ l ∈ (cutLines s).1, '\n' ∉ l) ∧ '\n' ∉ (cutLines s).2 := by
  induction s with
  | nil => simp [cutLines]
  | cons c s ih =>
    obtain ⟨h1, h2, h3⟩ := ih
    simp only [cutLines]
    generalize cutLines s = x at h1 h2 h3
    obtain ⟨ls, rest⟩ := x
    by_cases hc : c = '\n'
    · subst hc
      simp only [if_true]
      refine ⟨?_, ?_, h3⟩
      · simpa using h1
      · intro l hl
        rcases List.mem_cons.1 hl with rfl | hl
        · simp
        · exact h2 l hl
    · simp only [hc, if_false]
      cases ls with
      | nil =>
        refine ⟨by simpa using h1, by simp, ?_⟩
        intro h
        rcases List.mem_cons.1 h with h | h
        · exact hc h.symm
        · exact h3 h
      | cons l ls =>
        refine ⟨by simpa using h1, ?_, h3⟩
        intro l' hl
        rcases List.mem_cons.1 hl with rfl | hl
        · intro h
          rcases List.mem_cons.1 h with h | h
          · exact hc h.symm
          · exact h2 l (by simp) h
        · exact h2 l' (by simp [hl])

theorem rawLines_lines (ls : List Str) (h : ∀ l ∈ ls, '\n' ∉ l) (t : Str) :
    rawLines (ls.flatMap (fun l => l ++ g!"\n") ++ t) = ls ++ rawLines t := by
  induction ls with
  | nil => rfl
  | cons l ls ih =>
    have : (l :: ls).flatMap (fun l => l ++ g!"\n") ++ t = l ++ '\n' :: (ls.flatMap (fun l => l ++ g!"\n") ++ t) := by simp
    rw [this, rawLines_append, splitChar_of_not_mem (h l (by simp)), ih (fun l hl => h l (by simp [hl]))]
    rfl

theorem sourceLines_eq (ps : List Str) : ∀ pending : Str, '\n' ∉ pending →
    sourceLines pending ps = rawLines (pending ++ ps.flatten) := by
  induction ps with
  | nil =>
    intro pending h
    simp only [sourceLines, List.flatten_nil, List.append_nil, rawLines, splitChar_of_not_mem h]
    by_cases hp : pending = []
    · simp [hp]
    · simp [hp]
  | cons p ps ih =>
    intro pending h
    obtain ⟨h1, h2, h3⟩ := cutLines_spec (pending ++ p)
    simp only [sourceLines]
    rw [ih _ h3, ← rawLines_lines _ h2, ← List.append_assoc, ← h1]
    simp

theorem readSourceLines_eq (ls : List Str) : ∀ r : TVReader,
    readSourceLines r ls = if ls.all (fun l => byteLen l < maxScanToken) then readLines r (ls.map dropCR) else .err := by
  induction ls with
  | nil => intro r; rfl
  | cons l ls ih =>
    intro r
    by_cases hl : byteLen l < maxScanToken
    · simp only [readSourceLines, if_pos hl, List.all_cons, decide_eq_true hl, Bool.true_and, List.map_cons, readLines]
      cases h : readLine r (dropCR l) with
      | ok r' => exact ih r'
      | err => simp
      | panic => exact absurd h (readLine_ne_panic _ _)
    · simp [readSourceLines, hl]

theorem readTagValuesFrom_eq (src : Source) (h : src.fails = false) : readTagValuesFrom src = readTagValues src.pieces.flatten := by
  unfold readTagValuesFrom readTagValues scanLines readTagValueLines
  rw [sourceLines_eq _ _ (by simp), readSourceLines_eq, h, List.nil_append]
  dsimp only
  by_cases ha : (rawLines src.pieces.flatten).all (fun l => byteLen l < maxScanToken) = true
  · rw [if_pos ha, if_pos ha]
    rfl
  · rw [if_neg ha, if_neg ha]
    rfl

theorem readTagValuesFrom_fails (src : Source) (h : src.fails = true) : readTagValuesFrom src = .err := by
  unfold readTagValuesFrom
  rw [sourceLines_eq _ _ (by simp), readSourceLines_eq, h]
  by_cases ha : (rawLines ([] ++ src.pieces.flatten)).all (fun l => byteLen l < maxScanToken) = true
  · rw [if_pos ha]
    cases hr : readLines {} ((rawLines ([] ++ src.pieces.flatten)).map dropCR) with
    | ok r => rfl
    | err => rfl
    | panic => exact absurd hr (readLines_ne_panic _ _)
  · rw [if_neg ha]
    rfl

theorem writeCalls_flatten (is : List Item) : (writeCalls is).flatten = emit is := by
  fun_induction writeCalls is with
  | case1 => rfl
  | case2 c s is ih => simp [emit, Item.emit, ih] at *
  | case3 i is _ ih => simp [emit] at *; exact ih

/-- Watching does not change what the writer does. -/
theorem writePieces_watched_fst (k : Sink) (ps : List Str) : ∀ (s : k.State) (b : Bool),
    (writePieces k.watched (s, b) ps).1 = writePieces k s ps := by
  induction ps with
  | nil => intro s b; rfl
  | cons p ps ih => intro s b; exact ih _ _

theorem writePieces_watched_false (k : Sink) (ps : List Str) : ∀ (s : k.State),
    (writePieces k.watched (s, false) ps).2 = false := by
  induction ps with
  | nil => intro s; rfl
  | cons p ps ih => intro s; exact ih _

theorem writePieces_watched {k : Sink} (hh : k.Honest) (ps : List Str) : ∀ (s : k.State),
    (writePieces k.watched (s, true) ps).2 = true → k.got (writePieces k s ps) = k.got s ++ ps.flatten := by
  induction ps with
  | nil => intro s _; simp [writePieces]
  | cons p ps ih =>
    intro s h
    have h' : (writePieces k.watched ((k.write s p).1, true && (k.write s p).2) ps).2 = true := h
    obtain ⟨q, h1, -, h3⟩ := hh s p
    cases hw : (k.write s p).2 with
    | true =>
      rw [hw] at h'
      rw [writePieces, ih _ h', h1, h3 hw]
      simp
    | false =>
      rw [hw] at h'
      have := writePieces_watched_false k ps (k.write s p).1
      rw [Bool.true_and, this] at h'
      exact absurd h' (by simp)

theorem writePieces_watched_good {k : Sink} (hg : k.Good) (ps : List Str) : ∀ (s : k.State),
    (writePieces k.watched (s, true) ps).2 = true := by
  induction ps with
  | nil => intro s; rfl
  | cons p ps ih =>
    intro s
    have := ih (k.write s p).1
    show (writePieces k.watched ((k.write s p).1, true && (k.write s p).2) ps).2 = true
    rw [hg s p]
    exact this

theorem writePieces_after {k : Sink} (hd : k.Dead) (ps : List Str) : ∀ s p, (k.write s p).2 = false →
    k.got (writePieces k (k.write s p).1 ps) = k.got (k.write s p).1 := by
  induction ps with
  | nil => intro s p _; rfl
  | cons q ps ih =>
    intro s p h
    obtain ⟨h1, h2⟩ := hd s p q h
    rw [writePieces, ih _ q h2, h1]

theorem writePieces_dead {k : Sink} (hh : k.Honest) (hd : k.Dead) (ps : List Str) : ∀ s,
    ∃ q, k.got (writePieces k s ps) = k.got s ++ q ∧ q <+: ps.flatten := by
  induction ps with
  | nil => intro s; exact ⟨[], by simp [writePieces]⟩
  | cons p ps ih =>
    intro s
    obtain ⟨q, h1, h2, h3⟩ := hh s p
    cases hw : (k.write s p).2 with
    | true =>
      obtain ⟨q', h4, h5⟩ := ih (k.write s p).1
      refine ⟨p ++ q', ?_, ?_⟩
      · rw [writePieces, h4, h1, h3 hw, List.append_assoc]
      · simpa [List.prefix_append_right_inj] using h5
    | false =>
      refine ⟨q, ?_, ?_⟩
      · rw [writePieces, writePieces_after hd _ _ _ hw, h1]
      · exact h2.trans (List.prefix_append _ _)

end Verif
