import Verif.Lemmas.BytesRead

/-!
# What is read consists of bytes of the text
-/

namespace Verif
open Spec

theorem madeOf_part {text v x y : Bytes} (h : text = x ++ v ++ y) : MadeOf text v := by
  rintro a l b rfl -
  exact ⟨x ++ a, b ++ y, by rw [h]; simp⟩

theorem Spec.MadeOf.part {text v w x y : Bytes} (h : MadeOf text v) (e : v = x ++ w ++ y) : MadeOf text w := by
  rintro a l b rfl hl
  exact h (x ++ a) l (b ++ y) (by rw [e]; simp) hl

theorem Spec.MadeOf.nil (text : Bytes) : MadeOf text [] := madeOf_part (x := text) (y := []) (by simp)

/-- A piece within a line of two parts with a line break in between lies in one of them. -/
theorem Spec.MadeOf.lines {text v w : Bytes} (hv : MadeOf text v) (hw : MadeOf text w) : MadeOf text (v ++ 10 :: w) := by
  intro a l b e hl
  rw [List.append_assoc] at e
  rcases List.append_eq_append_iff.1 e with ⟨z, h1, h2⟩ | ⟨z, h1, h2⟩
  · -- the piece starts after the first part
    cases z with
    | nil =>
      -- it starts at the line break
      cases l with
      | nil => exact ⟨text, [], by simp⟩
      | cons c l => exact absurd (List.cons.inj h2).1.symm (fun e => hl (by simp [e]))
    | cons c z =>
      obtain ⟨-, h2⟩ := List.cons.inj h2
      exact hw z l b (by rw [h2]; simp) hl
  · -- it starts in the first part
    rcases List.append_eq_append_iff.1 h2 with ⟨y, h3, h4⟩ | ⟨y, h3, h4⟩
    · exact hv a l y (by rw [h1, h3]; simp) hl
    · -- it would run over the line break
      cases y with
      | nil => exact hv a l [] (by rw [h1, h3]; simp) hl
      | cons c y =>
        obtain ⟨h4, -⟩ := List.cons.inj h4
        exact absurd (show (10 : UInt8) ∈ l by rw [h3, ← h4]; simp) hl

theorem trimLeftLoop_part (p : Nat → Bool) (n : Nat) (s : Bytes) : ∃ x, s = x ++ trimLeftLoop p n s := by
  induction n generalizing s with
  | zero => exact ⟨[], rfl⟩
  | succ n ih =>
    unfold trimLeftLoop
    split
    · rename_i h; exact ⟨[], by simp [h]⟩
    · split
      · obtain ⟨x, hx⟩ := ih (s.drop (decodeRune s).2)
        refine ⟨s.take (decodeRune s).2 ++ x, ?_⟩
        rw [List.append_assoc, ← hx, List.take_append_drop]
      · exact ⟨[], rfl⟩

theorem trimRightLoop_part (p : Nat → Bool) (n : Nat) (s : Bytes) : ∃ y, s = trimRightLoop p n s ++ y := by
  induction n generalizing s with
  | zero => exact ⟨[], by simp [trimRightLoop]⟩
  | succ n ih =>
    unfold trimRightLoop
    split
    · rename_i h; exact ⟨[], by simp [h]⟩
    · split
      · obtain ⟨y, hy⟩ := ih (s.take (s.length - (decodeLastRune s).2))
        refine ⟨y ++ s.drop (s.length - (decodeLastRune s).2), ?_⟩
        rw [← List.append_assoc, ← hy, List.take_append_drop]
      · exact ⟨[], by simp⟩

theorem trimSpaceB_part (s : Bytes) : ∃ x y, s = x ++ trimSpaceB s ++ y := by
  obtain ⟨x, hx⟩ := trimLeftLoop_part isSpaceRune s.length s
  obtain ⟨y, hy⟩ := trimRightLoop_part isSpaceRune (trimLeftB isSpaceRune s).length (trimLeftB isSpaceRune s)
  refine ⟨x, y, ?_⟩
  have e : trimSpaceB s = trimRightLoop isSpaceRune (trimLeftB isSpaceRune s).length (trimLeftB isSpaceRune s) := rfl
  rw [e, List.append_assoc, ← hy]
  exact hx

theorem Spec.MadeOf.trim {text s : Bytes} (h : MadeOf text s) : MadeOf text (trimSpaceB s) := by
  obtain ⟨x, y, e⟩ := trimSpaceB_part s
  exact h.part e

/-- What the reader holds consists of bytes of the text; while a block is open, its value ends with a line break. -/
structure ReaderMadeOf (text : Bytes) (r : BReader) : Prop where
  pairs : ∀ p ∈ r.tvList, MadeOf text p.tag ∧ MadeOf text p.value
  tag : MadeOf text r.currentTag
  value : r.midtext = true → ∃ v, r.currentValue = v ++ [10] ∧ MadeOf text v

theorem readLineB_madeOf {text line : Bytes} {r r' : BReader} (h : ReaderMadeOf text r) (hl : MadeOf text line)
    (e : readLineB r line = .ok r') : ReaderMadeOf text r' := by
  have addPair : ∀ {t v : Bytes}, MadeOf text t → MadeOf text v →
      ∀ p ∈ r.tvList ++ [⟨t, v⟩], MadeOf text p.tag ∧ MadeOf text p.value := by
    intro t v ht hv p hp
    rcases List.mem_append.1 hp with hp | hp
    · exact h.pairs p hp
    · rw [List.mem_singleton.1 hp]; exact ⟨ht, hv⟩
  unfold readLineB at e
  split at e
  · rename_i hm
    obtain ⟨v, hv, hv'⟩ := h.value hm
    unfold readLineMidtextB at e
    split at e
    · cases e
      refine ⟨h.pairs, h.tag, fun _ => ⟨v ++ 10 :: line, ?_, hv'.lines hl⟩⟩
      simp [hv, lit_newline, -utf8_cons]
    · rename_i inner after hc
      cases e
      have hi : MadeOf text inner := hl.part (x := []) (y := utf8 g!"</text>" ++ after) (by rw [cutB_eq hc]; simp)
      refine ⟨addPair h.tag ?_, .nil text, fun hm => (by cases hm)⟩
      rw [hv, List.append_assoc]
      exact hv'.lines hi
  · rename_i hm
    unfold readLineReadyB at e
    simp only at e
    split at e
    · cases e; exact h
    · split at e
      · cases e; exact h
      · split at e
        · cases e
        · rename_i t rest hc
          obtain ⟨x, hx⟩ := trimLeftLoop_part isSpaceRune line.length line
          have hl2 : MadeOf text (trimLeftB isSpaceRune line) := hl.part (x := x) (y := []) (by rw [List.append_nil]; exact hx)
          have ht : MadeOf text t := hl2.part (x := []) (y := utf8 g!":" ++ rest) (by rw [cutB_eq hc]; simp)
          have hr : MadeOf text rest := hl2.part (x := t ++ utf8 g!":") (y := []) (by rw [cutB_eq hc]; simp)
          split at e
          · cases e
            exact ⟨addPair ht.trim hr.trim, .nil text, fun h' => absurd h' hm⟩
          · rename_i before body hc2
            have hb : MadeOf text body := hr.part (x := before ++ utf8 g!"<text>") (y := []) (by rw [cutB_eq hc2]; simp)
            split at e
            · rename_i inner after hc3
              cases e
              exact ⟨addPair ht.trim (hb.part (x := []) (y := utf8 g!"</text>" ++ after) (by rw [cutB_eq hc3]; simp)),
                .nil text, fun h' => absurd h' hm⟩
            · cases e
              exact ⟨h.pairs, ht.trim, fun _ => ⟨body, by rw [lit_newline], hb⟩⟩

theorem readLinesB_madeOf {text : Bytes} {ls : List Bytes} {r r' : BReader} (h : ReaderMadeOf text r)
    (hl : ∀ l ∈ ls, MadeOf text l) (e : readLinesB r ls = .ok r') : ReaderMadeOf text r' := by
  induction ls generalizing r with
  | nil => cases e; exact h
  | cons l ls ih =>
    unfold readLinesB at e
    cases h1 : readLineB r l with
    | ok r1 =>
      rw [h1] at e
      exact ih (readLineB_madeOf h (hl l (by simp)) h1) (fun l hl' => hl l (by simp [hl'])) e
    | err => rw [h1] at e; cases e
    | panic => rw [h1] at e; cases e

theorem dropCRB_part (l : Bytes) : ∃ y, l = dropCRB l ++ y := by
  unfold dropCRB
  split
  · rename_i b t hr
    split
    · exact ⟨[b], by rw [← List.reverse_reverse l, hr, List.reverse_cons]⟩
    · exact ⟨[], by simp⟩
  · exact ⟨[], by simp⟩

theorem scanLinesB_madeOf {text : Bytes} {ls : List Bytes} (h : scanLinesB text = .ok ls) : ∀ l ∈ ls, MadeOf text l := by
  unfold scanLinesB at h
  simp only at h
  split at h
  · cases h
    intro l hl
    obtain ⟨l', hl', rfl⟩ := List.mem_map.1 hl
    obtain ⟨a, b, e, -⟩ := splitByte_part (rawLinesB_mem hl')
    obtain ⟨y, hy⟩ := dropCRB_part l'
    exact (madeOf_part e).part (x := []) (y := y) (by rw [List.nil_append]; exact hy)
  · cases h

theorem readTagValuesB_madeOf {text : Bytes} {ps : List BPair} (h : readTagValuesB text = .ok ps) :
    ∀ p ∈ ps, MadeOf text p.tag ∧ MadeOf text p.value := by
  unfold readTagValuesB at h
  cases h1 : scanLinesB text with
  | err => rw [h1] at h; cases h
  | panic => rw [h1] at h; cases h
  | ok ls =>
    rw [h1, Res.bind_ok] at h
    cases h2 : readLinesB {} ls with
    | err => rw [h2] at h; cases h
    | panic => rw [h2] at h; cases h
    | ok r =>
      rw [h2, Res.bind_ok] at h
      unfold BReader.finalize at h
      split at h
      · cases h
      · cases h
        have h0 : ReaderMadeOf text {} := ⟨(by intro p hp; cases hp), .nil text, (by intro h; cases h)⟩
        exact (readLinesB_madeOf h0 (scanLinesB_madeOf h1) h2).pairs

theorem readLineB_ne_panic (r : BReader) (l : Bytes) : readLineB r l ≠ .panic := by
  unfold readLineB
  split
  · unfold readLineMidtextB; split <;> simp
  · unfold readLineReadyB
    simp only
    split
    · simp
    · split
      · simp
      · split
        · simp
        · split
          · simp
          · split <;> simp

theorem readLinesB_ne_panic (r : BReader) (ls : List Bytes) : readLinesB r ls ≠ .panic := by
  induction ls generalizing r with
  | nil => simp [readLinesB]
  | cons l ls ih =>
    unfold readLinesB
    cases h : readLineB r l with
    | ok r' => exact ih r'
    | err => simp
    | panic => exact absurd h (readLineB_ne_panic r l)

theorem readTagValuesB_ne_panic (text : Bytes) : readTagValuesB text ≠ .panic := by
  unfold readTagValuesB
  have h1 : scanLinesB text ≠ .panic := by unfold scanLinesB; simp only; split <;> simp
  cases h : scanLinesB text with
  | panic => exact absurd h h1
  | err => simp
  | ok ls =>
    simp only [Res.bind_ok]
    cases h2 : readLinesB {} ls with
    | panic => exact absurd h2 (readLinesB_ne_panic _ _)
    | err => simp
    | ok r => simp only [Res.bind_ok, BReader.finalize]; split <;> simp

end Verif
