import Verif.Spec.JsonSays
import Verif.Lemmas.JsonFields
import Verif.Lemmas.Number
import Verif.Lemmas.LegalValues

/-!
# Decoders read what JSON values say
-/

namespace Verif
open Spec

variable {β σ : Type} {n : Bool}

theorem tidy_fields {es : List (Str × Json)} (h : tidyFields es n = true) : ∀ e ∈ es, tidy e.2 n = true := by
  induction es with
  | nil => simp
  | cons e es ih =>
    obtain ⟨k, j⟩ := e
    rw [tidyFields, Bool.and_eq_true] at h
    intro e he
    rcases List.mem_cons.1 he with rfl | he
    · exact h.1
    · exact ih h.2 e he

theorem tidy_obj {es : List (Str × Json)} (h : tidy (.obj es) n = true) : OneEach es ∧ ∀ e ∈ es, tidy e.2 n = true := by
  rw [tidy, Bool.and_eq_true, decide_eq_true_eq] at h
  exact ⟨h.1, tidy_fields h.2⟩

theorem tidy_list {l : List Json} (h : tidyList l n = true) : ∀ j ∈ l, tidy j n = true ∧ (n = false → j ≠ .null) := by
  induction l with
  | nil => simp
  | cons j l ih =>
    intro k hk
    have h' : (n = false → j ≠ .null) ∧ tidy j n = true ∧ tidyList l n = true := by
      cases j <;> cases n <;> simp_all [tidyList, tidy]
    rcases List.mem_cons.1 hk with rfl | hk
    · exact ⟨h'.2.1, h'.1⟩
    · exact ih h'.2.2 k hk

theorem tidy_entry {key : Str} {es : List (Str × Json)} {j : Json} (h : tidy (.obj es) n = true) (he : entries key es = [j]) :
    tidy j n = true := by
  have : j ∈ entries key es := by rw [he]; simp
  obtain ⟨e, he', rfl⟩ := List.mem_map.1 this
  exact (tidy_obj h).2 e (List.mem_filter.1 he').1

theorem entries_cases {es : List (Str × Json)} (h : tidy (.obj es) n = true) (key : Str) :
    entries key es = [] ∨ ∃ j, entries key es = [j] := by
  rcases entries_oneEach (key := key) (tidy_obj h).1 with h1 | ⟨e, h1, -⟩
  · exact .inl (by simp [entries, h1])
  · exact .inr ⟨e.2, by simp [entries, h1]⟩

/-- The decoder reads tidy values as `says` says. -/
def JReads (c : Codec β) (zero : β) (says : Json → β → Prop) (n : Bool := false) : Prop :=
  ∀ j, tidy j n = true → ∀ x, c.dec j zero = .ok x ↔ says j x

/-- The same except for `null`. -/
def JReadsSome (c : Codec β) (zero : β) (says : Json → β → Prop) (n : Bool := false) : Prop :=
  ∀ j, tidy j n = true → j ≠ .null → ∀ x, c.dec j zero = .ok x ↔ says j x

theorem JReads.some {c : Codec β} {zero : β} {says : Json → β → Prop} (h : JReads c zero says n) : JReadsSome c zero says n :=
  fun j hj _ => h j hj

theorem decodeEntries_entries (f : Field σ) {es : List (Str × Json)} {s r : σ} (ho : OneEach es) :
    decodeEntries f es s = .ok r ↔ (entries f.key es = [] ∧ r = s) ∨
      ∃ j, entries f.key es = [j] ∧ ∃ x, f.codec.dec j (f.get s) = .ok x ∧ r = f.set x s := by
  rw [decodeEntries_filter]
  rcases entries_oneEach (key := f.key) ho with h3 | ⟨⟨k, j⟩, h3, h4⟩
  · have e : entries f.key es = [] := by simp [entries, h3]
    rw [h3, e]
    simp [decodeEntries, eq_comm]
  · have e : entries f.key es = [j] := by simp [entries, h3]
    rw [h3, e, decodeEntries, if_pos h4]
    constructor
    · intro h
      rw [bind_eq_ok] at h
      obtain ⟨x, hx, h⟩ := h
      rw [decodeEntries, Res.ok.injEq] at h
      exact .inr ⟨j, rfl, x, hx, h.symm⟩
    · rintro (⟨h, -⟩ | ⟨j', hj, x, hx, rfl⟩)
      · simp at h
      · simp only [List.cons.injEq, and_true] at hj
        subst hj
        rw [hx]
        rfl

/-- One field of an object. -/
theorem peel {f : Field σ} {fs : List (Field σ)} {es : List (Str × Json)} {s r : σ} {says : Json → f.β → Prop}
    (ht : tidy (.obj es) n = true) (hs : f.set (f.get s) s = s) (hr : JReads f.codec (f.get s) says n) :
    decodeFields es (f :: fs) s = .ok r ↔ ∃ x, Has es f.key says (f.get s) x ∧ decodeFields es fs (f.set x s) = .ok r := by
  rw [decodeFields, bind_eq_ok]
  constructor
  · rintro ⟨t, h1, h2⟩
    rcases (decodeEntries_entries f (tidy_obj ht).1).1 h1 with ⟨he, rfl⟩ | ⟨j, he, x, hx, rfl⟩
    · exact ⟨_, .inl ⟨he, rfl⟩, by rw [hs]; exact h2⟩
    · exact ⟨x, .inr ⟨j, he, (hr j (tidy_entry ht he) x).1 hx⟩, h2⟩
  · rintro ⟨x, ⟨he, rfl⟩ | ⟨j, he, hx⟩, h2⟩
    · rw [hs] at h2
      exact ⟨s, (decodeEntries_entries f (tidy_obj ht).1).2 (.inl ⟨he, rfl⟩), h2⟩
    · exact ⟨f.set x s, (decodeEntries_entries f (tidy_obj ht).1).2 (.inr ⟨j, he, x, (hr j (tidy_entry ht he) x).2 hx, rfl⟩), h2⟩

theorem unpeel {f : Field σ} {fs : List (Field σ)} {es : List (Str × Json)} {s r : σ} {says : Json → f.β → Prop} {x : f.β}
    (ht : tidy (.obj es) n = true) (hs : f.set (f.get s) s = s) (hr : JReads f.codec (f.get s) says n)
    (hx : Has es f.key says (f.get s) x) (h : decodeFields es fs (f.set x s) = .ok r) : decodeFields es (f :: fs) s = .ok r :=
  (peel ht hs hr).2 ⟨x, hx, h⟩

/-- A key that is not there needs no reading. -/
theorem peel_absent {f : Field σ} {fs : List (Field σ)} {es : List (Str × Json)} {s r : σ} {says : Json → f.β → Prop}
    (ht : tidy (.obj es) n = true) (hn : n = false ∨ entries f.key es = []) (hs : f.set (f.get s) s = s)
    (hr : JReads f.codec (f.get s) says) :
    decodeFields es (f :: fs) s = .ok r ↔ ∃ x, Has es f.key says (f.get s) x ∧ decodeFields es fs (f.set x s) = .ok r := by
  rcases hn with rfl | he
  · exact peel ht hs hr
  · have e : decodeEntries f es s = .ok s := (decodeEntries_entries f (tidy_obj ht).1).2 (.inl ⟨he, rfl⟩)
    rw [decodeFields, e, Res.bind_ok]
    constructor
    · intro h
      exact ⟨_, .inl ⟨he, rfl⟩, by rw [hs]; exact h⟩
    · rintro ⟨x, ⟨_, rfl⟩ | ⟨j, h, _⟩, h2⟩
      · rw [hs] at h2; exact h2
      · rw [he] at h; cases h

/-! ## Kinds of values -/

theorem reads_text : JReads strCodec [] TextIs n := by
  intro j _ x
  unfold TextIs strCodec
  cases j <;> simp [Res.ofOption, eq_comm]
  rename_i raw _
  cases unescape raw <;> simp [eq_comm]

theorem reads_flag : JReads boolCodec false FlagIs n := by
  intro j _ x
  unfold FlagIs boolCodec
  cases j <;> simp [eq_comm]

theorem reads_number : JReads intCodec 0 NumberIs n := by
  intro j _ x
  unfold NumberIs intCodec
  cases j <;> simp [Res.ofOption, eq_comm, number_iff]
  rename_i l _
  cases atoi l <;> simp [eq_comm]

theorem mapRes_iff {α : Type} {f : α → Res β} {says : α → β → Prop} {l : List α} {m : List β}
    (h : ∀ a ∈ l, ∀ x, f a = .ok x ↔ says a x) : mapRes f l = .ok m ↔ Pointwise says l m := by
  induction l generalizing m with
  | nil =>
    rw [mapRes, Res.ok.injEq]
    constructor
    · rintro rfl; exact .nil
    · intro h; cases h; rfl
  | cons a l ih =>
    rw [mapRes, bind_eq_ok]
    constructor
    · rintro ⟨b, hb, hm⟩
      rw [bind_eq_ok] at hm
      obtain ⟨m', hm', hm⟩ := hm
      rw [Res.ok.injEq] at hm
      subst hm
      exact .cons ((h a (by simp) b).1 hb) ((ih fun a ha => h a (by simp [ha])).1 hm')
    · intro hp
      cases hp with
      | cons h1 h2 =>
        refine ⟨_, (h a (by simp) _).2 h1, ?_⟩
        rw [(ih fun a ha => h a (by simp [ha])).2 h2]
        rfl

theorem reads_list {c : Codec β} {zero : β} {says : Json → β → Prop} (h : JReads c zero says n) :
    JReads (listCodec zero c) [] (ListIs says) n := by
  intro j hj x
  unfold ListIs
  cases j with
  | arr l =>
    have hl := tidy_list (by rwa [tidy] at hj)
    have : (listCodec zero c).dec (.arr l) [] = mapRes (fun j => c.dec j zero) l := rfl
    rw [this, mapRes_iff (says := says) fun a ha => h a (hl a ha).1]
    simp
  | _ => simp [listCodec, eq_comm]

theorem reads_ptrList {c : Codec β} {zero : β} {says : Json → β → Prop} (h : JReadsSome c zero says) :
    JReads (ptrListCodec zero c) [] (ListIs says) := by
  intro j hj x
  unfold ListIs
  cases j with
  | arr l =>
    have hl := tidy_list (by rwa [tidy] at hj)
    have : (ptrListCodec zero c).dec (.arr l) [] = mapRes (fun j => match j with | .null => .err | j => c.dec j zero) l := rfl
    rw [this, mapRes_iff (says := says) fun a ha x => ?_]
    · simp
    · have hn := (hl a ha).2 rfl
      rw [← h a (hl a ha).1 hn x]
      cases a <;> simp at hn ⊢
  | _ => simp [ptrListCodec, listCodec, eq_comm]

theorem reads_ptr {c : Codec β} {zero : β} {says : Json → β → Prop} (h : JReadsSome c zero says n) :
    JReads (ptrCodec zero c) none (OptionIs says) n := by
  intro j hj x
  unfold OptionIs
  by_cases hn : j = .null
  · subst hn; simp [ptrCodec, eq_comm]
  · have : (ptrCodec zero c).dec j none = (do let b ← c.dec j zero; .ok (some b)) := by
      cases j <;> simp [ptrCodec] at hn ⊢
    rw [this, bind_eq_ok]
    simp only [h j hj hn, Res.ok.injEq, hn, false_and, false_or, ne_eq, not_false_eq_true, true_and]
    exact ⟨fun ⟨a, b, c⟩ => ⟨a, c.symm, b⟩, fun ⟨a, b, c⟩ => ⟨a, c, b.symm⟩⟩

theorem reads_object {fs : List (Field σ)} {zero : σ} {says : List (Str × Json) → σ → Prop}
    (h : ∀ es, tidy (.obj es) n = true → ∀ x, decodeFields es fs zero = .ok x ↔ says es x) :
    JReads (structCodec fs) zero (ObjectIs says zero) n := by
  intro j hj x
  unfold ObjectIs
  cases j with
  | obj es =>
    have : (structCodec fs).dec (.obj es) zero = decodeFields es fs zero := rfl
    rw [this, h es hj]
    simp
  | _ => simp [structCodec, eq_comm]

/-! ## Identifiers and agents -/

theorem written_eq (j : Json) : trimQuotes j.text = written j := rfl

theorem trimId_iff {pre w id : Str} : trimIdPrefix pre w = .ok id ↔ w = pre ++ id ∧ id ≠ [] := by
  unfold trimIdPrefix
  cases h : cutPrefix pre w with
  | none =>
    have := cutPrefix_eq_none.1 h
    simp only [reduceCtorEq, false_iff, not_and]
    exact fun e => absurd e (this id)
  | some r =>
    have := cutPrefix_eq_some.1 h
    subst this
    by_cases hr : r = []
    · subst hr
      simp only [if_true, reduceCtorEq, false_iff, not_and, ne_eq, Decidable.not_not]
      intro e
      exact (List.append_cancel_left e).symm
    · simp only [if_neg hr, Res.ok.injEq]
      constructor
      · rintro rfl; exact ⟨rfl, hr⟩
      · rintro ⟨e, -⟩; exact List.append_cancel_left e

theorem reads_elementId : JReads elementIdCodec [] (IdIs g!"SPDXRef-") n := fun j _ x => by
  show elementIdOfJson j.text = .ok x ↔ _
  unfold elementIdOfJson IdIs
  rw [written_eq, trimId_iff]; rfl

theorem reads_documentId : JReads documentIdCodec [] (IdIs g!"DocumentRef-") n := fun j _ x => by
  show documentIdOfJson j.text = .ok x ↔ _
  unfold documentIdOfJson IdIs
  rw [written_eq, trimId_iff]; rfl

theorem cut_colon {w a b : Str} : cut g!":" w = some (a, b) ↔ w = a ++ g!":" ++ b ∧ ':' ∉ a := by
  constructor
  · intro h
    refine ⟨cut_eq h, fun hm => ?_⟩
    have := cut_first (by simp) h
    rw [contains_single.2 hm] at this
    simp at this
  · rintro ⟨rfl, h⟩
    have := cut_single (c := ':') (a := a) (b := b) h
    simpa using this

theorem colon_iff {w k x : Str} : (∃ p, cut g!":" w = some p ∧ k = trimSpace p.1 ∧ x = trimSpace p.2) ↔ ColonPair w k x := by
  unfold ColonPair
  constructor
  · rintro ⟨⟨a, b⟩, h, h1, h2⟩
    exact ⟨a, b, (cut_colon.1 h).1, (cut_colon.1 h).2, h1, h2⟩
  · rintro ⟨a, b, h1, h2, h3, h4⟩
    exact ⟨(a, b), cut_colon.2 ⟨h1, h2⟩, h3, h4⟩

theorem reads_creator : JReads creatorCodec {} CreatorIs n := fun j _ x => by
  show creatorOfJson j.text = .ok x ↔ _
  unfold creatorOfJson CreatorIs splitColon
  rw [written_eq, ← colon_iff]
  obtain ⟨n, k⟩ := x
  cases h : cut g!":" (written j) with
  | none => simp
  | some p => simp [eq_comm, and_comm]

theorem reads_annotator : JReads annotatorCodec {} AnnotatorIs n := fun j _ x => by
  show annotatorOfJson j.text = .ok x ↔ _
  unfold annotatorOfJson AnnotatorIs splitColon
  rw [written_eq, ← colon_iff]
  obtain ⟨n, k⟩ := x
  cases h : cut g!":" (written j) with
  | none => simp
  | some p => simp [eq_comm, and_comm]

theorem cut_noassertion : cut g!":" g!"NOASSERTION" = none := by decide

theorem reads_supplier : JReads supplierCodec {} SupplierIs n := fun j _ x => by
  show supplierOfJson {} j.text = .ok x ↔ _
  unfold supplierOfJson SupplierIs splitColon
  rw [written_eq, ← colon_iff]
  obtain ⟨n, k⟩ := x
  by_cases hw : written j = g!"NOASSERTION"
  · rw [hw, if_pos rfl, cut_noassertion]; simp [eq_comm]
  · rw [if_neg hw]
    cases h : cut g!":" (written j) with
    | none => simp [hw]
    | some p => simp only [hw, false_and, false_or]; simp [eq_comm, and_comm]

theorem reads_originator : JReads originatorCodec {} OriginatorIs n := fun j _ x => by
  show originatorOfJson {} j.text = .ok x ↔ _
  unfold originatorOfJson OriginatorIs splitColon
  rw [written_eq]
  obtain ⟨n, k⟩ := x
  have key : (∃ b, written j = k ++ g!":" ++ b ∧ ':' ∉ k ∧ n = b.dropWhile fun c => c = ' ' || c = '\t') ↔
      ∃ p, cut g!":" (written j) = some p ∧ k = p.1 ∧ n = trimLeft isBlankOrTab p.2 := by
    constructor
    · rintro ⟨b, h1, h2, h3⟩
      exact ⟨(k, b), cut_colon.2 ⟨h1, h2⟩, rfl, h3⟩
    · rintro ⟨⟨a, b⟩, h, rfl, h3⟩
      exact ⟨b, (cut_colon.1 h).1, (cut_colon.1 h).2, h3⟩
  simp only [key]
  by_cases hw : written j = g!"NOASSERTION"
  · rw [hw, if_pos rfl, cut_noassertion]; simp [eq_comm]
  · rw [if_neg hw]
    cases h : cut g!":" (written j) with
    | none => simp [hw]
    | some p => simp only [hw, false_and, false_or]; simp [eq_comm, and_comm]

theorem bind_if_ok {α γ : Type} {a : Res α} {f : α → γ} {x : γ} : (do let b ← a; .ok (f b) : Res γ) = .ok x ↔ ∃ b, a = .ok b ∧ f b = x := by
  rw [bind_eq_ok]; simp

theorem reads_ref : JReads docElementIdCodec {} RefIs n := fun j _ x => by
  show docElementIdOfJson {} j.text = .ok x ↔ _
  unfold docElementIdOfJson RefIs
  rw [written_eq]
  generalize written j = w
  simp only
  by_cases hw : w = g!"NONE" ∨ w = g!"NOASSERTION"
  · rw [if_pos hw]
    have no : ∀ (pre : Str) (t : Str), pre.head? = some 'D' ∨ pre.head? = some 'S' → w ≠ pre ++ t := by
      rintro pre t hp rfl
      cases pre with
      | nil => simp at hp
      | cons c pre => rcases hp with hp | hp <;> simp at hp <;> subst hp <;> simp at hw
    simp only [Res.ok.injEq]
    constructor
    · intro h; exact .inl ⟨hw, h.symm⟩
    · rintro (⟨-, h⟩ | ⟨e, h, -⟩ | ⟨d, h, -⟩ | ⟨d, e, h, -⟩)
      · exact h.symm
      · exact absurd h (no _ _ (by simp))
      · exact absurd h (no _ _ (by simp))
      · rw [List.append_assoc, List.append_assoc] at h
        exact absurd h (no _ _ (by simp))
  · rw [if_neg hw]
    by_cases hd : hasPrefix documentRefPrefix w = true
    · rw [if_pos hd]
      obtain ⟨t, rfl⟩ := List.isPrefixOf_iff_prefix.1 hd
      have no : ∀ e, documentRefPrefix ++ t ≠ g!"SPDXRef-" ++ e := by
        intro e h; simp [documentRefPrefix] at h
      have hw' : ¬ ((documentRefPrefix ++ t = g!"NONE" ∨ documentRefPrefix ++ t = g!"NOASSERTION")) := hw
      simp only [hw', false_and, false_or, no, exists_const]
      cases h : cut g!":" (documentRefPrefix ++ t) with
      | none =>
        have hc : ':' ∉ t := by
          intro hm
          have : contains g!":" (documentRefPrefix ++ t) = true := contains_single.2 (by simp [hm])
          unfold contains at this
          rw [h] at this; simp at this
        simp only [bind_if_ok, trimId_iff]
        constructor
        · rintro ⟨d, ⟨h1, h2⟩, rfl⟩
          refine .inl ⟨d, h1, ?_, h2, rfl⟩
          rw [← List.append_cancel_left h1]; exact hc
        · rintro (⟨d, h1, h2, h3, rfl⟩ | ⟨d, e, h1, -⟩)
          · exact ⟨d, ⟨h1, h3⟩, rfl⟩
          · exfalso
            have h1' : documentRefPrefix ++ t = documentRefPrefix ++ (d ++ g!":SPDXRef-" ++ e) := by rw [h1]; simp [documentRefPrefix]
            rw [List.append_cancel_left h1'] at hc
            simp at hc
      | some p =>
        obtain ⟨a, b⟩ := p
        obtain ⟨h1, h2⟩ := cut_colon.1 h
        simp only [bind_eq_ok, trimId_iff, Res.ok.injEq]
        constructor
        · rintro ⟨d, ⟨rfl, h4⟩, e, ⟨rfl, h6⟩, rfl⟩
          refine .inr ⟨d, e, ?_, ?_, h4, h6, rfl⟩
          · rw [h1]; simp [documentRefPrefix, spdxRefPrefix]
          · exact fun hm => h2 (by simp [hm])
        · rintro (⟨d, h3, h4, h5, rfl⟩ | ⟨d, e, h3, h4, h5, h6, rfl⟩)
          · exfalso
            rw [h1] at h3
            have : ':' ∈ g!"DocumentRef-" ++ d := by rw [← h3]; simp
            simp [h4] at this
          · have h7 : cut g!":" (documentRefPrefix ++ t) = some (documentRefPrefix ++ d, spdxRefPrefix ++ e) := by
              refine cut_colon.2 ⟨by rw [h3]; simp [documentRefPrefix, spdxRefPrefix], ?_⟩
              simp [documentRefPrefix, h4]
            rw [h] at h7
            simp only [Option.some.injEq, Prod.mk.injEq] at h7
            exact ⟨d, ⟨h7.1, h5⟩, e, ⟨h7.2, h6⟩, rfl⟩
    · rw [if_neg hd]
      have no : ∀ d, w ≠ g!"DocumentRef-" ++ d := by
        rintro d rfl
        exact hd (List.isPrefixOf_iff_prefix.2 ⟨d, rfl⟩)
      have no2 : ∀ d e, w ≠ g!"DocumentRef-" ++ d ++ g!":SPDXRef-" ++ e := by
        intro d e
        rw [List.append_assoc, List.append_assoc]
        exact no _
      simp only [hw, false_and, false_or, no, no2, exists_const, or_false, bind_if_ok, trimId_iff]
      constructor
      · rintro ⟨e, ⟨h1, h2⟩, rfl⟩; exact ⟨e, h1, h2, rfl⟩
      · rintro ⟨e, h1, h2, rfl⟩; exact ⟨e, ⟨h1, h2⟩, rfl⟩

end Verif
