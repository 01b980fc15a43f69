import Verif.Spec.Savable
import Verif.Lemmas.Composite
import Verif.Lemmas.TextSays
import Verif.Lemmas.Sort

/-!
# Documents read from savable texts can be represented
-/

namespace Verif
open Spec

/-! ## Parts of texts -/

theorem contains_part {sub a w b s : Str} (hs : s = a ++ w ++ b) (h : contains sub s = false) : contains sub w = false := by
  rw [contains_false_iff] at h ⊢
  rintro x y rfl
  exact h (a ++ x) (y ++ b) (by rw [hs]; simp)

theorem trim_part (p : Char → Bool) (s : Str) : ∃ a b, s = a ++ trim p s ++ b := by
  obtain ⟨a, h1, -⟩ := trimLeft_suffix p s
  obtain ⟨b, h2, -⟩ := trimRight_prefix p (trimLeft p s)
  refine ⟨a, b, ?_⟩
  unfold trim
  rw [List.append_assoc, ← h2]
  exact h1

theorem contains_trim {sub s : Str} (h : contains sub s = false) : contains sub (trimSpace s) = false := by
  obtain ⟨a, b, e⟩ := trim_part isSpace s
  exact contains_part e h

theorem splitChar_part {c : Char} : ∀ {s w : Str}, w ∈ splitChar c s → ∃ a b, s = a ++ w ++ b := by
  intro s
  induction s with
  | nil => intro w h; simp [splitChar] at h; exact ⟨[], [], by simp [h]⟩
  | cons x s ih =>
    intro w h
    by_cases hx : x = c
    · simp only [splitChar, hx, if_true, List.mem_cons] at h
      rcases h with rfl | h
      · exact ⟨[], x :: s, rfl⟩
      · obtain ⟨a, b, e⟩ := ih h
        exact ⟨x :: a, b, by rw [e]; rfl⟩
    · simp only [splitChar, hx, if_false] at h
      cases hs : splitChar c s with
      | nil => exact absurd hs (splitChar_ne_nil c s)
      | cons y ys =>
        rw [hs] at h
        rcases List.mem_cons.1 h with rfl | h
        · have e := join_splitChar c s
          rw [hs] at e
          cases ys with
          | nil => exact ⟨[], [], by simp [← e, join]⟩
          | cons z zs => exact ⟨[], [c] ++ join [c] (z :: zs), by simp [← e, join]⟩
        · obtain ⟨a, b, e⟩ := ih (w := w) (by rw [hs]; exact List.mem_cons_of_mem _ h)
          exact ⟨x :: a, b, by rw [e]; rfl⟩

theorem sv_oneLine_nil : OneLine [] := by decide
theorem sv_good_nil : GoodValue [] := by decide

theorem oneLine_of_good {s : Str} (h : GoodValue s) (hn : '\n' ∉ s) : OneLine s := by
  unfold GoodValue at h
  rw [if_neg hn] at h
  exact ⟨hn, h.1, h.2⟩

theorem sv_good_of_oneLine {s : Str} (h : OneLine s) : GoodValue s := by
  unfold GoodValue
  rw [if_neg h.1]
  exact h.2

/-- The trimmed part of a line is a line. -/
theorem oneLine_trim {a w b s : Str} (hs : s = a ++ w ++ b) (h : OneLine s) : OneLine (trimSpace w) := by
  refine ⟨fun hm => h.1 ?_, by simp [trimSpace], contains_trim (contains_part hs h.2.2)⟩
  rw [hs]
  simp [mem_of_mem_trim hm]

/-- The words of a value with no white space but spaces. -/
theorem word_of_words {value w : Str} (h : OneLine value) (hs : ∀ c ∈ value, isSpace c = true → c = ' ')
    (hw : w ∈ wordsOf value) : Word w := by
  unfold wordsOf at hw
  simp only [List.mem_filter, List.mem_map, ne_eq, decide_eq_true_eq] at hw
  obtain ⟨⟨x, hx, rfl⟩, hne⟩ := hw
  obtain ⟨a, b, e⟩ := splitChar_part hx
  refine ⟨hne, fun c hc => ?_, contains_trim (contains_part e h.2.2)⟩
  have hcx := mem_of_mem_trim hc
  have hcv : c ∈ value := by rw [e]; simp [hcx]
  by_cases hsp : isSpace c = true
  · obtain rfl := hs c hcv hsp
    exact absurd hcx (splitChar_mem_not_mem hx)
  · simpa using hsp

theorem solid_part {a w b s : Str} (hs : s = a ++ w ++ b) (h : Solid s) : Solid w := by
  refine ⟨fun c hc => h.1 c ?_, contains_part hs h.2⟩
  rw [hs]; simp [hc]

/-- The second half of a pair with a colon that does not end with the colon. -/
theorem colon_named {value k x : Str} (h : OneLine value) (hn : ∀ a, value ≠ a ++ g!":") (hp : ColonPair value k x) :
    Line1 x := by
  obtain ⟨a, b, e, -, -, rfl⟩ := hp
  refine ⟨fun hx => ?_, oneLine_trim (a := a ++ g!":") (b := []) (by simp [e]) h⟩
  rcases List.eq_nil_or_concat b with rfl | ⟨t, c, rfl⟩
  · exact hn a (by simpa using e)
  · simp only [List.concat_eq_append] at e hx
    have h1 := (trim_eq_self_iff.1 h.2.1).2 c (a ++ g!":" ++ t) (by rw [e]; simp)
    have h2 : c ∈ trimSpace (t ++ [c]) := by
      obtain ⟨l, h3, h4⟩ := trimLeft_suffix isSpace (t ++ [c])
      obtain ⟨r, h5, h6⟩ := trimRight_prefix isSpace (trimLeft isSpace (t ++ [c]))
      have h7 : trimRight isSpace (trimLeft isSpace (t ++ [c])) = [] := hx
      rw [h7, List.nil_append] at h5
      have : c ∈ l ++ trimLeft isSpace (t ++ [c]) := by rw [← h3]; simp
      rcases List.mem_append.1 this with hm | hm
      · rw [h4 c hm] at h1; cases h1
      · rw [h5] at hm; rw [h6 c hm] at h1; cases h1
    rw [hx] at h2
    cases h2

/-! ## Values of tags -/

theorem mem_values {t x : Str} {ps : List TVPair} : x ∈ values t ps ↔ ∃ p ∈ ps, p.tag = t ∧ p.value = x := by
  simp [values, and_assoc]

theorem lastValue_mem {t : Str} {ps : List TVPair} (h : values t ps ≠ []) : lastValue t ps ∈ values t ps := by
  unfold lastValue
  cases hl : (values t ps).getLast? with
  | none => exact absurd (List.getLast?_eq_none_iff.1 hl) h
  | some x => exact List.mem_of_getLast? hl

theorem lastValue_of {P : Str → Prop} {t : Str} {ps : List TVPair} (h0 : P []) (h : ∀ p ∈ ps, p.tag = t → P p.value) :
    P (lastValue t ps) := by
  by_cases hv : values t ps = []
  · simpa [lastValue, hv] using h0
  · obtain ⟨p, hp, ht, e⟩ := mem_values.1 (lastValue_mem hv)
    exact e ▸ h p hp ht

theorem values_of {P : Str → Prop} {t : Str} {ps : List TVPair} (h : ∀ p ∈ ps, p.tag = t → P p.value) :
    ∀ x ∈ values t ps, P x := by
  intro x hx
  obtain ⟨p, hp, ht, rfl⟩ := mem_values.1 hx
  exact h p hp ht

theorem groups_mem {t : Str} {g : Str × List TVPair} : ∀ {ps : List TVPair}, g ∈ groups t ps →
    (∃ p ∈ ps, p.tag = t ∧ p.value = g.1) ∧ ∀ q ∈ g.2, q ∈ ps
  | p :: ps, h => by
    unfold groups at h
    split at h
    · rename_i ht
      rcases List.mem_cons.1 h with rfl | h
      · exact ⟨⟨p, by simp, ht, rfl⟩, fun q hq => List.mem_cons_of_mem _ ((List.takeWhile_sublist _).mem hq)⟩
      · obtain ⟨⟨q, hq, h1⟩, h2⟩ := groups_mem h
        exact ⟨⟨q, List.mem_cons_of_mem _ hq, h1⟩, fun q hq => List.mem_cons_of_mem _ (h2 q hq)⟩
    · obtain ⟨⟨q, hq, h1⟩, h2⟩ := groups_mem h
      exact ⟨⟨q, List.mem_cons_of_mem _ hq, h1⟩, fun q hq => List.mem_cons_of_mem _ (h2 q hq)⟩

theorem pointwise_mem {α β : Type} {R : α → β → Prop} {l : List α} {m : List β} (h : Pointwise R l m) :
    ∀ b ∈ m, ∃ a ∈ l, R a b := by
  induction h with
  | nil => simp
  | cons h _ ih =>
    intro b hb
    rcases List.mem_cons.1 hb with rfl | hb
    · exact ⟨_, by simp, h⟩
    · obtain ⟨a, ha, hr⟩ := ih b hb
      exact ⟨a, List.mem_cons_of_mem _ ha, hr⟩

/-! ## The pairs of sections -/

/-- All parts of the sections are from the list, and what opens them too. -/
structure SectionsFrom (tvs : List TVPair) (r : Sections) : Prop where
  pairs : ∀ p ∈ r.pairs, p ∈ tvs
  snippets : ∀ s ∈ r.snippets, (⟨g!"SnippetSPDXID", s.id⟩ : TVPair) ∈ tvs ∧ ∀ p ∈ s.pairs, p ∈ tvs
  files : ∀ f ∈ fileSections r, (⟨g!"FileName", f.name⟩ : TVPair) ∈ tvs ∧ (∀ p ∈ f.pairs, p ∈ tvs) ∧
    ∀ s ∈ f.snippets, (⟨g!"SnippetSPDXID", s.id⟩ : TVPair) ∈ tvs ∧ ∀ p ∈ s.pairs, p ∈ tvs
  packages : ∀ s ∈ r.packages, (⟨g!"PackageName", s.name⟩ : TVPair) ∈ tvs ∧ ∀ p ∈ s.pairs, p ∈ tvs

theorem sectionsFrom_from {tvs : List TVPair} : ∀ ps : List TVPair, (∀ p ∈ ps, p ∈ tvs) → SectionsFrom tvs (sectionsFrom ps)
  | [], _ => ⟨by simp [sectionsFrom], by simp [sectionsFrom], by simp [sectionsFrom, fileSections], by simp [sectionsFrom]⟩
  | p :: ps, h => by
    have ih := sectionsFrom_from ps fun q hq => h q (List.mem_cons_of_mem _ hq)
    have hp := h p (by simp)
    have hf : ∀ f ∈ (sectionsFrom ps).files, f ∈ fileSections (sectionsFrom ps) := fun f hf => List.mem_append_left _ hf
    have hq : ∀ f ∈ (sectionsFrom ps).packages.flatMap (fun p => p.files), f ∈ fileSections (sectionsFrom ps) :=
      fun f hf => List.mem_append_right _ hf
    simp only [sectionsFrom]
    split
    · rename_i ht
      refine ⟨by simp, by simp, ?_, ?_⟩
      · intro f hm
        simp only [fileSections, List.nil_append, List.flatMap_cons] at hm
        exact ih.files f hm
      · intro s hs
        rcases List.mem_cons.1 hs with rfl | hs
        · exact ⟨by rw [← ht]; exact hp, ih.pairs⟩
        · exact ih.packages s hs
    · split
      · rename_i ht
        refine ⟨by simp, by simp, ?_, ih.packages⟩
        intro f hm
        simp only [fileSections, List.cons_append, List.mem_cons] at hm
        rcases hm with rfl | hm
        · exact ⟨by rw [← ht]; exact hp, ih.pairs, ih.snippets⟩
        · exact ih.files f hm
      · split
        · rename_i ht
          refine ⟨by simp, ?_, ih.files, ih.packages⟩
          intro s hs
          rcases List.mem_cons.1 hs with rfl | hs
          · exact ⟨by rw [← ht]; exact hp, ih.pairs⟩
          · exact ih.snippets s hs
        · refine ⟨?_, ih.snippets, ih.files, ih.packages⟩
          intro q hq
          rcases List.mem_cons.1 hq with rfl | hq
          · exact hp
          · exact ih.pairs q hq

theorem sectionsOf_from (tvs : List TVPair) : SectionsFrom tvs (sectionsOf tvs) :=
  sectionsFrom_from _ fun _ hp => (List.takeWhile_sublist _).mem hp

theorem mem_listed {α : Type} {pairs : α → List TVPair} {l : List α} {x : α} (h : x ∈ listed pairs l) :
    x ∈ l ∧ values g!"SPDXID" (pairs x) ≠ [] := by
  simp only [listed, List.mem_flatMap, List.mem_map] at h
  obtain ⟨y, hy, z, hz, rfl⟩ := h
  exact ⟨hy, List.ne_nil_of_mem hz⟩

/-! ## Savable pairs -/

section
variable {tvs : List TVPair} (hs : ∀ p ∈ tvs, SavablePair p)
include hs

theorem sv_text {p : TVPair} (hp : p ∈ tvs) : GoodValue p.value := (hs p hp).tidy

theorem sv_line {p : TVPair} (hp : p ∈ tvs) (ht : p.tag ∉ textTags) : OneLine p.value :=
  oneLine_of_good (hs p hp).tidy ((hs p hp).oneLine ht)

theorem sv_lastText (t : Str) {ps : List TVPair} (hps : ∀ p ∈ ps, p ∈ tvs) : GoodValue (lastValue t ps) :=
  lastValue_of sv_good_nil fun p hp _ => sv_text hs (hps p hp)

theorem sv_lastLine {t : Str} (ht : t ∉ textTags) {ps : List TVPair} (hps : ∀ p ∈ ps, p ∈ tvs) : OneLine (lastValue t ps) :=
  lastValue_of sv_oneLine_nil fun p hp e => sv_line hs (hps p hp) (e ▸ ht)

theorem sv_texts (t : Str) {ps : List TVPair} (hps : ∀ p ∈ ps, p ∈ tvs) : ∀ x ∈ values t ps, GoodValue x :=
  values_of fun p hp _ => sv_text hs (hps p hp)

theorem sv_lines {t : Str} (ht : t ∉ textTags) {ps : List TVPair} (hps : ∀ p ∈ ps, p ∈ tvs) : ∀ x ∈ values t ps, OneLine x :=
  values_of fun p hp e => sv_line hs (hps p hp) (e ▸ ht)

omit hs in
theorem sv_last {t : Str} {ps : List TVPair} (hps : ∀ p ∈ ps, p ∈ tvs) (hv : values t ps ≠ []) :
    (⟨t, lastValue t ps⟩ : TVPair) ∈ tvs := by
  obtain ⟨p, hp, rfl, e⟩ := mem_values.1 (lastValue_mem hv)
  rw [← e]
  exact hps p hp

/-- An identifier. -/
theorem sv_id {t text id : Str} (ht : t ∈ [g!"SPDXID", g!"SnippetSPDXID"]) (hp : (⟨t, text⟩ : TVPair) ∈ tvs)
    (h : IdReads text id) : Ident id := by
  obtain ⟨⟨h1, h2⟩, rfl⟩ := h
  have hl := sv_line hs hp (by revert ht; simp only [List.mem_cons, List.not_mem_nil, or_false]; rintro (rfl | rfl) <;> decide)
  have hc := (hs _ hp).solid (by revert ht; simp only [List.mem_cons, List.not_mem_nil, or_false]; rintro (rfl | rfl) <;> simp)
  exact ⟨⟨h1, solid_part (a := g!"SPDXRef-") (b := []) (by simp) ⟨hc, hl.2.2⟩⟩, h2⟩

omit hs in
theorem ref_rep {text : Str} {r : DocElementID} (h : Solid text) (hr : RefReads text r) : RepRef r := by
  obtain ⟨⟨⟨h1, h2⟩, h3, h4⟩, ⟨h5, rfl⟩ | ⟨h5, rfl⟩⟩ := hr
  · exact ⟨⟨⟨h1, solid_part (a := g!"SPDXRef-") (b := []) (by simp) h⟩, h2⟩, .inl h5, h4⟩
  · refine ⟨⟨⟨h1, solid_part (a := g!"DocumentRef-" ++ r.documentRefID ++ g!":SPDXRef-") (b := []) (by simp) h⟩, h2⟩,
      .inr ⟨⟨h5, solid_part (a := g!"DocumentRef-") (b := g!":SPDXRef-" ++ r.elementRefID) (by simp) h⟩, h3⟩, h4⟩

theorem sv_ref {t text : Str} {r : DocElementID} (ht : t ∈ [g!"SnippetFromFileSPDXID", g!"SPDXREF"])
    (hp : (⟨t, text⟩ : TVPair) ∈ tvs) (h : RefReads text r) : RepRef r := by
  have hl := sv_line hs hp (by revert ht; simp only [List.mem_cons, List.not_mem_nil, or_false]; rintro (rfl | rfl) <;> decide)
  have hc := (hs _ hp).solid (by revert ht; simp only [List.mem_cons, List.not_mem_nil, or_false]; rintro (rfl | rfl) <;> simp)
  exact ref_rep ⟨hc, hl.2.2⟩ h

theorem sv_colon {t text k x : Str} (ht : t ∈ [g!"Creator", g!"Annotator", g!"Reviewer", g!"PackageSupplier", g!"PackageOriginator",
    g!"PackageChecksum", g!"FileChecksum"]) (hp : (⟨t, text⟩ : TVPair) ∈ tvs) (h : ColonPair text k x) : Line1 x := by
  refine colon_named (sv_line hs hp ?_) ((hs _ hp).named ht) h
  revert ht
  simp only [List.mem_cons, List.not_mem_nil, or_false]
  rintro (rfl | rfl | rfl | rfl | rfl | rfl | rfl) <;> decide

theorem sv_words {t text w : Str} (ht : t ∈ [g!"Relationship", g!"ExternalRef", g!"ExternalDocumentRef"])
    (hp : (⟨t, text⟩ : TVPair) ∈ tvs) (hw : w ∈ wordsOf text) : Word w := by
  refine word_of_words (sv_line hs hp ?_) ((hs _ hp).spaces ht) hw
  revert ht
  simp only [List.mem_cons, List.not_mem_nil, or_false]
  rintro (rfl | rfl | rfl) <;> decide

theorem sv_party {t text k x : Str} (ht : t ∈ [g!"PackageSupplier", g!"PackageOriginator"])
    (hp : (⟨t, text⟩ : TVPair) ∈ tvs) (h : PartyReads text k x) : RepParty k x := by
  rcases h with ⟨h1, h2, h3⟩ | ⟨-, h2, h3⟩
  · exact .inr ⟨h2, h3.trans h1⟩
  · refine .inl ⟨h3, sv_colon hs ?_ hp h2⟩
    revert ht
    simp only [List.mem_cons, List.not_mem_nil, or_false]
    rintro (rfl | rfl) <;> simp

theorem sv_checksums {v : Version} {t : Str} (ht : t ∈ [g!"PackageChecksum", g!"FileChecksum"]) {ps : List TVPair}
    (hps : ∀ p ∈ ps, p ∈ tvs) {l : List Checksum} (h : Pointwise (ChecksumReads v) (values t ps) l) :
    ∀ c ∈ l, RepChecksum v c := by
  intro c hc
  obtain ⟨x, hx, h1, h2⟩ := pointwise_mem h c hc
  obtain ⟨p, hp, rfl, rfl⟩ := mem_values.1 hx
  refine ⟨h2, sv_colon hs ?_ (hps p hp) h1⟩
  revert ht
  simp only [List.mem_cons, List.not_mem_nil, or_false]
  rintro (h | h) <;> simp [h]

/-- A verification code. -/
theorem sv_code {text : Str} {c : VerificationCode} (hp : (⟨g!"PackageVerificationCode", text⟩ : TVPair) ∈ tvs)
    (h : CodeReads text c) : RepCode c := by
  have hl := sv_line hs hp (show g!"PackageVerificationCode" ∉ textTags by decide)
  have hne := (hs _ hp).code rfl c h
  rcases h with ⟨h1, rfl⟩ | ⟨code, rest, rfl, h1, rfl⟩
  · exact ⟨⟨hne, hl⟩, contains_false_iff.2 h1, .inl rfl⟩
  · refine ⟨⟨hne, oneLine_trim (a := []) (b := g!"(excludes:" ++ rest) (by simp) hl⟩, contains_trim (contains_false_iff.2 h1),
      .inr ⟨_, rfl, ?_, fun hm => ?_⟩⟩
    · refine oneLine_trim (a := code ++ g!"(excludes:") (b := rest.dropWhile fun x => x ≠ ')') ?_ hl
      simp only [List.append_assoc]
      rw [List.takeWhile_append_dropWhile]
    · have h1 := mem_of_mem_trim hm
      have h2 := List.all_takeWhile (p := fun x => decide (x ≠ ')')) (l := rest)
      rw [List.all_eq_true] at h2
      simpa using h2 _ h1

/-- An external reference. -/
theorem sv_externalRef {ps : List TVPair} (hps : ∀ p ∈ ps, p ∈ tvs) {g : Str × List TVPair} {r : PackageExternalRef}
    (hg : g ∈ groups g!"ExternalRef" ps) (h : ExternalRefReads g r) : RepRef3 r := by
  obtain ⟨⟨p, hp, h1, h2⟩, h3⟩ := groups_mem hg
  have hm : (⟨g!"ExternalRef", g.1⟩ : TVPair) ∈ tvs := by rw [← h1, ← h2]; exact hps p hp
  have hw : ∀ w ∈ wordsOf g.1, Word w := fun w hw => sv_words hs (by simp) hm hw
  rw [h.1] at hw
  exact ⟨hw _ (by simp), hw _ (by simp), hw _ (by simp),
    by rw [h.2]; exact sv_lastText hs _ fun q hq => hps q (h3 q hq)⟩

/-- A range. -/
theorem sv_range {p : TVPair} {r : SnippetRange} (hp : p ∈ tvs)
    (ht : p.tag = g!"SnippetByteRange" ∨ p.tag = g!"SnippetLineRange") (h : RangeReads p r) : RepRange r := by
  obtain ⟨a, b, i, j, h1, h2, h3, rfl⟩ := h
  obtain ⟨h4, h5⟩ := (hs p hp).range ht a b h1
  have hi : RepInt i := ⟨fun e => h4 (e ▸ h2), h2.1, h2.2.1⟩
  have hj : RepInt j := ⟨fun e => h5 (e ▸ h3), h3.1, h3.2.1⟩
  split
  · exact .inl ⟨hi, hj, rfl⟩
  · exact .inr ⟨hi, hj, rfl⟩

/-- A snippet section. -/
theorem sv_snippet {v : Version} (hv : v = .v21 → ∀ p ∈ tvs, p.tag ≠ g!"SnippetAttributionText") {s : SnippetSec} {x : Snippet}
    (hid : (⟨g!"SnippetSPDXID", s.id⟩ : TVPair) ∈ tvs) (hps : ∀ p ∈ s.pairs, p ∈ tvs)
    (hfrom : values g!"SnippetFromFileSPDXID" s.pairs ≠ []) (h : SnippetSectionSays s x) : RepSnippet v x where
  spdxId := sv_id hs (by simp) hid h.id
  fromFile := by
    have h1 := h.fromFile
    unfold LastReads at h1
    rw [if_neg hfrom] at h1
    obtain ⟨r, h2, h3⟩ := h1
    rw [h3]
    exact (sv_ref hs (t := g!"SnippetFromFileSPDXID") (by simp) (sv_last hps hfrom) h2).1
  ranges := by
    intro r hr
    obtain ⟨p, hp, h1⟩ := pointwise_mem h.ranges r hr
    simp only [List.mem_filter, decide_eq_true_eq] at hp
    exact sv_range hs (hps p hp.1) hp.2 h1
  licenseConcluded := by rw [h.licenseConcluded]; exact sv_lastLine hs (by decide) hps
  licenseInfo := by rw [h.licenseInfo]; exact sv_lines hs (by decide) hps
  licenseComments := by rw [h.licenseComments]; exact sv_lastText hs _ hps
  copyrightText := by rw [h.copyright]; exact sv_lastText hs _ hps
  comment := by rw [h.comment]; exact sv_lastText hs _ hps
  name := by rw [h.name]; exact sv_lastLine hs (by decide) hps
  attributionTexts := by rw [h.attributions]; exact sv_texts hs _ hps
  noAttribution21 := by
    intro e
    rw [h.attributions, List.eq_nil_iff_forall_not_mem]
    intro y hy
    obtain ⟨p, hp, ht, -⟩ := mem_values.1 hy
    exact hv e p (hps p hp) ht

/-- A file section. -/
theorem sv_file {v : Version} (hv : v = .v21 → ∀ p ∈ tvs, p.tag ≠ g!"SnippetAttributionText" ∧ p.tag ≠ g!"FileAttributionText")
    {s : FileSec} {f : FileV} (hname : (⟨g!"FileName", s.name⟩ : TVPair) ∈ tvs) (hps : ∀ p ∈ s.pairs, p ∈ tvs)
    (hsn : ∀ x ∈ s.snippets, (⟨g!"SnippetSPDXID", x.id⟩ : TVPair) ∈ tvs ∧ ∀ p ∈ x.pairs, p ∈ tvs)
    (hfrom : ∀ x ∈ s.snippets, values g!"SnippetFromFileSPDXID" x.pairs ≠ [])
    (hid : values g!"SPDXID" s.pairs ≠ []) (h : FileSectionSays v s f) : RepFile v f where
  name := by rw [h.fields.name]; exact ⟨(hs _ hname).given (by simp), sv_line hs hname (show g!"FileName" ∉ textTags by decide)⟩
  spdxId := by
    have h1 := h.fields.id
    unfold LastReads at h1
    rw [if_neg hid] at h1
    exact sv_id hs (t := g!"SPDXID") (by simp) (sv_last hps hid) h1
  types := by rw [h.fields.types]; exact sv_lines hs (by decide) hps
  checksums := sv_checksums hs (by simp) hps h.fields.checksums
  licenseConcluded := by rw [h.fields.licenseConcluded]; exact sv_lastLine hs (by decide) hps
  licenseInfoInFiles := by rw [h.fields.licenseInfo]; exact sv_lines hs (by decide) hps
  licenseComments := by rw [h.fields.licenseComments]; exact sv_lastText hs _ hps
  copyrightText := by rw [h.fields.copyright]; exact sv_lastText hs _ hps
  artifacts := by
    intro a ha
    rw [h.fields.artifacts, List.mem_map] at ha
    obtain ⟨g, hg, rfl⟩ := ha
    obtain ⟨⟨p, hp, h1, h2⟩, h3⟩ := groups_mem hg
    have h4 : ∀ q ∈ g.2, q ∈ tvs := fun q hq => hps q (h3 q hq)
    exact ⟨by rw [artifactOf, ← h2]; exact sv_line hs (hps p hp) (by rw [h1]; decide), sv_lastLine hs (by decide) h4,
      sv_lastLine hs (by decide) h4⟩
  comment := by rw [h.fields.comment]; exact sv_lastText hs _ hps
  notice := by rw [h.fields.notice]; exact sv_lastText hs _ hps
  contributors := by rw [h.fields.contributors]; exact sv_lines hs (by decide) hps
  attributionTexts := by rw [h.fields.attributions]; exact sv_texts hs _ hps
  noAttribution21 := by
    intro e
    rw [h.fields.attributions, List.eq_nil_iff_forall_not_mem]
    intro y hy
    obtain ⟨p, hp, ht, -⟩ := mem_values.1 hy
    exact (hv e p (hps p hp)).2 ht
  dependencies := by rw [h.fields.dependencies]; exact sv_lines hs (by decide) hps
  snippets := by
    rintro ⟨k, x⟩ hx
    obtain ⟨hn, xs, h1, h2⟩ := h.snippets
    have h3 : mapGet k f.snippets = some x := (mapGet_eq_some_iff hn).2 hx
    rw [h2 k] at h3
    have h4 := List.find?_some h3
    have h5 := List.mem_of_find?_eq_some h3
    simp only [decide_eq_true_eq] at h4
    obtain ⟨s', hs', h6⟩ := pointwise_mem h1 x (by simpa using h5)
    exact ⟨h4.symm, sv_snippet hs (fun e p hp => (hv e p hp).1) (hsn s' hs').1 (hsn s' hs').2 (hfrom s' hs') h6⟩
  snippetKeys := h.snippets.1
  noAnnotations := h.fields.annotations

/-- A package section. -/
theorem sv_package {v : Version} (hv : v = .v21 → ∀ p ∈ tvs, p.tag ≠ g!"PackageAttributionText")
    (hv3 : v ≠ .v23 → ∀ p ∈ tvs, p.tag ∉ [g!"PrimaryPackagePurpose", g!"ReleaseDate", g!"BuiltDate", g!"ValidUntilDate"])
    {s : PackageSec} {p : PackageV} (hname : (⟨g!"PackageName", s.name⟩ : TVPair) ∈ tvs) (hps : ∀ p ∈ s.pairs, p ∈ tvs)
    (hid : values g!"SPDXID" s.pairs ≠ [])
    (han : NotAnalyzed s.pairs → values g!"PackageVerificationCode" s.pairs = [] ∧ values g!"PackageLicenseInfoFromFiles" s.pairs = [])
    (hfiles : ∀ f ∈ p.files, RepFile v f) (h : PackageFields v s.name s.pairs p) : RepPackage v p where
  packaged := h.packaged
  name := by rw [h.name]; exact ⟨(hs _ hname).given (by simp), sv_line hs hname (show g!"PackageName" ∉ textTags by decide)⟩
  spdxId := by
    have h1 := h.id
    unfold LastReads at h1
    rw [if_neg hid] at h1
    exact sv_id hs (t := g!"SPDXID") (by simp) (sv_last hps hid) h1
  version := by rw [h.version]; exact sv_lastLine hs (by decide) hps
  fileName := by rw [h.fileName]; exact sv_lastLine hs (by decide) hps
  supplier := by
    intro x hx
    have h1 := h.supplier
    unfold LastReads at h1
    split at h1
    · rw [h1] at hx; cases hx
    · rename_i hne
      obtain ⟨y, h2, h3⟩ := h1
      rw [h2] at hx
      cases hx
      exact sv_party hs (t := g!"PackageSupplier") (by simp) (sv_last hps hne) h3
  originator := by
    intro x hx
    have h1 := h.originator
    unfold LastReads at h1
    split at h1
    · rw [h1] at hx; cases hx
    · rename_i hne
      obtain ⟨y, h2, h3⟩ := h1
      rw [h2] at hx
      cases hx
      exact sv_party hs (t := g!"PackageOriginator") (by simp) (sv_last hps hne) h3
  downloadLocation := by rw [h.downloadLocation]; exact sv_lastLine hs (by decide) hps
  filesAnalyzed := by
    intro e
    rw [h.analyzedGiven]
    intro e'
    have := h.analyzed.1 e
    rw [e'] at this
    cases this
  verificationCode := by
    intro c hc
    have h1 := h.code
    unfold LastReads at h1
    split at h1
    · rw [h1] at hc; cases hc
    · rename_i hne
      obtain ⟨y, h2, h3⟩ := h1
      rw [h2] at hc
      cases hc
      refine ⟨?_, sv_code hs (sv_last hps hne) h3⟩
      by_cases e : p.filesAnalyzed = true
      · exact e
      · exact absurd (han (h.analyzed.1 (by simpa using e))).1 hne
  checksums := sv_checksums hs (by simp) hps h.checksums
  homePage := by rw [h.homePage]; exact sv_lastLine hs (by decide) hps
  sourceInfo := by rw [h.sourceInfo]; exact sv_lastText hs _ hps
  licenseConcluded := by rw [h.licenseConcluded]; exact sv_lastLine hs (by decide) hps
  licenseInfoFromFiles := by rw [h.licenseInfo]; exact sv_lines hs (by decide) hps
  noLicenseInfo := by
    intro e
    rw [h.licenseInfo]
    exact (han (h.analyzed.1 e)).2
  licenseDeclared := by rw [h.licenseDeclared]; exact sv_lastLine hs (by decide) hps
  licenseComments := by rw [h.licenseComments]; exact sv_lastText hs _ hps
  copyrightText := by rw [h.copyright]; exact sv_lastText hs _ hps
  summary := by rw [h.summary]; exact sv_lastText hs _ hps
  description := by rw [h.description]; exact sv_lastText hs _ hps
  comment := by rw [h.comment]; exact sv_lastText hs _ hps
  externalRefs := by
    intro r hr
    obtain ⟨g, hg, h1⟩ := pointwise_mem h.externalRefs r hr
    exact sv_externalRef hs hps hg h1
  attributionTexts := by rw [h.attributions]; exact sv_texts hs _ hps
  noAttribution21 := by
    intro e
    rw [h.attributions, List.eq_nil_iff_forall_not_mem]
    intro y hy
    obtain ⟨p, hp, ht, -⟩ := mem_values.1 hy
    exact hv e p (hps p hp) ht
  primaryPurpose := by rw [h.purpose]; exact sv_lastLine hs (by decide) hps
  releaseDate := by rw [h.releaseDate]; exact sv_lastLine hs (by decide) hps
  builtDate := by rw [h.builtDate]; exact sv_lastLine hs (by decide) hps
  validUntilDate := by rw [h.validUntil]; exact sv_lastLine hs (by decide) hps
  only23 := by
    intro e
    have key : ∀ t ∈ [g!"PrimaryPackagePurpose", g!"ReleaseDate", g!"BuiltDate", g!"ValidUntilDate"], lastValue t s.pairs = [] := by
      intro t ht
      exact lastValue_of (P := (· = [])) rfl fun p hp e' => absurd (e' ▸ ht) (hv3 e p (hps p hp))
    rw [h.purpose, h.releaseDate, h.builtDate, h.validUntil]
    exact ⟨key _ (by simp), key _ (by simp), key _ (by simp), key _ (by simp)⟩
  files := hfiles
  noAnnotations := h.annotations

end

/-! ## The document -/

theorem legal_tag {v : Version} {tvs : List TVPair} (h : LegalText v tvs) {p : TVPair} (hp : p ∈ tvs) :
    ∃ pl, p.tag ∈ tagsAt v pl := by
  obtain ⟨a, b, e⟩ := List.append_of_mem hp
  exact ⟨_, (h a p b e).tag⟩

theorem legal_21 {v : Version} {tvs : List TVPair} (h : LegalText v tvs) (e : v = .v21) {p : TVPair} (hp : p ∈ tvs) {t : Str}
    (ht : t ∈ [g!"PackageAttributionText", g!"FileAttributionText", g!"SnippetAttributionText"]) : p.tag ≠ t := by
  rintro rfl
  subst e
  obtain ⟨pl, hm⟩ := legal_tag h hp
  revert ht
  simp only [List.mem_cons, List.not_mem_nil, or_false]
  rintro (e | e | e) <;> rw [e] at hm <;> revert hm <;> cases pl <;> decide

theorem legal_23 {v : Version} {tvs : List TVPair} (h : LegalText v tvs) (e : v ≠ .v23) {p : TVPair} (hp : p ∈ tvs) :
    p.tag ∉ [g!"PrimaryPackagePurpose", g!"ReleaseDate", g!"BuiltDate", g!"ValidUntilDate"] := by
  intro ht
  obtain ⟨pl, hm⟩ := legal_tag h hp
  revert ht
  simp only [List.mem_cons, List.not_mem_nil, or_false]
  rintro (e' | e' | e' | e') <;> rw [e'] at hm <;> revert hm e <;> cases v <;> cases pl <;> decide

theorem savable_named {tvs : List TVPair} (h : SavableText tvs) : PackagesNamed tvs :=
  fun p hp ht => (h.pairs p hp).given (by simp [ht])

/-- A document that a savable text describes can be represented. -/
theorem savable_representable {v : Version} {tvs : List TVPair} {d : Doc} (hs : SavableText tvs) (hl : LegalText v tvs)
    (h : TextSays v tvs d) : Representable v d where
  spdxVersion := by rw [h.document.version]; exact sv_lastLine hs.pairs (by decide) fun _ h => h
  dataLicense := by rw [h.document.license]; exact sv_lastLine hs.pairs (by decide) fun _ h => h
  spdxId := by
    have h1 := h.document.id
    split at h1
    · exact .inl h1
    · rename_i hne
      exact .inr (sv_id hs.pairs (t := g!"SPDXID") (by simp)
        (sv_last (fun _ hp => (List.takeWhile_sublist _).mem hp) hne) h1)
  name := by rw [h.document.name]; exact sv_lastLine hs.pairs (by decide) fun _ h => h
  namespace_ := by rw [h.document.namespace_]; exact sv_lastLine hs.pairs (by decide) fun _ h => h
  externalDocumentRefs := by
    intro e he
    obtain ⟨x, hx, h1⟩ := pointwise_mem h.document.externals e he
    obtain ⟨p, hp, ht, rfl⟩ := mem_values.1 hx
    have hm : (⟨g!"ExternalDocumentRef", p.value⟩ : TVPair) ∈ tvs := by rw [← ht]; exact hp
    have hw : ∀ w ∈ wordsOf p.value, Word w := fun w hw => sv_words hs.pairs (by simp) hm hw
    have ha := (hs.pairs p hp).algorithm ht e h1
    obtain ⟨h2, h3 | ⟨-, h3⟩⟩ := h1
    · rw [h3] at hw
      have g1 := hw _ (List.mem_cons_self)
      have g3 := hw (e.checksum.algorithm ++ g!":") (by simp)
      exact ⟨⟨h2, solid_part (a := g!"DocumentRef-") (b := []) (by simp) g1.2⟩, hw _ (by simp),
        ⟨solid_part (a := []) (b := g!":") (by simp) g3.2, ha⟩, (hw e.checksum.value (by simp)).2⟩
    · rw [h3] at hw
      have g1 := hw _ (List.mem_cons_self)
      have g3 := hw (e.checksum.algorithm ++ g!":" ++ e.checksum.value) (by simp)
      exact ⟨⟨h2, solid_part (a := g!"DocumentRef-") (b := []) (by simp) g1.2⟩, hw _ (by simp),
        ⟨solid_part (a := []) (b := g!":" ++ e.checksum.value) (by simp) g3.2, ha⟩,
        solid_part (a := e.checksum.algorithm ++ g!":") (b := []) (by simp) g3.2⟩
  comment := by rw [h.document.comment]; exact sv_lastText hs.pairs _ fun _ h => h
  creationInfo := by
    cases hc : d.creationInfo with
    | none =>
      exfalso
      have h1 := h.document.noCreation.1 hc
      have key : ∀ t, t ∉ headTags → values t tvs = [] := by
        intro t ht
        rw [List.eq_nil_iff_forall_not_mem]
        intro y hy
        obtain ⟨p, hp, e, -⟩ := mem_values.1 hy
        exact ht (e ▸ h1 p hp)
      rcases hs.creation with h2 | ⟨t, ht, h2⟩
      · exact h2 (key _ (by decide))
      · refine h2 ?_
        rw [lastValue, key t]
        · rfl
        · revert ht
          simp only [List.mem_cons, List.not_mem_nil, or_false]
          rintro (rfl | rfl | rfl) <;> decide
    | some c =>
      have h1 := h.document.creation c hc
      refine ⟨c, rfl, ?_, ?_, ?_, ?_, ?_⟩
      · rintro rfl
        rcases hs.creation with h2 | ⟨t, ht, h2⟩
        · have := h1.creators
          generalize values g!"Creator" tvs = l at this h2
          cases this
          exact h2 rfl
        · revert ht
          simp only [List.mem_cons, List.not_mem_nil, or_false]
          rintro (rfl | rfl | rfl)
          · exact h2 h1.licenseList.symm
          · exact h2 h1.created.symm
          · exact h2 h1.comment.symm
      · rw [h1.licenseList]; exact sv_lastLine hs.pairs (by decide) fun _ h => h
      · intro x hx
        obtain ⟨y, hy, h2, h3⟩ := pointwise_mem h1.creators x hx
        obtain ⟨p, hp, ht, rfl⟩ := mem_values.1 hy
        exact ⟨h3, sv_colon hs.pairs (t := p.tag) (by simp [ht]) hp h2⟩
      · rw [h1.created]; exact sv_lastLine hs.pairs (by decide) fun _ h => h
      · rw [h1.comment]; exact sv_lastText hs.pairs _ fun _ h => h
  packages := by
    intro p hp
    obtain ⟨s, hm, h1⟩ := pointwise_mem h.packages p hp
    obtain ⟨hm, hid⟩ := mem_listed hm
    obtain ⟨g1, g2⟩ := (sectionsOf_from tvs).packages s hm
    refine sv_package hs.pairs (fun e p hp => legal_21 hl e hp (by simp)) (fun e p hp => legal_23 hl e hp) g1 g2 hid
      (hs.analyzed s hm) ?_ h1.fields
    intro f hf
    obtain ⟨t, ht, h2⟩ := pointwise_mem h1.files f hf
    obtain ⟨ht, hid⟩ := mem_listed ht
    have ht : t ∈ fileSections (sectionsOf tvs) := List.mem_append_right _ (List.mem_flatMap.2 ⟨s, hm, ht⟩)
    obtain ⟨g1, g2, g3⟩ := (sectionsOf_from tvs).files t ht
    exact sv_file hs.pairs (fun e p hp => ⟨legal_21 hl e hp (by simp), legal_21 hl e hp (by simp)⟩) g1 g2 g3
      (hs.snippets t ht) hid h2
  files := by
    intro f hf
    obtain ⟨t, ht, h2⟩ := pointwise_mem h.files f hf
    obtain ⟨ht, hid⟩ := mem_listed ht
    have ht : t ∈ fileSections (sectionsOf tvs) := List.mem_append_left _ ht
    obtain ⟨g1, g2, g3⟩ := (sectionsOf_from tvs).files t ht
    exact sv_file hs.pairs (fun e p hp => ⟨legal_21 hl e hp (by simp), legal_21 hl e hp (by simp)⟩) g1 g2 g3
      (hs.snippets t ht) hid h2
  otherLicenses := by
    intro l hm
    obtain ⟨g, hg, h1⟩ := pointwise_mem h.document.licenses l hm
    obtain ⟨⟨p, hp, ht, e⟩, h3⟩ := groups_mem hg
    obtain ⟨h4, h5, h6, h7, h8⟩ := h1
    exact ⟨by rw [h4, ← e]; exact ⟨(hs.pairs p hp).given (by simp [ht]), sv_line hs.pairs hp (by rw [ht]; decide)⟩,
      by rw [h5]; exact sv_lastText hs.pairs _ h3, by rw [h6]; exact sv_lastLine hs.pairs (by decide) h3,
      by rw [h8]; exact sv_lines hs.pairs (by decide) h3, by rw [h7]; exact sv_lastText hs.pairs _ h3⟩
  relationships := by
    intro r hr
    obtain ⟨g, hg, h1⟩ := pointwise_mem h.document.relationships r hr
    obtain ⟨⟨p, hp, ht, e⟩, h3⟩ := groups_mem hg
    obtain ⟨⟨a, b, h4, h5, h6⟩, h7⟩ := h1
    have hm : (⟨g!"Relationship", g.1⟩ : TVPair) ∈ tvs := by rw [← ht, ← e]; exact hp
    have hw : ∀ w ∈ wordsOf g.1, Word w := fun w hw => sv_words hs.pairs (by simp) hm hw
    rw [h4] at hw
    refine ⟨ref_rep (hw a (by simp)).2 h5, ?_, hw _ (by simp), by rw [h7]; exact sv_lastText hs.pairs _ h3⟩
    rcases h6 with h6 | ⟨h6, h8 | h8, h9⟩
    · exact .inl (ref_rep (hw b (by simp)).2 h6)
    · exact .inr ⟨h6, .inl (by rw [h9, h8])⟩
    · exact .inr ⟨h6, .inr (by rw [h9, h8])⟩
  annotations := by
    intro a ha
    obtain ⟨g, hg, h1⟩ := pointwise_mem h.document.annotations a ha
    obtain ⟨⟨p, hp, ht, e⟩, h3⟩ := groups_mem hg
    obtain ⟨⟨h4, h5⟩, h6, h7, h8, h9⟩ := h1
    refine ⟨⟨h5, sv_colon hs.pairs (t := p.tag) (by simp [ht]) (by rw [← e] at h4; exact hp) (by rw [← e] at h4; exact h4)⟩,
      by rw [h6]; exact sv_lastLine hs.pairs (by decide) h3, by rw [h7]; exact sv_lastLine hs.pairs (by decide) h3, ?_,
      by rw [h8]; exact sv_lastText hs.pairs _ h3⟩
    split at h9
    · exact .inl h9
    · rename_i hne
      exact .inr (sv_ref hs.pairs (t := g!"SPDXREF") (by simp) (sv_last h3 hne) h9)
  noSnippets := h.document.snippets
  reviews := by
    intro a ha
    obtain ⟨g, hg, h1⟩ := pointwise_mem h.document.reviews a ha
    obtain ⟨⟨p, hp, ht, e⟩, h3⟩ := groups_mem hg
    obtain ⟨⟨h4, h5⟩, h6, h7⟩ := h1
    exact ⟨⟨h5, sv_colon hs.pairs (t := p.tag) (by simp [ht]) hp (by rw [← e] at h4; exact h4)⟩,
      by rw [h6]; exact sv_lastLine hs.pairs (by decide) h3, by rw [h7]; exact sv_lastText hs.pairs _ h3⟩

end Verif
