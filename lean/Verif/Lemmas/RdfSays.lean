import Verif.Spec.RdfSays
import Verif.Lemmas.Meaning
import Verif.Lemmas.RdfPure
import Verif.Lemmas.RemoveAll

/-!
# The reader's functions for small elements compute what the statements say
-/

namespace Verif
open Spec Spec.Rdf

/-! ## Lists of statements -/

theorem vals_snoc (ts : List Triple) (t : Triple) (p : Pred) :
    vals (ts ++ [t]) p = vals ts p ++ if t.pred = p then [t.object] else [] := by
  unfold vals
  rw [List.filter_append, List.map_append]
  congr 1
  by_cases h : t.pred = p <;> simp [h]

theorem vals_snoc_same {ts : List Triple} {t : Triple} {p : Pred} (h : t.pred = p) :
    vals (ts ++ [t]) p = vals ts p ++ [t.object] := by rw [vals_snoc]; simp [h]

theorem vals_snoc_other {ts : List Triple} {t : Triple} {p : Pred} (h : t.pred ≠ p) :
    vals (ts ++ [t]) p = vals ts p := by rw [vals_snoc]; simp [h]

theorem vals_append (ts us : List Triple) (p : Pred) : vals (ts ++ us) p = vals ts p ++ vals us p := by
  simp [vals]

theorem Spec.Rdf.Only.snoc {ts : List Triple} {t : Triple} {ps : List Pred} (h : Only ts ps) (ht : t.pred ∈ ps) : Only (ts ++ [t]) ps := by
  intro u hu
  rcases List.mem_append.1 hu with hu | hu
  · exact h u hu
  · rw [List.mem_singleton.1 hu]; exact ht

theorem Spec.Rdf.Only.nil {ps : List Pred} : Only [] ps := by intro u hu; simp at hu

theorem mem_vals {ts : List Triple} {t : Triple} (h : t ∈ ts) : t.object ∈ vals ts t.pred :=
  List.mem_map.2 ⟨t, List.mem_filter.2 ⟨h, by simp⟩, rfl⟩

section
variable {α β : Type} {R : α → β → Prop}

theorem Spec.Pointwise.image {l : List α} {m : List β} (h : Pointwise R l m) {a : α} (ha : a ∈ l) : ∃ b ∈ m, R a b := by
  induction h with
  | nil => simp at ha
  | cons h1 _ ih =>
    rcases List.mem_cons.1 ha with rfl | ha
    · exact ⟨_, by simp, h1⟩
    · obtain ⟨b, hb, hr⟩ := ih ha
      exact ⟨b, by simp [hb], hr⟩

theorem Spec.Pointwise.source {l : List α} {m : List β} (h : Pointwise R l m) {b : β} (hb : b ∈ m) : ∃ a ∈ l, R a b := by
  induction h with
  | nil => simp at hb
  | cons h1 _ ih =>
    rcases List.mem_cons.1 hb with rfl | hb
    · exact ⟨_, by simp, h1⟩
    · obtain ⟨a, ha, hr⟩ := ih hb
      exact ⟨a, by simp [ha], hr⟩

theorem Spec.Pointwise.unique (hR : ∀ a b b', R a b → R a b' → b = b') {l : List α} {m m' : List β} (h : Pointwise R l m)
    (h' : Pointwise R l m') : m = m' := by
  induction h generalizing m' with
  | nil => cases h'; rfl
  | cons h1 _ ih =>
    cases h' with
    | cons h2 h3 => rw [hR _ _ _ h1 h2, ih h3]

theorem Spec.Pointwise.imp {R' : α → β → Prop} (hR : ∀ a b, R a b → R' a b) {l : List α} {m : List β} (h : Pointwise R l m) :
    Pointwise R' l m := by
  induction h with
  | nil => exact .nil
  | cons h1 _ ih => exact .cons (hR _ _ h1) ih

theorem Spec.Pointwise.append {l l' : List α} {m m' : List β} (h : Pointwise R l m) (h' : Pointwise R l' m') :
    Pointwise R (l ++ l') (m ++ m') := by
  induction h with
  | nil => exact h'
  | cons h1 _ ih => exact .cons h1 ih

end

section
variable {α : Type} {R : RNode → α → Prop}

theorem Spec.Rdf.LastOf.nil {z : α} : LastOf R z [] z := ⟨[], .nil, rfl⟩
theorem Spec.Rdf.EachOf.nil : EachOf R [] [] := Pointwise.nil

theorem Spec.Rdf.LastOf.snoc {z x y : α} {vs : List RNode} {n : RNode} (h : LastOf R z vs y) (hx : R n x) : LastOf R z (vs ++ [n]) x := by
  obtain ⟨xs, hp, _⟩ := h
  exact ⟨xs ++ [x], hp.snoc hx, by simp⟩

theorem Spec.Rdf.EachOf.snoc {xs : List α} {x : α} {vs : List RNode} {n : RNode} (h : EachOf R vs xs) (hx : R n x) :
    EachOf R (vs ++ [n]) (xs ++ [x]) := Pointwise.snoc h hx

theorem Spec.Rdf.LastOf.legal {z x : α} {vs : List RNode} (h : LastOf R z vs x) {n : RNode} (hn : n ∈ vs) : ∃ y, R n y := by
  obtain ⟨xs, hp, _⟩ := h
  obtain ⟨y, _, hy⟩ := hp.image hn
  exact ⟨y, hy⟩

theorem Spec.Rdf.EachOf.legal {xs : List α} {vs : List RNode} (h : EachOf R vs xs) {n : RNode} (hn : n ∈ vs) : ∃ y, R n y := by
  obtain ⟨y, _, hy⟩ := Pointwise.image h hn
  exact ⟨y, hy⟩

theorem Spec.Rdf.LastOf.unique (hR : ∀ a b b', R a b → R a b' → b = b') {z x x' : α} {vs : List RNode} (h : LastOf R z vs x)
    (h' : LastOf R z vs x') : x = x' := by
  obtain ⟨xs, hp, e⟩ := h
  obtain ⟨xs', hp', e'⟩ := h'
  rw [e, e', hp.unique hR hp']

theorem Spec.Rdf.EachOf.unique (hR : ∀ a b b', R a b → R a b' → b = b') {xs xs' : List α} {vs : List RNode} (h : EachOf R vs xs)
    (h' : EachOf R vs xs') : xs = xs' := Pointwise.unique hR h h'

theorem Spec.Rdf.LastOf.imp {R' : RNode → α → Prop} (hR : ∀ n x, R n x → R' n x) {z x : α} {vs : List RNode} (h : LastOf R z vs x) :
    LastOf R' z vs x := by
  obtain ⟨xs, hp, e⟩ := h
  exact ⟨xs, hp.imp hR, e⟩

theorem Spec.Rdf.EachOf.imp {R' : RNode → α → Prop} (hR : ∀ n x, R n x → R' n x) {xs : List α} {vs : List RNode} (h : EachOf R vs xs) :
    EachOf R' vs xs := Pointwise.imp hR h

theorem text_unique : ∀ (n : RNode) (x x' : Str), Text n x → Text n x' → x = x' := fun _ _ _ h h' => h.trans h'.symm

/-- Uniqueness from a function. -/
theorem unique_of {f : RNode → Res α} (h : ∀ n x, R n x ↔ f n = .ok x) : ∀ n x x', R n x → R n x' → x = x' := by
  intro n x x' h1 h2
  rw [h] at h1 h2
  rw [h1] at h2
  injection h2

end

/-! ## Loops over statements -/

theorem foldTriples_append {α : Type} (step : α → Triple → Res α) : ∀ (ts us : List Triple) (a : α),
    foldTriples step a (ts ++ us) = (foldTriples step a ts >>= fun b => foldTriples step b us)
  | [], us, a => rfl
  | t :: ts, us, a => by
    simp only [List.cons_append, foldTriples]
    cases step a t with
    | ok b => exact foldTriples_append step ts us b
    | err => rfl
    | panic => rfl

/-- The loop computes what is said if each of its steps takes one more statement into account. -/
theorem fold_says {α : Type} {step : α → Triple → Res α} {S : List Triple → α → Prop}
    (hs : ∀ ts t a b, S ts a → step a t = .ok b → S (ts ++ [t]) b) :
    ∀ (us ts : List Triple) (a b : α), S ts a → foldTriples step a us = .ok b → S (ts ++ us) b
  | [], ts, a, b, h, e => by
    simp only [foldTriples, Res.ok.injEq] at e
    subst e
    simpa using h
  | t :: us, ts, a, b, h, e => by
    simp only [foldTriples] at e
    rw [bind_eq_ok] at e
    obtain ⟨a', e1, e2⟩ := e
    have := fold_says hs us (ts ++ [t]) a' b (hs ts t a a' h e1) e2
    simpa using this

theorem fold_total {α : Type} {step : α → Triple → Res α} : ∀ (ts : List Triple) (a : α),
    (∀ t ∈ ts, ∀ a, ∃ b, step a t = .ok b) → ∃ b, foldTriples step a ts = .ok b
  | [], a, _ => ⟨a, rfl⟩
  | t :: ts, a, h => by
    obtain ⟨b, e⟩ := h t (by simp) a
    simp only [foldTriples, e]
    exact fold_total ts b fun u hu => h u (by simp [hu])

/-! ## Values -/

theorem last_sep (c : Char) : ∀ s : Str, c ∉ s ∨ ∃ p t, s = p ++ c :: t ∧ c ∉ t
  | [] => .inl (by simp)
  | x :: s => by
    rcases last_sep c s with h | ⟨p, t, h, ht⟩
    · by_cases hx : x = c
      · exact .inr ⟨[], s, by simp [hx], h⟩
      · exact .inl (by simp [h, Ne.symm hx])
    · exact .inr ⟨x :: p, t, by simp [h], ht⟩

theorem getLastD_splitChar {c : Char} {s t : Str} :
    (splitChar c s).getLastD [] = t ↔ c ∉ t ∧ (s = t ∨ ∃ p, s = p ++ c :: t) := by
  have back : ∀ t, c ∉ t ∧ (s = t ∨ ∃ p, s = p ++ c :: t) → (splitChar c s).getLastD [] = t := by
    rintro t ⟨hn, rfl | ⟨p, rfl⟩⟩
    · rw [splitChar_of_not_mem hn]; rfl
    · rw [splitChar_append, splitChar_of_not_mem hn]
      simp [List.getLastD_eq_getLast?]
  refine ⟨fun h => ?_, back t⟩
  have : ∃ t', c ∉ t' ∧ (s = t' ∨ ∃ p, s = p ++ c :: t') := by
    rcases last_sep c s with h | ⟨p, t', h, ht⟩
    · exact ⟨s, h, .inl rfl⟩
    · exact ⟨t', ht, .inr ⟨p, h⟩⟩
  obtain ⟨t', ht⟩ := this
  rw [← h, back t' ht]
  exact ht

theorem lastPart_iff (uri part : Str) : LastPart uri part ↔ lastPart uri = part := by
  unfold LastPart lastPart
  by_cases hc : contains g!"#" uri = true
  · have hm : '#' ∈ uri := contains_single.1 hc
    rw [if_pos hc, getLastD_splitChar]
    constructor
    · rintro (⟨h, p, e⟩ | ⟨h, _⟩)
      · exact ⟨h, .inr ⟨p, e⟩⟩
      · exact absurd hm h
    · rintro ⟨h, rfl | h'⟩
      · exact absurd hm h
      · exact .inl ⟨h, h'⟩
  · have hm : '#' ∉ uri := fun h => hc (contains_single.2 h)
    rw [if_neg hc, getLastD_splitChar]
    constructor
    · rintro (⟨h, p, e⟩ | ⟨_, ⟨h, p, e⟩ | ⟨h, e⟩⟩)
      · exact absurd (by rw [e]; simp) hm
      · exact ⟨h, .inr ⟨p, e⟩⟩
      · exact ⟨e ▸ h, .inl e.symm⟩
    · rintro ⟨h, e | h'⟩
      · exact .inr ⟨hm, .inr ⟨e ▸ h, e.symm⟩⟩
      · exact .inr ⟨hm, .inl ⟨h, h'⟩⟩

theorem colonPair_iff {value k x : Str} : extractSubs g!":" value = .ok (k, x) ↔ ColonPair value k x := by
  refine ⟨colonPair_of, ?_⟩
  rintro ⟨a, b, rfl, hn, rfl, rfl⟩
  unfold extractSubs
  rw [show (a ++ g!":" ++ b : Str) = a ++ ':' :: b by simp, cut_single hn]

theorem agent_iff {value k x : Str} : (extractSubs g!":" value = .ok (k, x) ∧ (k = g!"Person" ∨ k = g!"Organization" ∨ k = g!"Tool")) ↔
    AgentText value k x := by
  rw [colonPair_iff]
  simp [AgentText, agentKinds]

theorem annotator_iff (n : RNode) (a : Annotator) : AnnotatorSays n a ↔ annotatorOf n.id = .ok a := by
  unfold AnnotatorSays annotatorOf
  rw [← agent_iff, bind_eq_ok]
  constructor
  · rintro ⟨h, hk⟩
    exact ⟨_, h, by simp [hk]⟩
  · rintro ⟨⟨k, x⟩, h, e⟩
    simp only at e
    split at e
    · simp only [Res.ok.injEq] at e
      subst e
      exact ⟨h, ‹_›⟩
    · simp at e

theorem creator_iff (n : RNode) (a : Creator) : CreatorSays n a ↔ creatorOf n.id = .ok a := by
  unfold CreatorSays creatorOf
  rw [← agent_iff, bind_eq_ok]
  constructor
  · rintro ⟨h, hk⟩
    exact ⟨_, h, by simp [hk]⟩
  · rintro ⟨⟨k, x⟩, h, e⟩
    simp only at e
    split at e
    · simp only [Res.ok.injEq] at e
      subst e
      exact ⟨h, ‹_›⟩
    · simp at e

theorem reviewer_iff (n : RNode) (p : Str × Str) : ReviewerSays n p ↔ extractSubs g!":" n.id = .ok p := by
  unfold ReviewerSays
  rw [← colonPair_iff]

theorem supplier_iff (n : RNode) (s : Supplier) : SupplierSays n s ↔ supplierOf n.id = .ok s := by
  unfold SupplierSays supplierOf
  simp only
  rw [← colonPair_iff]
  split
  · rename_i h
    simp only [h, true_and, not_true_eq_false, ne_eq, false_and, or_false, Res.ok.injEq]
    constructor
    · rintro ⟨h1, h2⟩; cases s; simp_all
    · rintro rfl; exact ⟨rfl, rfl⟩
  · rename_i h
    simp only [h, false_and, ne_eq, not_false_eq_true, true_and, false_or]
    rw [bind_eq_ok]
    constructor
    · rintro ⟨h, hk⟩
      exact ⟨_, h, if_pos (by simpa only [List.mem_cons, List.not_mem_nil, or_false] using hk)⟩
    · rintro ⟨⟨k, x⟩, h, e⟩
      simp only at e
      split at e
      · rename_i hk
        simp only [Res.ok.injEq] at e
        subst e
        exact ⟨h, by simpa using hk⟩
      · simp at e

theorem originator_iff (n : RNode) (s : Originator) : OriginatorSays n s ↔ originatorOf n.id = .ok s := by
  unfold OriginatorSays originatorOf
  simp only
  rw [← colonPair_iff]
  split
  · rename_i h
    simp only [h, true_and, not_true_eq_false, ne_eq, false_and, or_false, Res.ok.injEq]
    constructor
    · rintro ⟨h1, h2⟩; cases s; simp_all
    · rintro rfl; exact ⟨rfl, rfl⟩
  · rename_i h
    simp only [h, false_and, ne_eq, not_false_eq_true, true_and, false_or]
    rw [bind_eq_ok]
    constructor
    · rintro ⟨h, hk⟩
      exact ⟨_, h, if_pos (by simpa only [List.mem_cons, List.not_mem_nil, or_false] using hk)⟩
    · rintro ⟨⟨k, x⟩, h, e⟩
      simp only at e
      split at e
      · rename_i hk
        simp only [Res.ok.injEq] at e
        subst e
        exact ⟨h, by simpa using hk⟩
      · simp at e

theorem algorithm_iff (n : RNode) (a : Str) : AlgorithmSays n a ↔ algorithmOf n.id = .ok a := by
  unfold AlgorithmSays algorithmOf
  simp only [lastPart_iff]
  have low : ∀ x ∈ algorithmNames, toUpper (toLower x) = x := by decide
  have up : ∀ x ∈ algorithmNames, toLower x ∈ [g!"md2", g!"md4", g!"md5", g!"md6", g!"sha1", g!"sha224", g!"sha256", g!"sha384", g!"sha512"] := by decide
  have back : ∀ x ∈ [g!"md2", g!"md4", g!"md5", g!"md6", g!"sha1", g!"sha224", g!"sha256", g!"sha384", g!"sha512"],
      toUpper x ∈ algorithmNames ∧ toLower (toUpper x) = x := by decide
  constructor
  · rintro ⟨ha, x, e, hx⟩
    rw [e]
    simp only [hasPrefix_append, trimPrefix_append, hx, Bool.not_true, Bool.false_eq_true, if_false, List.contains_iff_mem]
    rw [if_pos (up a ha), low a ha]
  · intro h
    by_cases hp : hasPrefix g!"checksumAlgorithm_" (lastPart n.id) = true
    · obtain ⟨x, e⟩ := hasPrefix_iff.1 hp
      rw [e] at h
      simp only [hasPrefix_append, trimPrefix_append, Bool.not_true, Bool.false_eq_true, if_false, List.contains_iff_mem] at h
      split at h
      · rename_i hm
        simp only [Res.ok.injEq] at h
        subst h
        exact ⟨(back _ hm).1, x, e, (back _ hm).2.symm⟩
      · simp at h
    · simp [hp] at h

theorem annotationType_iff (n : RNode) (x : Str) : AnnotationTypeSays n x ↔ annotationTypeOf n.id = .ok x := by
  have h : annotationTypeOther ≠ annotationTypeReview := by decide
  unfold annotationTypeOf
  change (n.id, x) ∈ [(annotationTypeOther, g!"OTHER"), (annotationTypeReview, g!"REVIEW")] ↔ _
  generalize annotationTypeOther = a at *
  generalize annotationTypeReview = b at *
  simp only [List.mem_cons, Prod.mk.injEq, List.not_mem_nil, or_false]
  constructor
  · rintro (⟨e, rfl⟩ | ⟨e, rfl⟩)
    · rw [if_pos e]
    · rw [if_neg (fun h' : n.id = _ => h (h'.symm.trans e)), if_pos e]
  · intro e
    split at e
    · injection e with e; exact .inl ⟨‹_›, e.symm⟩
    · split at e
      · injection e with e; exact .inr ⟨‹_›, e.symm⟩
      · cases e

theorem category_iff (n : RNode) (x : Str) : CategorySays n x ↔ referenceCategoryOf n.id = .ok x := by
  have h1 : referenceCategorySecurity ≠ referenceCategoryPackageManager := by decide
  have h2 : referenceCategorySecurity ≠ referenceCategoryOther := by decide
  have h3 : referenceCategoryPackageManager ≠ referenceCategoryOther := by decide
  unfold referenceCategoryOf
  change (n.id, x) ∈ [(referenceCategorySecurity, g!"SECURITY"), (referenceCategoryPackageManager, g!"PACKAGE-MANAGER"),
    (referenceCategoryOther, g!"OTHER")] ↔ _
  generalize referenceCategorySecurity = a at *
  generalize referenceCategoryPackageManager = b at *
  generalize referenceCategoryOther = c at *
  simp only [List.mem_cons, Prod.mk.injEq, List.not_mem_nil, or_false]
  constructor
  · rintro (⟨e, rfl⟩ | ⟨e, rfl⟩ | ⟨e, rfl⟩)
    · rw [if_pos e]
    · rw [if_neg (fun h' : n.id = _ => h1 (h'.symm.trans e)), if_pos e]
    · rw [if_neg (fun h' : n.id = _ => h2 (h'.symm.trans e)), if_neg (fun h' : n.id = _ => h3 (h'.symm.trans e)), if_pos e]
  · intro e
    split at e
    · injection e with e; exact .inl ⟨‹_›, e.symm⟩
    · split at e
      · injection e with e; exact .inr (.inl ⟨‹_›, e.symm⟩)
      · split at e
        · injection e with e; exact .inr (.inr ⟨‹_›, e.symm⟩)
        · cases e

theorem location_iff (g : Graph) (n : RNode) (x : Str) : LocationSays g n x ↔ locationOf g n.id = .ok x := by
  have h1 : n.id ∈ noassertionNames ↔ (n.id = spdxNoassertionCaps ∨ n.id = spdxNoassertionSmall) := by
    simp [noassertionNames, spdxNoassertionCaps, spdxNoassertionSmall]
  have h2 : n.id ∈ noneNames ↔ (n.id = spdxNoneCaps ∨ n.id = spdxNoneSmall) := by
    simp [noneNames, spdxNoneCaps, spdxNoneSmall]
  have h3 : n.id ∈ noneNames → n.id ∉ noassertionNames := by
    intro h h'
    simp only [noneNames, noassertionNames, List.mem_cons, List.not_mem_nil, or_false] at h h'
    rcases h with h | h <;> rcases h' with h' | h' <;> (rw [h] at h'; revert h'; decide)
  unfold LocationSays locationOf
  simp only [← h1, ← h2]
  clear h1 h2
  constructor
  · rintro (⟨h, rfl⟩ | ⟨h, rfl⟩ | ⟨h, h', hu, rfl⟩)
    · rw [if_pos h]
    · rw [if_neg (h3 h), if_pos h]
    · rw [if_neg h, if_neg h', if_pos hu]
  · intro e
    split at e
    · injection e with e; exact .inl ⟨‹_›, e.symm⟩
    · split at e
      · injection e with e; exact .inr (.inl ⟨‹_›, e.symm⟩)
      · split at e
        · injection e with e; exact .inr (.inr ⟨‹_›, ‹_›, ‹_›, e.symm⟩)
        · cases e

theorem bool_iff (n : RNode) (b : Bool) : BoolSays n b ↔ boolOf n.id = .ok b := by
  have h : (g!"false" : Str) ≠ g!"true" := by decide
  unfold BoolSays boolOf
  generalize (g!"false" : Str) = f at *
  generalize (g!"true" : Str) = t at *
  constructor
  · intro e
    cases b with
    | true => rw [if_pos rfl] at e; rw [if_pos e]
    | false =>
      rw [if_neg Bool.false_ne_true] at e
      rw [if_neg (fun h' : toLower n.id = _ => h (e.symm.trans h')), if_pos e]
  · intro e
    split at e
    · injection e with e; subst e; assumption
    · split at e
      · injection e with e; subst e; assumption
      · cases e

theorem fileType_iff (n : RNode) (x : Str) : FileTypeSays n x ↔ fileTypeOf n.id = .ok x := by
  unfold FileTypeSays fileTypeOf
  rw [lastPart_iff]
  generalize (g!"fileType_" : Str) = p
  constructor
  · intro h; rw [h]; simp
  · intro h
    by_cases hp : hasPrefix p (lastPart n.id) = true
    · obtain ⟨y, e⟩ := hasPrefix_iff.1 hp
      rw [e] at h ⊢
      simp only [hasPrefix_append, trimPrefix_append, Bool.not_true, Bool.false_eq_true, if_false, Res.ok.injEq] at h
      rw [h]
    · simp [hp] at h

theorem notice_iff (n : RNode) (x : Str) : NoticeSays n x ↔ noticeOf n.id = x := by
  unfold NoticeSays noticeOf
  have h1 : n.id ∈ noassertionNames ↔ (n.id = spdxNoassertionCaps ∨ n.id = spdxNoassertionSmall) := by
    simp [noassertionNames, spdxNoassertionCaps, spdxNoassertionSmall]
  simp only [h1]
  exact eq_comm

theorem licenseName_iff (n : RNode) (x : Str) : LicenseNameSays n x ↔ licenseOfURI n.id = x := by
  unfold LicenseNameSays licenseOfURI
  simp only [lastPart_iff]
  constructor
  · rintro ⟨e, rfl, ⟨h, rfl⟩ | ⟨h, rfl⟩⟩
    · rw [if_pos (by simpa using h)]
    · rw [if_neg (by simpa using h)]
  · intro h
    refine ⟨_, rfl, ?_⟩
    split at h
    · exact .inl ⟨by simpa using ‹_›, h.symm⟩
    · rename_i hn
      exact .inr ⟨by simpa using hn, h.symm⟩

theorem leavesOut_iff (s r : Str) : LeavesOut g!"packagePurpose_" s r ↔ removeAll g!"packagePurpose_" 0 s = r :=
  (removeAll_iff (w := g!"packagePurpose") (d := '_') (by decide) s r).symm

theorem purposeNames_iff (y : Str) : y ∈ purposeNames ↔ y ∈ packagePurposes := by
  constructor
  · exact (by decide : ∀ z ∈ purposeNames, z ∈ packagePurposes) y
  · exact (by decide : ∀ z ∈ packagePurposes, z ∈ purposeNames) y

theorem purpose_iff (n : RNode) (x : Str) : PurposeSays n x ↔ purposeOf n.id = x := by
  unfold PurposeSays purposeOf
  simp only [leavesOut_iff, List.contains_iff_mem, purposeNames_iff, replaceChar]
  constructor
  · rintro ⟨r, rfl, ⟨h, rfl⟩ | ⟨h, rfl⟩⟩
    · rw [if_pos h]
    · rw [if_neg h]
  · intro h
    refine ⟨_, rfl, ?_⟩
    split at h
    · exact .inl ⟨‹_›, h.symm⟩
    · exact .inr ⟨‹_›, h.symm⟩

/-! ## Small elements -/

/-- One more statement: the field of its property gets its value, the other fields stay. -/
macro "says_step" hp:ident : tactic => `(tactic|
  first
    | assumption
    | exact Only.snoc (by assumption) (by rw [$hp:ident]; simp)
    | (rw [vals_snoc_other (by rw [$hp:ident]; simp)]; assumption)
    | (rw [vals_snoc_same $hp]; first
        | exact LastOf.snoc (by assumption) rfl
        | exact LastOf.snoc (by assumption) (by assumption)
        | exact EachOf.snoc (by assumption) rfl
        | exact EachOf.snoc (by assumption) (by assumption)))

theorem checksumStep_says {ts : List Triple} {t : Triple} {c c' : Checksum} (h : ChecksumSays ts c)
    (e : checksumStep c t = .ok c') : ChecksumSays (ts ++ [t]) c' := by
  obtain ⟨h1, h2, h3⟩ := h
  unfold checksumStep at e
  cases hp : t.pred <;> simp only [hp, bind_eq_ok, Res.ok.injEq, reduceCtorEq, ← algorithm_iff] at e <;>
    (first | subst e | (obtain ⟨x, hx, rfl⟩ := e)) <;> constructor <;> says_step hp

theorem annotationStep_says {ts : List Triple} {t : Triple} {c c' : Annotation} (h : AnnotationSays ts c)
    (e : annotationStep c t = .ok c') : AnnotationSays (ts ++ [t]) c' := by
  obtain ⟨h1, h2, h3, h4, h5, h6⟩ := h
  unfold annotationStep at e
  cases hp : t.pred <;> simp only [hp, bind_eq_ok, Res.ok.injEq, reduceCtorEq, ← annotator_iff, ← annotationType_iff] at e <;>
    (first | subst e | (obtain ⟨x, hx, rfl⟩ := e)) <;> constructor <;> says_step hp

theorem reviewStep_says {ts : List Triple} {t : Triple} {c c' : Review} (h : ReviewSays ts c)
    (e : reviewStep c t = .ok c') : ReviewSays (ts ++ [t]) c' := by
  obtain ⟨h1, h2, h3, h4⟩ := h
  unfold reviewStep at e
  cases hp : t.pred <;> simp only [hp, bind_eq_ok, Res.ok.injEq, reduceCtorEq, ← reviewer_iff] at e <;>
    (first | subst e | (obtain ⟨x, hx, rfl⟩ := e)) <;> constructor <;> says_step hp

theorem creationStep_says {ts : List Triple} {t : Triple} {c c' : CreationInfo} (h : Rdf.CreationSays ts c)
    (e : creationStep c t = .ok c') : Rdf.CreationSays (ts ++ [t]) c' := by
  obtain ⟨h1, h2, h3, h4, h5⟩ := h
  unfold creationStep at e
  cases hp : t.pred <;> simp only [hp, bind_eq_ok, Res.ok.injEq, reduceCtorEq, ← creator_iff] at e <;>
    (first | subst e | (obtain ⟨x, hx, rfl⟩ := e)) <;> constructor <;> says_step hp

theorem externalRefStep_says {ts : List Triple} {t : Triple} {c c' : PackageExternalRef} (h : ExternalRefSays ts c)
    (e : externalRefStep c t = .ok c') : ExternalRefSays (ts ++ [t]) c' := by
  obtain ⟨h1, h2, h3, h4, h5⟩ := h
  unfold externalRefStep at e
  cases hp : t.pred <;> simp only [hp, bind_eq_ok, Res.ok.injEq, reduceCtorEq, ← category_iff] at e <;>
    (first | subst e | (obtain ⟨x, hx, rfl⟩ := e)) <;> constructor <;> says_step hp

theorem verificationStep_says {ts : List Triple} {t : Triple} {c c' : VerificationCode} (h : VerificationSays ts c)
    (e : verificationStep c t = .ok c') : VerificationSays (ts ++ [t]) c' := by
  obtain ⟨h1, h2, h3⟩ := h
  unfold verificationStep at e
  cases hp : t.pred <;> simp only [hp, Res.ok.injEq, reduceCtorEq] at e <;>
    subst e <;> constructor <;> says_step hp

theorem artifactStep_says {n : RNode} {ts : List Triple} {t : Triple} {c c' : ArtifactOfProject} (h : ArtifactSays n ts c)
    (e : artifactStep c t = .ok c') : ArtifactSays n (ts ++ [t]) c' := by
  obtain ⟨h1, h2, h3, h4⟩ := h
  unfold artifactStep at e
  cases hp : t.pred <;> simp only [hp, Res.ok.injEq, reduceCtorEq] at e <;>
    subst e <;> constructor <;> says_step hp

/-- The loop computes exactly what is said. -/
theorem fold_iff {α : Type} {step : α → Triple → Res α} {S : List Triple → α → Prop} {z : α} (h0 : S [] z)
    (hs : ∀ ts t a b, S ts a → step a t = .ok b → S (ts ++ [t]) b)
    (hl : ∀ ts a, S ts a → ∀ t ∈ ts, ∀ b, ∃ b', step b t = .ok b') (hu : ∀ ts a b, S ts a → S ts b → a = b)
    (ts : List Triple) (a : α) : foldTriples step z ts = .ok a ↔ S ts a := by
  constructor
  · intro e
    have := fold_says hs ts [] z a h0 e
    simpa using this
  · intro h
    obtain ⟨b, e⟩ := fold_total ts z (hl ts a h)
    have := fold_says hs ts [] z b h0 e
    rw [e, hu ts b a (by simpa using this) h]

theorem mem_vals' {ts : List Triple} {t : Triple} {p : Pred} (h : t ∈ ts) (hp : t.pred = p) : t.object ∈ vals ts p :=
  hp ▸ mem_vals h

/-- A statement with a known property and a value that can be read is read. -/
macro "legal_step" hp:ident ho:ident ht:ident h:ident : tactic => `(tactic|
  first
    | exact ⟨_, rfl⟩
    | (exfalso; have := $ho _ $ht; rw [$hp:ident] at this; simp at this; done)
    | (obtain ⟨y, hy⟩ := $h _ (mem_vals' $ht $hp); rw [hy]; exact ⟨_, rfl⟩))

theorem checksum_unique (ts : List Triple) (c c' : Checksum) (h : ChecksumSays ts c) (h' : ChecksumSays ts c') : c = c' := by
  cases c; cases c'
  congr 1
  · exact h.algorithm.unique (unique_of algorithm_iff) h'.algorithm
  · exact h.value.unique (fun _ _ _ h h' => h.trans h'.symm) h'.value

theorem checksum_iff (g : Graph) (n : RNode) (c : Checksum) : checksumAt g n = .ok c ↔ ChecksumSays (g.of n) c := by
  refine fold_iff (by constructor <;> first | exact .nil | exact EachOf.nil) (fun _ _ _ _ => checksumStep_says)
    (fun ts a h t ht b => ?_) checksum_unique _ _
  have ho := h.only
  have hv : ∀ m ∈ vals ts .algorithm, ∃ y, algorithmOf m.id = .ok y := fun m hm => by
    obtain ⟨y, hy⟩ := h.algorithm.legal hm; exact ⟨y, (algorithm_iff _ _).1 hy⟩
  unfold checksumStep
  cases hp : t.pred <;> legal_step hp ho ht hv

theorem elementChecksum_iff (v : Version) (g : Graph) (n : RNode) (c : Checksum) :
    elementChecksumAt v g n = .ok c ↔ ElementChecksumSays v g n c := by
  unfold elementChecksumAt ElementChecksumSays
  rw [bind_eq_ok]
  simp only [checksum_iff, List.contains_iff_mem]
  constructor
  · rintro ⟨c', h, e⟩
    split at e
    · injection e with e; subst e; exact ⟨h, ‹_›⟩
    · cases e
  · rintro ⟨h, hk⟩
    exact ⟨c, h, if_pos hk⟩

theorem annotation_unique (ts : List Triple) (c c' : Annotation) (h : AnnotationSays ts c) (h' : AnnotationSays ts c') : c = c' := by
  cases c; cases c'
  congr 1
  · exact h.annotator.unique (unique_of annotator_iff) h'.annotator
  · exact h.date.unique text_unique h'.date
  · exact h.type.unique (unique_of annotationType_iff) h'.type
  · exact h.subject.trans h'.subject.symm
  · exact h.comment.unique text_unique h'.comment

theorem annotation_iff (g : Graph) (n : RNode) (c : Annotation) : annotationAt g n = .ok c ↔ AnnotationSays (g.of n) c := by
  refine fold_iff (by constructor <;> first | exact .nil | exact EachOf.nil | rfl) (fun _ _ _ _ => annotationStep_says)
    (fun ts a h t ht b => ?_) annotation_unique _ _
  have ho := h.only
  have hv : ∀ m ∈ vals ts .annotator, ∃ y, annotatorOf m.id = .ok y := fun m hm => by
    obtain ⟨y, hy⟩ := h.annotator.legal hm; exact ⟨y, (annotator_iff _ _).1 hy⟩
  have hw : ∀ m ∈ vals ts .annotationType, ∃ y, annotationTypeOf m.id = .ok y := fun m hm => by
    obtain ⟨y, hy⟩ := h.type.legal hm; exact ⟨y, (annotationType_iff _ _).1 hy⟩
  unfold annotationStep
  cases hp : t.pred <;> first | legal_step hp ho ht hv | legal_step hp ho ht hw

theorem review_unique (ts : List Triple) (c c' : Review) (h : ReviewSays ts c) (h' : ReviewSays ts c') : c = c' := by
  have h1 := h.reviewer.unique (unique_of reviewer_iff) h'.reviewer
  have h2 := h.date.unique text_unique h'.date
  have h3 := h.comment.unique text_unique h'.comment
  cases c; cases c'
  simp only [Prod.mk.injEq] at h1
  simp_all

theorem review_iff (g : Graph) (n : RNode) (c : Review) : reviewAt g n = .ok c ↔ ReviewSays (g.of n) c := by
  refine fold_iff (by constructor <;> first | exact .nil | exact EachOf.nil) (fun _ _ _ _ => reviewStep_says)
    (fun ts a h t ht b => ?_) review_unique _ _
  have ho := h.only
  have hv : ∀ m ∈ vals ts .reviewer, ∃ y, extractSubs g!":" m.id = .ok y := fun m hm => by
    obtain ⟨y, hy⟩ := h.reviewer.legal hm; exact ⟨y, (reviewer_iff _ _).1 hy⟩
  unfold reviewStep
  cases hp : t.pred <;> legal_step hp ho ht hv

theorem creation_unique (ts : List Triple) (c c' : CreationInfo) (h : Rdf.CreationSays ts c) (h' : Rdf.CreationSays ts c') : c = c' := by
  have h1 := h.licenseList.unique text_unique h'.licenseList
  have h2 := h.creators.unique (unique_of creator_iff) h'.creators
  have h3 := h.created.unique text_unique h'.created
  have h4 := h.comment.unique text_unique h'.comment
  cases c; cases c'
  simp_all

theorem creation_iff (ts : List Triple) (c : CreationInfo) : foldTriples creationStep {} ts = .ok c ↔ Rdf.CreationSays ts c := by
  refine fold_iff (by constructor <;> first | exact .nil | exact EachOf.nil) (fun _ _ _ _ => creationStep_says)
    (fun ts a h t ht b => ?_) creation_unique _ _
  have ho := h.only
  have hv : ∀ m ∈ vals ts .creator, ∃ y, creatorOf m.id = .ok y := fun m hm => by
    obtain ⟨y, hy⟩ := h.creators.legal hm; exact ⟨y, (creator_iff _ _).1 hy⟩
  unfold creationStep
  cases hp : t.pred <;> legal_step hp ho ht hv

theorem externalRef_unique (ts : List Triple) (c c' : PackageExternalRef) (h : ExternalRefSays ts c) (h' : ExternalRefSays ts c') : c = c' := by
  have h1 := h.category.unique (unique_of category_iff) h'.category
  have h2 := h.type.unique text_unique h'.type
  have h3 := h.locator.unique text_unique h'.locator
  have h4 := h.comment.unique text_unique h'.comment
  cases c; cases c'
  simp_all

theorem externalRef_iff (g : Graph) (n : RNode) (c : PackageExternalRef) : externalRefAt g n = .ok c ↔ ExternalRefSays (g.of n) c := by
  refine fold_iff (by constructor <;> first | exact .nil | exact EachOf.nil) (fun _ _ _ _ => externalRefStep_says)
    (fun ts a h t ht b => ?_) externalRef_unique _ _
  have ho := h.only
  have hv : ∀ m ∈ vals ts .referenceCategory, ∃ y, referenceCategoryOf m.id = .ok y := fun m hm => by
    obtain ⟨y, hy⟩ := h.category.legal hm; exact ⟨y, (category_iff _ _).1 hy⟩
  unfold externalRefStep
  cases hp : t.pred <;> legal_step hp ho ht hv

theorem verification_unique (ts : List Triple) (c c' : VerificationCode) (h : VerificationSays ts c) (h' : VerificationSays ts c') : c = c' := by
  have h1 := h.value.unique text_unique h'.value
  have h2 := h.excluded.unique text_unique h'.excluded
  cases c; cases c'
  simp_all

theorem verification_iff (ts : List Triple) (c : VerificationCode) :
    foldTriples verificationStep {} ts = .ok c ↔ VerificationSays ts c := by
  refine fold_iff (by constructor <;> first | exact .nil | exact EachOf.nil) (fun _ _ _ _ => verificationStep_says)
    (fun ts a h t ht b => ?_) verification_unique _ _
  have ho := h.only
  unfold verificationStep
  cases hp : t.pred <;> legal_step hp ho ht ho

theorem artifact_unique (n : RNode) (ts : List Triple) (c c' : ArtifactOfProject) (h : ArtifactSays n ts c) (h' : ArtifactSays n ts c') : c = c' := by
  have h1 := h.name.unique text_unique h'.name
  have h2 := h.homePage.unique text_unique h'.homePage
  have h3 := h.uri.trans h'.uri.symm
  cases c; cases c'
  simp_all

theorem artifact_iff (g : Graph) (n : RNode) (c : ArtifactOfProject) : artifactAt g n = .ok c ↔ ArtifactSays n (g.of n) c := by
  refine fold_iff (by constructor <;> first | exact .nil | exact EachOf.nil | rfl) (fun _ _ _ _ => artifactStep_says)
    (fun ts a h t ht b => ?_) (artifact_unique n) _ _
  have ho := h.only
  unfold artifactStep
  cases hp : t.pred <;> legal_step hp ho ht ho

theorem checksumAt_unique (g : Graph) : ∀ n c c', ChecksumSays (g.of n) c → ChecksumSays (g.of n) c' → c = c' :=
  fun _ _ _ => checksum_unique _ _ _

theorem externalDocumentRefStep_says {g : Graph} {ts : List Triple} {t : Triple} {c c' : ExternalDocumentRef}
    (h : Rdf.ExternalDocumentSays g ts c) (e : externalDocumentRefStep g c t = .ok c') :
    Rdf.ExternalDocumentSays g (ts ++ [t]) c' := by
  obtain ⟨h1, h2, h3, h4⟩ := h
  unfold externalDocumentRefStep at e
  cases hp : t.pred <;> simp only [hp, bind_eq_ok, Res.ok.injEq, reduceCtorEq, checksum_iff] at e <;>
    (first | subst e | (obtain ⟨x, hx, rfl⟩ := e)) <;> constructor <;> says_step hp

theorem externalDocument_unique (g : Graph) (ts : List Triple) (c c' : ExternalDocumentRef) (h : Rdf.ExternalDocumentSays g ts c)
    (h' : Rdf.ExternalDocumentSays g ts c') : c = c' := by
  have h1 := h.id.unique text_unique h'.id
  have h2 := h.uri.unique text_unique h'.uri
  have h3 := h.checksum.unique (checksumAt_unique g) h'.checksum
  cases c; cases c'
  simp_all

theorem externalDocument_iff (g : Graph) (n : RNode) (c : ExternalDocumentRef) :
    externalDocumentRefAt g n = .ok c ↔ Rdf.ExternalDocumentSays g (g.of n) c := by
  refine fold_iff (by constructor <;> first | exact .nil | exact EachOf.nil | rfl) (fun _ _ _ _ => externalDocumentRefStep_says)
    (fun ts a h t ht b => ?_) (externalDocument_unique g) _ _
  have ho := h.only
  have hv : ∀ m ∈ vals ts .checksum, ∃ y, checksumAt g m = .ok y := fun m hm => by
    obtain ⟨y, hy⟩ := h.checksum.legal hm; exact ⟨y, (checksum_iff _ _ _).2 hy⟩
  unfold externalDocumentRefStep
  cases hp : t.pred <;> legal_step hp ho ht hv

/-! ## Extracted licenses -/

structure SimpleSays (g : Graph) (ts : List Triple) (l : SimpleLic) : Prop where
  only : Only ts [.type_, .comment, .licenseId, .name, .seeAlso, .example_]
  id : LastOf Text [] (vals ts .licenseId) l.licenseID
  name : LastOf Text [] (vals ts .name) l.name
  comment : LastOf Text [] (vals ts .comment) l.comment
  example_ : LastOf Text [] (vals ts .example_) l.example_
  seeAlso : EachOf (UriSays g) (vals ts .seeAlso) l.seeAlso

theorem ite_ok {α : Type} {c : Prop} [Decidable c] {a b : α} : ((if c then Res.ok a else .err) = .ok b) ↔ c ∧ a = b := by
  split <;> simp [*]

theorem uri_unique (g : Graph) : ∀ n x x', UriSays g n x → UriSays g n x' → x = x' := fun _ _ _ h h' => h.2.trans h'.2.symm

theorem simpleStep_says {g : Graph} {ts : List Triple} {t : Triple} {c c' : SimpleLic} (h : SimpleSays g ts c)
    (e : simpleStep g.uriValid c t = .ok c') : SimpleSays g (ts ++ [t]) c' := by
  obtain ⟨h1, h2, h3, h4, h5, h6⟩ := h
  unfold simpleStep at e
  cases hp : t.pred <;> simp only [hp, ite_ok, Res.ok.injEq, reduceCtorEq] at e <;>
    (first | subst e | (obtain ⟨hx, rfl⟩ := e; have hx : UriSays g t.object t.object.id := ⟨hx, rfl⟩)) <;> constructor <;> says_step hp

theorem simple_unique (g : Graph) (ts : List Triple) (c c' : SimpleLic) (h : SimpleSays g ts c) (h' : SimpleSays g ts c') : c = c' := by
  have h1 := h.id.unique text_unique h'.id
  have h2 := h.name.unique text_unique h'.name
  have h3 := h.comment.unique text_unique h'.comment
  have h4 := h.example_.unique text_unique h'.example_
  have h5 := h.seeAlso.unique (uri_unique g) h'.seeAlso
  cases c; cases c'
  simp_all

theorem simple_iff (g : Graph) (ts : List Triple) (c : SimpleLic) : simpleOf g.uriValid ts = .ok c ↔ SimpleSays g ts c := by
  refine fold_iff (by constructor <;> first | exact .nil | exact EachOf.nil) (fun _ _ _ _ => simpleStep_says)
    (fun ts a h t ht b => ?_) (simple_unique g) _ _
  have ho := h.only
  have hv : ∀ m ∈ vals ts .seeAlso, ∃ y : Str, g.uriValid m.id = true := fun m hm => by
    obtain ⟨y, hy⟩ := h.seeAlso.legal hm; exact ⟨y, hy.1⟩
  unfold simpleStep
  cases hp : t.pred <;> legal_step hp ho ht hv

theorem vals_filter {ts : List Triple} {p q : Pred} (h : p ≠ q) : vals (ts.filter fun t => t.pred ≠ q) p = vals ts p := by
  unfold vals
  rw [List.filter_filter]
  congr 1
  refine List.filter_congr fun t _ => ?_
  by_cases hp : t.pred = p
  · simp [hp, h]
  · simp [hp]

theorem lastOf_text {ts : List Triple} {p : Pred} {x : Str} :
    LastOf Text [] (vals ts p) x ↔ x = ((ts.filter fun t => t.pred = p).map (·.object.id)).getLastD [] := by
  have hp : ∀ l : List RNode, Pointwise Text l (l.map (·.id)) := fun l => by
    induction l with
    | nil => exact .nil
    | cons a l ih => exact .cons rfl ih
  have e : (ts.filter fun t => t.pred = p).map (·.object.id) = (vals ts p).map (·.id) := by
    unfold vals; rw [List.map_map]; rfl
  rw [e]
  constructor
  · rintro ⟨xs, h, rfl⟩
    rw [h.unique text_unique (hp _)]
  · rintro rfl
    exact ⟨_, hp _, rfl⟩

theorem otherLicense_iff (g : Graph) (n : RNode) (l : OtherLicense) :
    otherLicenseAt g n = .ok l ↔ OtherLicenseSays g (g.about n.id) l := by
  unfold otherLicenseAt extractedAt
  simp only [bind_eq_ok, Res.ok.injEq, simple_iff]
  generalize g.about n.id = ts
  constructor
  · rintro ⟨_, ⟨c, h, rfl⟩, rfl⟩
    refine ⟨?_, ?_, lastOf_text.2 rfl, ?_, ?_, ?_⟩
    · intro t ht
      by_cases hp : t.pred = .extractedText
      · rw [hp]; simp
      · have := h.only t (List.mem_filter.2 ⟨ht, by simpa using hp⟩)
        simp only [List.mem_cons, List.not_mem_nil, or_false] at this ⊢
        rcases this with h | h | h | h | h | h <;> rw [h] <;> simp
    · have := h.id; rwa [vals_filter (by simp)] at this
    · have := h.name; rwa [vals_filter (by simp)] at this
    · have := h.comment; rwa [vals_filter (by simp)] at this
    · have := h.seeAlso; rwa [vals_filter (by simp)] at this
  · intro h
    obtain ⟨x, hx⟩ : ∃ x, LastOf Text [] (vals ts .example_) x := ⟨_, lastOf_text.2 rfl⟩
    refine ⟨_, ⟨⟨l.comment, l.licenseIdentifier, l.licenseName, l.crossReferences, x⟩, ⟨?_, ?_, ?_, ?_, ?_, ?_⟩, rfl⟩, ?_⟩
    · intro t ht
      obtain ⟨ht, hp⟩ := List.mem_filter.1 ht
      have := h.only t ht
      simp only [List.mem_cons, List.not_mem_nil, or_false] at this ⊢
      have hp : t.pred ≠ .extractedText := by simpa using hp
      rcases this with h | h | h | h | h | h | h <;> first | exact absurd h hp | (rw [h]; simp)
    · rw [vals_filter (by simp)]; exact h.id
    · rw [vals_filter (by simp)]; exact h.name
    · rw [vals_filter (by simp)]; exact h.comment
    · rw [vals_filter (by simp)]; exact hx
    · rw [vals_filter (by simp)]; exact h.crossReferences
    · rw [← lastOf_text.1 h.text]

end Verif
