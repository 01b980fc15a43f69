import Verif.Lemmas.JsonDoc
import Verif.Spec.Links

/-!
# Single fields of decoded objects, relationships of loaded documents
-/

namespace Verif
open Spec

variable {σ : Type}

theorem decodeEntries_keep {τ : Type} (π : σ → τ) {f : Field σ} (h : ∀ b s, π (f.set b s) = π s) :
    ∀ {es : List (Str × Json)} {s r : σ}, decodeEntries f es s = .ok r → π r = π s
  | [], _, _, hr => by cases hr; rfl
  | (k, j) :: es, s, r, hr => by
    rw [decodeEntries] at hr
    split at hr
    · cases hb : f.codec.dec j (f.get s) with
      | ok b =>
        rw [hb, Res.bind_ok] at hr
        rw [decodeEntries_keep π h hr, h]
      | err => rw [hb] at hr; cases hr
      | panic => rw [hb] at hr; cases hr
    · exact decodeEntries_keep π h hr

theorem decodeFields_keep {τ : Type} (π : σ → τ) {es : List (Str × Json)} : ∀ {fs : List (Field σ)} {s r : σ},
    (∀ f ∈ fs, ∀ b s, π (f.set b s) = π s) → decodeFields es fs s = .ok r → π r = π s
  | [], _, _, _, hr => by cases hr; rfl
  | f :: fs, s, r, h, hr => by
    rw [decodeFields] at hr
    cases ht : decodeEntries f es s with
    | ok t =>
      rw [ht, Res.bind_ok] at hr
      rw [decodeFields_keep π (fun g hg => h g (by simp [hg])) hr, decodeEntries_keep π (h f (by simp)) ht]
    | err => rw [ht] at hr; cases hr
    | panic => rw [ht] at hr; cases hr

theorem entries_oneEach {key : Str} {es : List (Str × Json)} (h : OneEach es) :
    (es.filter fun e => sameKey key e.1) = [] ∨ ∃ e, (es.filter fun e => sameKey key e.1) = [e] ∧ sameKey key e.1 = true := by
  have h1 := filter_perm_eq (key := key) (List.Perm.refl es) h
  induction es with
  | nil => exact .inl rfl
  | cons e es ih =>
    have h' := List.pairwise_cons.1 h
    by_cases hk : sameKey key e.1 = true
    · right
      refine ⟨e, ?_, hk⟩
      rw [List.filter_cons, if_pos hk, filter_other]
      intro k hm
      have := h'.1 k hm
      simp only [sameKey, decide_eq_true_eq, decide_eq_false_iff_not] at hk this ⊢
      exact fun e => this (hk.symm.trans e)
    · rw [List.filter_cons, if_neg hk]
      exact ih h'.2 rfl

/-- What a field holds after decoding. -/
theorem decode_field {A B : List (Field σ)} {f : Field σ} {es : List (Str × Json)} {s r : σ} (ho : OneEach es)
    (hA : ∀ g ∈ A, ∀ b s, f.get (g.set b s) = f.get s) (hB : ∀ g ∈ B, ∀ b s, f.get (g.set b s) = f.get s)
    (hf : ∀ b s, f.get (f.set b s) = b)
    (h : (structCodec (A ++ f :: B)).dec (.obj es) s = .ok r) : Holds es f.key f.codec (f.get s) (f.get r) := by
  have h : decodeFields es (A ++ f :: B) s = .ok r := h
  rw [decodeFields_append] at h
  cases h1 : decodeFields es A s with
  | err => rw [h1] at h; cases h
  | panic => rw [h1] at h; cases h
  | ok t =>
    rw [h1] at h
    have h : decodeFields es (f :: B) t = .ok r := h
    rw [decodeFields] at h
    cases h2 : decodeEntries f es t with
    | err => rw [h2] at h; cases h
    | panic => rw [h2] at h; cases h
    | ok u =>
      rw [h2, Res.bind_ok] at h
      have e1 : f.get t = f.get s := decodeFields_keep f.get hA h1
      have e2 : f.get r = f.get u := decodeFields_keep f.get hB h
      rw [decodeEntries_filter] at h2
      rcases entries_oneEach (key := f.key) ho with h3 | ⟨⟨k, j⟩, h3, h4⟩
      · rw [h3] at h2
        cases h2
        exact .inl ⟨by simp [entries, h3], by rw [e2, e1]⟩
      · rw [h3, decodeEntries, if_pos h4] at h2
        right
        refine ⟨j, by simp [entries, h3], ?_⟩
        cases h5 : f.codec.dec j (f.get t) with
        | err => rw [h5] at h2; cases h2
        | panic => rw [h5] at h2; cases h2
        | ok b =>
          rw [h5, Res.bind_ok, decodeEntries] at h2
          cases h2
          rw [e2, hf, ← e1]
          exact h5

/-! ## Relationships -/

theorem serializeRel_link (r : Relationship) : serializeRel r = (link r).1 ++ g!"-" ++ (link r).2.1 ++ g!"->" ++ (link r).2.2 := by
  unfold serializeRel link
  by_cases h : r.relationship = g!"CONTAINED_BY"
  · simp only [if_pos h]
  · by_cases h' : r.relationship = g!"DESCRIBED_BY"
    · simp only [if_neg h, if_pos h']
    · simp only [if_neg h, if_neg h']

theorem split_last {c : Char} {x x' y y' : Str} (hy : c ∉ y) (hy' : c ∉ y') (h : x ++ c :: y = x' ++ c :: y') :
    x = x' ∧ y = y' := by
  rcases List.append_eq_append_iff.1 h with ⟨a, h1, h2⟩ | ⟨a, h1, h2⟩
  · cases a with
    | nil => simp at h1 h2; exact ⟨h1.symm, h2⟩
    | cons d a =>
      simp only [List.cons_append, List.cons.injEq] at h2
      exact absurd (by rw [h2.2]; simp) hy
  · cases a with
    | nil => simp at h1 h2; exact ⟨h1, h2.symm⟩
    | cons d a =>
      simp only [List.cons_append, List.cons.injEq] at h2
      exact absurd (by rw [h2.2]; simp) hy'

theorem readable_link {r : Relationship} (h : Readable r) : '-' ∉ (link r).2.1 ∧ '>' ∉ (link r).2.2 := by
  obtain ⟨h1, h2, h3⟩ := h
  unfold link
  split
  · exact ⟨by simp, h2⟩
  split
  · exact ⟨by simp, h2⟩
  · exact ⟨h1, h3⟩

theorem serializeRel_inj {r s : Relationship} (hr : Readable r) (hs : Readable s) (h : serializeRel r = serializeRel s) :
    link r = link s := by
  rw [serializeRel_link, serializeRel_link] at h
  have h1 : ((link r).1 ++ g!"-" ++ (link r).2.1 ++ g!"-") ++ '>' :: (link r).2.2 =
      ((link s).1 ++ g!"-" ++ (link s).2.1 ++ g!"-") ++ '>' :: (link s).2.2 := by simpa using h
  obtain ⟨h2, h3⟩ := split_last (readable_link hr).2 (readable_link hs).2 h1
  have h4 := (List.append_inj' h2 rfl).1
  have h5 : (link r).1 ++ '-' :: (link r).2.1 = (link s).1 ++ '-' :: (link s).2.1 := by simpa using h4
  obtain ⟨h6, h7⟩ := split_last (readable_link hr).1 (readable_link hs).1 h5
  exact Prod.ext h6 (Prod.ext h7 h3)

theorem serializeRel_congr {r s : Relationship} (h : link r = link s) : serializeRel r = serializeRel s := by
  rw [serializeRel_link, serializeRel_link, h]

/-- What adding relationships does, if the index is that of the relationships there are. -/
theorem addRels_spec : ∀ (new rels : List Relationship) (index : List Str), (∀ x, x ∈ index ↔ x ∈ rels.map serializeRel) →
    ∃ added, addRels index rels new = ((addRels index rels new).1, rels ++ added) ∧ added.Sublist new ∧
      (added.map serializeRel).Nodup ∧ (∀ a ∈ added, serializeRel a ∉ rels.map serializeRel) ∧
      (∀ r ∈ new, serializeRel r ∈ (rels ++ added).map serializeRel) ∧
      ∀ x, x ∈ (addRels index rels new).1 ↔ x ∈ (rels ++ added).map serializeRel
  | [], rels, index, h => ⟨[], by simp [addRels], .slnil, by simp, by simp, by simp, by simpa [addRels] using h⟩
  | r :: new, rels, index, h => by
    by_cases hc : serializeRel r ∈ index
    · obtain ⟨added, h1, h2, h3, h4, h5, h6⟩ := addRels_spec new rels index h
      have e : addRels index rels (r :: new) = addRels index rels new := by
        rw [addRels, if_pos (by simpa using hc)]
      rw [e]
      refine ⟨added, h1, .cons _ h2, h3, h4, fun x hx => ?_, h6⟩
      rcases List.mem_cons.1 hx with rfl | hx
      · rw [List.map_append]
        exact List.mem_append_left _ ((h _).1 hc)
      · exact h5 x hx
    · have h' : ∀ x, x ∈ serializeRel r :: index ↔ x ∈ (rels ++ [r]).map serializeRel := by
        intro x
        simp only [List.mem_cons, h, List.map_append, List.mem_append, List.map_cons, List.map_nil, List.not_mem_nil, or_false]
        exact or_comm
      obtain ⟨added, h1, h2, h3, h4, h5, h6⟩ := addRels_spec new (rels ++ [r]) (serializeRel r :: index) h'
      have e : addRels index rels (r :: new) = addRels (serializeRel r :: index) (rels ++ [r]) new := by
        rw [addRels, if_neg (by simpa using hc)]
      rw [e]
      refine ⟨r :: added, ?_, .cons_cons _ h2, ?_, fun a ha => ?_, fun x hx => ?_, fun x => ?_⟩
      · rw [h1]; simp
      · rw [List.map_cons, List.nodup_cons]
        refine ⟨fun hm => ?_, h3⟩
        obtain ⟨a, ha, e⟩ := List.mem_map.1 hm
        exact h4 a ha (by rw [e]; simp)
      · rcases List.mem_cons.1 ha with rfl | ha
        · rw [← h]; exact hc
        · exact fun hm => h4 a ha (by rw [List.map_append]; exact List.mem_append_left _ hm)
      · rcases List.mem_cons.1 hx with rfl | hx
        · simp
        · have := h5 x hx
          simpa using this
      · have := h6 x
        simpa using this

/-- What loading adds. -/
theorem load_spec (id : Str) (rels : List (Option Relationship)) (ds : List DocElementID) (ps : List (Option (PackageV × List DocElementID))) :
    ∃ added, loadRelationships id rels ds ps = rels.filterMap (·) ++ added ∧
      added.Sublist (describesRels id ds ++ hasFilesRels ps) ∧ (added.map serializeRel).Nodup ∧
      (∀ a ∈ added, serializeRel a ∉ (rels.filterMap (·)).map serializeRel) ∧
      ∀ r ∈ describesRels id ds ++ hasFilesRels ps, serializeRel r ∈ (rels.filterMap (·) ++ added).map serializeRel := by
  obtain ⟨a1, h1, h2, h3, h4, h5, h6⟩ := addRels_spec (describesRels id ds) (rels.filterMap _root_.id) _ fun _ => Iff.rfl
  obtain ⟨a2, g1, g2, g3, g4, g5, _⟩ := addRels_spec (hasFilesRels ps) (rels.filterMap _root_.id ++ a1) _ h6
  refine ⟨a1 ++ a2, ?_, h2.append g2, ?_, fun a ha => ?_, fun r hr => ?_⟩
  · simp only [loadRelationships]
    rw [h1]
    simp only
    rw [g1, List.append_assoc]
    rfl
  · rw [List.map_append, List.nodup_append]
    refine ⟨h3, g3, fun x hx y hy e => ?_⟩
    obtain ⟨b, hb, rfl⟩ := List.mem_map.1 hy
    subst e
    exact g4 b hb (by rw [List.map_append]; exact List.mem_append_right _ hx)
  · rcases List.mem_append.1 ha with ha | ha
    · exact h4 a ha
    · exact fun hm => g4 a ha (by rw [List.map_append]; exact List.mem_append_left _ hm)
  · rw [← List.append_assoc, List.map_append]
    rcases List.mem_append.1 hr with hr | hr
    · exact List.mem_append_left _ (h5 r hr)
    · have := g5 r hr
      rwa [List.map_append] at this

theorem addRels_none : ∀ (new rels : List Relationship) (index : List Str), (∀ r ∈ new, serializeRel r ∈ index) →
    addRels index rels new = (index, rels)
  | [], _, _, _ => rfl
  | r :: new, rels, index, h => by
    rw [addRels, if_pos (by simpa using h r (by simp))]
    exact addRels_none new rels index fun x hx => h x (by simp [hx])

end Verif
