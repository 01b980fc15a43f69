import Verif.Spec.JsonValid
import Verif.Lemmas.JsonSavable
import Verif.Lemmas.JsonObjects
import Verif.Lemmas.JsonFields
import Verif.Lemmas.RdfSays

/-!
# The relationships of a JSON document
-/

namespace Verif
open Spec

variable {es : List (Str × Json)} {v : Version} {d : Doc}

/-- What the entries of the array under a key say, one by one. -/
theorem items_say {β : Type} {says : Json → β → Prop} {key : Str} {l : List β} (h : Has es key (ListIs says) [] l) :
    Pointwise says (itemsAt key es) l := by
  unfold itemsAt
  rcases h with ⟨e, rfl⟩ | ⟨j, e, ⟨js, rfl, h⟩ | ⟨rfl, rfl⟩⟩ <;> rw [e]
  · exact .nil
  · simpa using h
  · exact .nil

theorem tidy_item {key : Str} {j : Json} (ht : tidy (.obj es) = true) (h : j ∈ itemsAt key es) : tidy j = true ∧ j ≠ .null := by
  unfold itemsAt at h
  rcases entries_cases ht key with e | ⟨x, e⟩ <;> rw [e] at h
  · simp at h
  · have hx := tidy_entry ht e
    simp only [List.flatMap_cons, List.flatMap_nil, List.append_nil] at h
    split at h
    · rename_i js
      obtain ⟨h1, h2⟩ := tidy_list (by rwa [tidy] at hx) j h
      exact ⟨h1, h2 rfl⟩
    · simp at h

theorem objects_source {β : Type} {says : List (Str × Json) → β → Prop} {unset x : β} {key : Str} {l : List β} (ht : tidy (.obj es) = true)
    (h : HasObjects es key says unset l) (hx : x ∈ l) : ∃ o, .obj o ∈ itemsAt key es ∧ says o x := by
  obtain ⟨j, hj, hs⟩ := (items_say h).source hx
  rcases hs with ⟨o, rfl, hs⟩ | ⟨rfl, -⟩
  · exact ⟨o, hj, hs⟩
  · exact absurd rfl (tidy_item ht hj).2

theorem objects_image {β : Type} {says : List (Str × Json) → β → Prop} {unset : β} {key : Str} {l : List β} {o : List (Str × Json)}
    (h : HasObjects es key says unset l) (ho : .obj o ∈ itemsAt key es) : ∃ x ∈ l, says o x := by
  obtain ⟨x, hx, hs⟩ := (items_say h).image ho
  rcases hs with ⟨o', e, hs⟩ | ⟨e, -⟩
  · cases e
    exact ⟨x, hx, hs⟩
  · cases e

theorem hasId_unique {key a b : Str} (ha : HasId es key a) (hb : HasId es key b) : a = b := by
  rcases ha with ⟨e, rfl⟩ | ⟨j, e, h, -⟩ <;> rcases hb with ⟨e', rfl⟩ | ⟨j', e', h', -⟩
  · rfl
  · rw [e] at e'; cases e'
  · rw [e] at e'; cases e'
  · rw [e] at e'
    cases e'
    exact List.append_cancel_left (h.symm.trans h')

theorem relationshipIs_unique {o : List (Str × Json)} (ht : tidy (.obj o) = true) {r s : Relationship} (hr : RelationshipIs o r)
    (hs : RelationshipIs o s) : r = s :=
  Res.ok.inj (((reads_relationship (n := false) _ ht _).2 (.inl ⟨o, rfl, hr⟩)).symm.trans
    ((reads_relationship (n := false) _ ht _).2 (.inl ⟨o, rfl, hs⟩)))

theorem refIs_unique {j : Json} (ht : tidy j = true) {r s : DocElementID} (hr : RefIs j r) (hs : RefIs j s) : r = s :=
  Res.ok.inj (((reads_ref (n := false) _ ht _).2 hr).symm.trans ((reads_ref (n := false) _ ht _).2 hs))

/-- The identifiers known to validation are those the object names. -/
theorem known_json (ht : tidy (.obj es) = true) (h : DocumentIs v es d) (id : Str) : Known d.packages d.files id ↔ NamedInJson es id := by
  unfold Known NamedInJson
  refine or_congr_right ⟨?_, ?_⟩
  · rintro (⟨p, hp, rfl⟩ | ⟨f, hf, rfl⟩)
    · obtain ⟨o, ho, hs⟩ := objects_source ht h.packages hp
      exact ⟨_, o, .inl rfl, ho, hs.id⟩
    · obtain ⟨o, ho, hs⟩ := objects_source ht h.files hf
      exact ⟨_, o, .inr rfl, ho, hs.id⟩
  · rintro ⟨_, o, rfl | rfl, ho, hs⟩
    · obtain ⟨p, hp, k⟩ := objects_image h.packages ho
      exact .inl ⟨p, hp, hasId_unique k.id hs⟩
    · obtain ⟨f, hf, k⟩ := objects_image h.files ho
      exact .inr ⟨f, hf, hasId_unique k.id hs⟩

/-! ## References and their texts -/

/-- References as JSON has them. -/
def JsonEnd (r : DocElementID) : Prop :=
  ((r.specialID = g!"NONE" ∨ r.specialID = g!"NOASSERTION") ∧ r = { specialID := r.specialID }) ∨ (r.specialID = [] ∧ ':' ∉ r.documentRefID)

theorem jsonEnd_ref {j : Json} {r : DocElementID} (h : RefIs j r) : JsonEnd r := by
  rcases h with ⟨h, rfl⟩ | ⟨e, -, -, rfl⟩ | ⟨x, -, h, -, rfl⟩ | ⟨x, e, -, h, -, -, rfl⟩
  · exact .inl ⟨h, rfl⟩
  · exact .inr ⟨rfl, by simp⟩
  · exact .inr ⟨rfl, h⟩
  · exact .inr ⟨rfl, h⟩

theorem jsonEnd_has {key : Str} {r : DocElementID} (h : Has es key RefIs {} r) : JsonEnd r := by
  rcases h with ⟨-, rfl⟩ | ⟨j, -, h⟩
  · exact .inr ⟨rfl, by simp⟩
  · exact jsonEnd_ref h

theorem colon_split {a b x y : Str} (ha : ':' ∉ a) (hb : ':' ∉ b) (h : a ++ ':' :: x = b ++ ':' :: y) : a = b ∧ x = y := by
  induction a generalizing b with
  | nil =>
    cases b with
    | nil => exact ⟨rfl, by simpa using h⟩
    | cons c b => simp only [List.nil_append, List.cons_append, List.cons.injEq] at h; exact absurd (by simp [← h.1]) hb
  | cons c a ih =>
    cases b with
    | nil => simp only [List.nil_append, List.cons_append, List.cons.injEq] at h; exact absurd (by simp [h.1]) ha
    | cons c' b =>
      simp only [List.cons_append, List.cons.injEq] at h
      obtain ⟨e1, e2⟩ := ih (fun k => ha (List.mem_cons_of_mem _ k)) (fun k => hb (List.mem_cons_of_mem _ k)) h.2
      exact ⟨by rw [h.1, e1], e2⟩

theorem render_plain {r : DocElementID} (h : r.specialID = []) : renderDocElementID r =
    if r.documentRefID = [] then g!"SPDXRef-" ++ r.elementRefID
    else g!"DocumentRef-" ++ (r.documentRefID ++ ':' :: (g!"SPDXRef-" ++ r.elementRefID)) := by
  simp only [renderDocElementID, h, ne_eq, not_true, if_false]
  by_cases hd : r.documentRefID = []
  · simp [hd, spdxRefPrefix]
  · simp [hd, spdxRefPrefix, documentRefPrefix]

theorem render_special {r : DocElementID} (h : r.specialID = g!"NONE" ∨ r.specialID = g!"NOASSERTION") :
    ∃ l, renderDocElementID r = 'N' :: l ∧ renderDocElementID r = r.specialID := by
  have : renderDocElementID r = r.specialID := by
    unfold renderDocElementID
    rw [if_pos]
    rcases h with h | h <;> rw [h] <;> decide
  rcases h with h | h
  · exact ⟨_, by rw [this, h], this⟩
  · exact ⟨_, by rw [this, h], this⟩

theorem plain_not_N {r : DocElementID} (h : r.specialID = []) (l : Str) : renderDocElementID r ≠ 'N' :: l := by
  rw [render_plain h]
  split <;> simp

theorem render_unique {r s : DocElementID} (hr : JsonEnd r) (hs : JsonEnd s) (h : renderDocElementID r = renderDocElementID s) : r = s := by
  rcases hr with ⟨h1, e1⟩ | ⟨h1, c1⟩ <;> rcases hs with ⟨h2, e2⟩ | ⟨h2, c2⟩
  · obtain ⟨l, -, k1⟩ := render_special h1
    obtain ⟨l', -, k2⟩ := render_special h2
    rw [e1, e2, ← k1, ← k2, h]
  · obtain ⟨l, k, -⟩ := render_special h1
    exact absurd (h.symm.trans k) (plain_not_N h2 l)
  · obtain ⟨l, k, -⟩ := render_special h2
    exact absurd (h.trans k) (plain_not_N h1 l)
  · rw [render_plain h1, render_plain h2] at h
    obtain ⟨rd, re, rs⟩ := r
    obtain ⟨sd, se, ss⟩ := s
    simp only at h1 h2 c1 c2 h
    subst h1 h2
    by_cases k1 : rd = [] <;> by_cases k2 : sd = []
    · subst k1 k2
      simp only [if_true] at h
      rw [List.append_cancel_left h]
    · rw [if_pos k1, if_neg k2] at h; simp at h
    · rw [if_neg k1, if_pos k2] at h; simp at h
    · rw [if_neg k1, if_neg k2] at h
      obtain ⟨e1, e2⟩ := colon_split c1 c2 (List.append_cancel_left h)
      rw [e1, List.append_cancel_left e2]

/-- A relationship with ends as JSON has them. -/
def JsonLink (r : Relationship) : Prop := JsonEnd r.refA ∧ JsonEnd r.refB

theorem jsonLink_of {r : Relationship} (h : LinkInJson v es r) : JsonLink r := by
  rcases h with ⟨o, -, h⟩ | ⟨-, id, j, b, -, -, h, rfl⟩ | ⟨-, o, id, j, b, -, -, -, h, rfl⟩
  · exact ⟨jsonEnd_has h.left, jsonEnd_has h.right⟩
  · exact ⟨.inr ⟨rfl, by simp [ofElement]⟩, jsonEnd_ref h⟩
  · exact ⟨.inr ⟨rfl, by simp [ofElement]⟩, jsonEnd_ref h⟩

/-- Two relationships that say the same, one of them written in the normal direction. -/
theorem same_link {r s : Relationship} (hr : JsonLink r) (hs : JsonLink s) (hk : r.relationship = g!"DESCRIBES" ∨ r.relationship = g!"CONTAINS")
    (h : link s = link r) :
    (s.relationship = r.relationship ∧ s.refA = r.refA ∧ s.refB = r.refB) ∨
    (s.relationship = g!"CONTAINED_BY" ∧ r.relationship = g!"CONTAINS" ∧ s.refA = r.refB ∧ s.refB = r.refA) ∨
    (s.relationship = g!"DESCRIBED_BY" ∧ r.relationship = g!"DESCRIBES" ∧ s.refA = r.refB ∧ s.refB = r.refA) := by
  have er : link r = (renderDocElementID r.refA, r.relationship, renderDocElementID r.refB) := by
    unfold link
    rw [if_neg (by rcases hk with e | e <;> rw [e] <;> decide), if_neg (by rcases hk with e | e <;> rw [e] <;> decide)]
  rw [er] at h
  unfold link at h
  split at h
  · simp only [Prod.mk.injEq] at h
    exact .inr (.inl ⟨by assumption, h.2.1.symm, render_unique hs.1 hr.2 h.2.2, render_unique hs.2 hr.1 h.1⟩)
  · split at h
    · simp only [Prod.mk.injEq] at h
      exact .inr (.inr ⟨by assumption, h.2.1.symm, render_unique hs.1 hr.2 h.2.2, render_unique hs.2 hr.1 h.1⟩)
    · simp only [Prod.mk.injEq] at h
      exact .inl ⟨h.2.1, render_unique hs.1 hr.1 h.1, render_unique hs.2 hr.2 h.2.2⟩

theorem says_same {r s : Relationship} (hr : JsonLink r) (hs : JsonLink s) (hk : r.relationship = g!"DESCRIBES" ∨ r.relationship = g!"CONTAINS")
    (h : link s = link r) (id : Str) (hd : Spec.Says r id) : Spec.Says s id := by
  have hd : r.relationship = g!"DESCRIBES" ∧ r.refA = thisDocument ∧ r.refB.elementRefID = id := by
    rcases hd with hd | ⟨e, -⟩
    · exact hd
    · rw [e] at hk; exact absurd hk (by decide)
  rcases same_link hr hs hk h with ⟨e, ea, eb⟩ | ⟨-, e, -⟩ | ⟨e, -, ea, eb⟩
  · exact .inl ⟨e.trans hd.1, by rw [ea]; exact hd.2.1, by rw [eb]; exact hd.2.2⟩
  · rw [hd.1] at e; exact absurd e (by decide)
  · exact .inr ⟨e, by rw [eb]; exact hd.2.1, by rw [ea]; exact hd.2.2⟩

/-! ## All relationships -/

theorem completed_own {own wanted : List Relationship} : ∀ r ∈ own, r ∈ completed own wanted := by
  unfold completed
  induction wanted generalizing own with
  | nil => intro r hr; exact hr
  | cons w ws ih =>
    intro r hr
    refine ih r ?_
    simp only
    split
    · exact hr
    · exact List.mem_append.2 (.inl hr)

theorem completed_wanted {own wanted : List Relationship} (hr : ∀ r, r ∈ own ∨ r ∈ wanted → Readable r) :
    ∀ w ∈ wanted, ∃ s ∈ completed own wanted, link s = link w := by
  unfold completed
  induction wanted generalizing own with
  | nil => simp
  | cons w ws ih =>
    intro x hx
    rw [List.foldl_cons]
    generalize hn : (if own.any fun s => linkText s = linkText w then own else own ++ [w]) = own'
    have h1 : ∀ r ∈ own', r ∈ own ∨ r ∈ w :: ws := by
      subst hn
      intro r hr
      split at hr
      · exact .inl hr
      · rcases List.mem_append.1 hr with h | h
        · exact .inl h
        · exact .inr (by simp [List.mem_singleton.1 h])
    rcases List.mem_cons.1 hx with rfl | hx
    · have : ∃ s ∈ own', link s = link x := by
        subst hn
        split
        · rename_i h
          obtain ⟨s, hs, e⟩ := List.any_eq_true.1 h
          refine ⟨s, hs, serializeRel_inj (hr s (.inl hs)) (hr x (.inr (by simp))) ?_⟩
          rw [serializeRel_link, serializeRel_link]
          exact of_decide_eq_true e
        · exact ⟨x, by simp, rfl⟩
      obtain ⟨s, hs, e⟩ := this
      exact ⟨s, completed_own s hs, e⟩
    · exact ih (fun r h => h.elim (fun h => hr r (h1 r h)) (fun h => hr r (.inr (by simp [h])))) x hx

/-- The relationships of the document that is read are among those the object says, and say all of them. -/
theorem links_read (ht : tidy (.obj es) = true) (h : DocumentIs v es d) :
    (∀ r ∈ d.relationships, LinkInJson v es r) ∧
    ((∀ r, LinkInJson v es r → Readable r) → ∀ r, LinkInJson v es r → r ∈ d.relationships ∨
      ((r.relationship = g!"DESCRIBES" ∨ r.relationship = g!"CONTAINS") ∧ ∃ s ∈ d.relationships, link s = link r)) := by
  obtain ⟨own, ho, h2⟩ := h.relationships
  have own1 : ∀ r ∈ own, LinkInJson v es r := fun r hr => .inl (objects_source ht ho hr)
  have own2 : ∀ o r, .obj o ∈ itemsAt g!"relationships" es → RelationshipIs o r → r ∈ own := by
    intro o r hm hr
    obtain ⟨s, hs, k⟩ := objects_image ho hm
    rw [relationshipIs_unique (tidy_item ht hm).1 hr k]; exact hs
  split at h2
  · rename_i hv
    rw [h2]
    refine ⟨own1, fun _ r hr => ?_⟩
    rcases hr with ⟨o, hm, hr⟩ | ⟨k, -⟩ | ⟨k, -⟩
    · exact .inl (own2 o r hm hr)
    · exact absurd hv k
    · exact absurd hv k
  · rename_i hv
    obtain ⟨describes, owners, hd, hp, h2⟩ := h2
    rw [h2]
    have want1 : ∀ r ∈ describes.map (ofElement d.spdxId g!"DESCRIBES") ++ owners.flatMap fun o => o.2.map (ofElement o.1 g!"CONTAINS"),
        LinkInJson v es r := by
      intro r hr
      rcases List.mem_append.1 hr with hr | hr
      · obtain ⟨b, hb, rfl⟩ := List.mem_map.1 hr
        obtain ⟨j, hj, hs⟩ := (items_say hd).source hb
        exact .inr (.inl ⟨hv, _, j, b, h.id, hj, hs, rfl⟩)
      · obtain ⟨w, hw, hr⟩ := List.mem_flatMap.1 hr
        obtain ⟨b, hb, rfl⟩ := List.mem_map.1 hr
        obtain ⟨o, ho, hs⟩ := objects_source ht hp hw
        obtain ⟨j, hj, hb⟩ := (items_say hs.2).source hb
        exact .inr (.inr ⟨hv, o, _, j, b, ho, hs.1, hj, hb, rfl⟩)
    refine ⟨fun r hr => (completed_mem r hr).elim (own1 r) (want1 r), fun hR r hr => ?_⟩
    have cw := completed_wanted (own := own) fun r hr => hR r (hr.elim (own1 r) (want1 r))
    rcases hr with ⟨o, hm, hr⟩ | ⟨-, id, j, b, hi, hj, hs, rfl⟩ | ⟨-, o, id, j, b, ho, hi, hj, hs, rfl⟩
    · exact .inl (completed_own _ (own2 o r hm hr))
    · refine .inr ⟨.inl rfl, cw _ (List.mem_append.2 (.inl (List.mem_map.2 ?_)))⟩
      obtain ⟨b', hb', k⟩ := (items_say hd).image hj
      exact ⟨b', hb', by rw [hasId_unique hi h.id, refIs_unique (tidy_item ht hj).1 hs k]⟩
    · refine .inr ⟨.inr rfl, cw _ (List.mem_append.2 (.inr (List.mem_flatMap.2 ?_)))⟩
      obtain ⟨w, hw, k⟩ := objects_image hp ho
      obtain ⟨b', hb', k'⟩ := (items_say k.2).image hj
      exact ⟨w, hw, List.mem_map.2 ⟨b', hb', by
        rw [hasId_unique hi k.1, refIs_unique (tidy_item (tidy_item ht ho).1 hj).1 hs k']⟩⟩

end Verif
