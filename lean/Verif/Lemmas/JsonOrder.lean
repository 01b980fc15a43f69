import Verif.Lemmas.JsonWritten
import Verif.Spec.JsonSays

/-!
# The order of the entries of objects does not matter
-/

namespace Verif
open Spec

mutual
theorem like_symm : ∀ (j : Json) {k : Json}, Like false j k → Like false k j
  | .null, _, .null => .null
  | .bool _, _, .bool _ => .bool _
  | .num _, _, .num _ => .num _
  | .str _, _, .str _ => .str _
  | .arr l, _, .arr h => .arr (likeList_symm l h)
  | .obj l, _, .obj h p => by
    obtain ⟨d, h1, h2⟩ := likeFields_perm p.symm (likeFields_symm l h)
    exact .obj h1 h2
theorem likeList_symm : ∀ (l : List Json) {m : List Json}, LikeList false l m → LikeList false m l
  | [], _, .nil => .nil
  | j :: l, _, .cons h1 h2 => .cons (like_symm j h1) (likeList_symm l h2)
theorem likeFields_symm : ∀ (l : List (Str × Json)) {m : List (Str × Json)}, LikeFields false l m → LikeFields false m l
  | [], _, .nil => .nil
  | (_, j) :: l, _, .cons h1 h2 => .cons (like_symm j h1) (likeFields_symm l h2)
end

/-! ## Properties of values that the order does not touch -/

theorem tidyFields_iff {es : List (Str × Json)} : tidyFields es = true ↔ ∀ e ∈ es, tidy e.2 = true := by
  induction es with
  | nil => simp [tidyFields]
  | cons e es ih => obtain ⟨k, j⟩ := e; simp [tidyFields, ih]

theorem like_null {html : Bool} {j : Json} (h : Like html j .null) : j = .null := by cases h; rfl

theorem tidyList_cons {j : Json} {l : List Json} : tidyList (j :: l) = true ↔ j ≠ .null ∧ tidy j = true ∧ tidyList l = true := by
  cases j <;> simp [tidyList]

theorem oneEach_perm {a b : List (Str × Json)} (h : a.Perm b) (ho : OneEach a) : OneEach b := by
  unfold OneEach at *
  refine (h.map (·.1)).pairwise ho fun {x y} hxy => ?_
  simp only [sameKey, decide_eq_false_iff_not] at *
  exact fun e => hxy e.symm

mutual
theorem like_tidy : ∀ (j : Json) {k : Json}, Like false j k → tidy j = true → tidy k = true
  | .null, _, .null, _ => rfl
  | .bool _, _, .bool _, _ => rfl
  | .num _, _, .num _, _ => rfl
  | .str _, _, .str _, _ => rfl
  | .arr l, _, .arr h, t => by rw [tidy] at *; exact likeList_tidy l h t
  | .obj l, _, .obj h p, t => by
    rw [tidy, Bool.and_eq_true, decide_eq_true_eq] at *
    refine ⟨oneEach_perm p ?_, ?_⟩
    · unfold OneEach
      rw [likeFields_keys h]
      exact t.1
    · have := likeFields_tidy l h t.2
      rw [tidyFields_iff] at *
      exact fun e he => this e (p.mem_iff.2 he)
theorem likeList_tidy : ∀ (l : List Json) {m : List Json}, LikeList false l m → tidyList l = true → tidyList m = true
  | [], _, .nil, _ => rfl
  | j :: l, _, .cons h1 h2, t => by
    rw [tidyList_cons] at *
    exact ⟨like_ne_null h1 t.1, like_tidy j h1 t.2.1, likeList_tidy l h2 t.2.2⟩
theorem likeFields_tidy : ∀ (l : List (Str × Json)) {m : List (Str × Json)}, LikeFields false l m → tidyFields l = true →
    tidyFields m = true
  | [], _, .nil, _ => rfl
  | (_, j) :: l, _, .cons h1 h2, t => by
    rw [tidyFields, Bool.and_eq_true] at *
    exact ⟨like_tidy j h1 t.1, likeFields_tidy l h2 t.2⟩
end

theorem plainFields_iff {es : List (Str × Json)} :
    Json.agentsPlainFields es = true ↔ ∀ e ∈ es, agentPlain e.1 e.2 = true ∧ e.2.agentsPlain = true := by
  induction es with
  | nil => simp [Json.agentsPlainFields]
  | cons e es ih => obtain ⟨k, j⟩ := e; simp [Json.agentsPlainFields, ih, and_assoc]

mutual
theorem like_plain {html : Bool} : ∀ (j : Json) {k : Json}, Like html j k → j.agentsPlain = true → k.agentsPlain = true
  | .null, _, .null, _ => rfl
  | .bool _, _, .bool _, _ => rfl
  | .num _, _, .num _, _ => rfl
  | .str _, _, .str _, _ => rfl
  | .arr l, _, .arr h, t => by rw [Json.agentsPlain] at *; exact likeList_plain l h t
  | .obj l, _, .obj h p, t => by
    rw [Json.agentsPlain] at *
    have := likeFields_plain l h t
    rw [plainFields_iff] at *
    exact fun e he => this e (p.mem_iff.2 he)
theorem likeList_plain {html : Bool} : ∀ (l : List Json) {m : List Json}, LikeList html l m → Json.agentsPlainList l = true →
    Json.agentsPlainList m = true
  | [], _, .nil, _ => rfl
  | j :: l, _, .cons h1 h2, t => by
    rw [Json.agentsPlainList, Bool.and_eq_true] at *
    exact ⟨like_plain j h1 t.1, likeList_plain l h2 t.2⟩
theorem likeFields_plain {html : Bool} : ∀ (l : List (Str × Json)) {m : List (Str × Json)}, LikeFields html l m →
    Json.agentsPlainFields l = true → Json.agentsPlainFields m = true
  | [], _, .nil, _ => rfl
  | (key, j) :: l, _, .cons h1 h2, t => by
    rw [Json.agentsPlainFields, Bool.and_eq_true, Bool.and_eq_true] at *
    exact ⟨⟨by rw [like_agentPlain h1 key]; exact t.1.1, like_plain j h1 t.1.2⟩, likeFields_plain l h2 t.2⟩
end

theorem floatsFields_iff {float : Str → Bool} {es : List (Str × Json)} :
    Json.floatsFields float es = true ↔ ∀ e ∈ es, e.2.floats float = true := by
  induction es with
  | nil => simp [Json.floatsFields]
  | cons e es ih => obtain ⟨k, j⟩ := e; simp [Json.floatsFields, ih]

mutual
theorem like_floats {html : Bool} {float : Str → Bool} : ∀ (j : Json) {k : Json}, Like html j k → j.floats float = true →
    k.floats float = true
  | .null, _, .null, _ => rfl
  | .bool _, _, .bool _, _ => rfl
  | .num _, _, .num _, h => h
  | .str _, _, .str _, _ => rfl
  | .arr l, _, .arr h, t => by rw [Json.floats] at *; exact likeList_floats l h t
  | .obj l, _, .obj h p, t => by
    rw [Json.floats] at *
    have := likeFields_floats l h t
    rw [floatsFields_iff] at *
    exact fun e he => this e (p.mem_iff.2 he)
theorem likeList_floats {html : Bool} {float : Str → Bool} : ∀ (l : List Json) {m : List Json}, LikeList html l m →
    Json.floatsList float l = true → Json.floatsList float m = true
  | [], _, .nil, _ => rfl
  | j :: l, _, .cons h1 h2, t => by
    rw [Json.floatsList, Bool.and_eq_true] at *
    exact ⟨like_floats j h1 t.1, likeList_floats l h2 t.2⟩
theorem likeFields_floats {html : Bool} {float : Str → Bool} : ∀ (l : List (Str × Json)) {m : List (Str × Json)},
    LikeFields html l m → Json.floatsFields float l = true → Json.floatsFields float m = true
  | [], _, .nil, _ => rfl
  | (_, j) :: l, _, .cons h1 h2, t => by
    rw [Json.floatsFields, Bool.and_eq_true] at *
    exact ⟨like_floats j h1 t.1, likeFields_floats l h2 t.2⟩
end

/-! ## What a value says does not depend on the order -/

/-- What values say does not depend on the order of entries. -/
def SteadyV {β : Type} (says : Json → β → Prop) : Prop :=
  ∀ j k x, j.agentsPlain = true → Like false j k → says j x → says k x

/-- The same for values under a key. -/
def SteadyAt {β : Type} (key : Str) (says : Json → β → Prop) : Prop :=
  ∀ j k x, agentPlain key j = true → j.agentsPlain = true → Like false j k → says j x → says k x

/-- The same for objects. -/
def SteadyO {β : Type} (says : List (Str × Json) → β → Prop) : Prop :=
  ∀ es es' x, Json.agentsPlainFields es = true → Like false (.obj es) (.obj es') → says es x → says es' x

theorem SteadyV.at {β : Type} {says : Json → β → Prop} (h : SteadyV says) (key : Str) : SteadyAt key says :=
  fun j k x _ => h j k x

theorem likeFields_entries {html : Bool} (key : Str) : ∀ {es m : List (Str × Json)}, LikeFields html es m →
    LikeList html (entries key es) (entries key m)
  | _, _, .nil => .nil
  | _, _, .cons (key := k) h1 h2 => by
    unfold entries
    rw [List.filter_cons, List.filter_cons]
    split
    · exact .cons h1 (likeFields_entries key h2)
    · exact likeFields_entries key h2

theorem agentPlain_same {a b : Str} (h : sameKey a b = true) (j : Json) : agentPlain b j = agentPlain a j := by
  have e : ∀ c, sameKey c b = sameKey c a := by
    intro c
    simp only [sameKey, decide_eq_true_eq] at *
    rw [h]
  simp only [agentPlain, e]

theorem has_steady {β : Type} {key : Str} {says : Json → β → Prop} {unset x : β} {es es' : List (Str × Json)} (hs : SteadyAt key says)
    (hp : Json.agentsPlainFields es = true) (hl : Like false (.obj es) (.obj es')) (h : Has es key says unset x) :
    Has es' key says unset x := by
  cases hl with
  | obj hf p =>
    have he := likeFields_entries key hf
    have hperm := (p.filter fun e => sameKey key e.1).map (·.2)
    rcases h with ⟨h1, h2⟩ | ⟨j, h1, h2⟩
    · rw [h1] at he
      generalize hm : entries key _ = m at he
      cases he
      refine .inl ⟨?_, h2⟩
      have : List.Perm [] (entries key es') := hm ▸ hperm
      exact this.nil_eq.symm
    · have hmem : ∃ e ∈ es, sameKey key e.1 = true ∧ e.2 = j := by
        have : j ∈ entries key es := by rw [h1]; simp
        unfold entries at this
        obtain ⟨e, he, rfl⟩ := List.mem_map.1 this
        rw [List.mem_filter] at he
        exact ⟨e, he.1, he.2, rfl⟩
      obtain ⟨e, he1, he2, rfl⟩ := hmem
      rw [h1] at he
      generalize hm : entries key _ = m at he
      cases he with
      | cons hj hn =>
        cases hn
        have hp' : (entries key _).Perm (entries key es') := hperm
        rw [hm] at hp'
        refine .inr ⟨_, (List.singleton_perm.1 hp').symm, ?_⟩
        have pl := plainFields_iff.1 hp e he1
        exact hs _ _ _ (by rw [← agentPlain_same he2]; exact pl.1) pl.2 hj h2

theorem steady_text : SteadyV TextIs := by
  rintro j k x - hl (⟨raw, rfl, h⟩ | ⟨rfl, h⟩)
  · cases hl; exact .inl ⟨_, rfl, h⟩
  · cases hl; exact .inr ⟨rfl, h⟩

theorem steady_flag : SteadyV FlagIs := by
  rintro j k x - hl (rfl | ⟨rfl, h⟩)
  · cases hl; exact .inl rfl
  · cases hl; exact .inr ⟨rfl, h⟩

theorem steady_number : SteadyV NumberIs := by
  rintro j k x - hl (⟨raw, rfl, h⟩ | ⟨rfl, h⟩)
  · cases hl; exact .inl ⟨_, rfl, h⟩
  · cases hl; exact .inr ⟨rfl, h⟩

theorem likeList_pointwise {β : Type} {says : Json → β → Prop} (hs : SteadyV says) : ∀ {js ks : List Json} {l : List β},
    Json.agentsPlainList js = true → LikeList false js ks → Pointwise says js l → Pointwise says ks l
  | [], _, _, _, .nil, h => h
  | j :: js, _, _, hp, .cons h1 h2, h => by
    rw [Json.agentsPlainList, Bool.and_eq_true] at hp
    cases h with
    | cons ha hb => exact .cons (hs _ _ _ hp.1 h1 ha) (likeList_pointwise hs hp.2 h2 hb)

theorem steady_list {β : Type} {says : Json → β → Prop} (hs : SteadyV says) : SteadyV (ListIs says) := by
  rintro j k x hp hl (⟨js, rfl, h⟩ | ⟨rfl, h⟩)
  · cases hl with
    | arr h1 => exact .inl ⟨_, rfl, likeList_pointwise hs hp h1 h⟩
  · cases hl; exact .inr ⟨rfl, h⟩

theorem steady_object {β : Type} {says : List (Str × Json) → β → Prop} {unset : β} (hs : SteadyO says) :
    SteadyV (ObjectIs says unset) := by
  rintro j k x hp hl (⟨js, rfl, h⟩ | ⟨rfl, h⟩)
  · cases hl with
    | obj h1 p => exact .inl ⟨_, rfl, hs _ _ _ hp (.obj h1 p) h⟩
  · cases hl; exact .inr ⟨rfl, h⟩

theorem steady_option {β : Type} {says : Json → β → Prop} {key : Str} (hs : SteadyAt key says) : SteadyAt key (OptionIs says) := by
  rintro j k x ha hp hl (⟨rfl, h⟩ | ⟨hn, y, h, hy⟩)
  · cases hl; exact .inl ⟨rfl, h⟩
  · exact .inr ⟨like_ne_null hl hn, y, h, hs _ _ _ ha hp hl hy⟩

theorem like_eq_of_flat {j k : Json} (h : Like false j k) (hc : j.isCompound = false) : k = j := by
  cases h <;> first | rfl | simp [Json.isCompound] at hc

theorem written_compound {j : Json} (h : j.isCompound = true) : ∃ t, written j = '[' :: t ∨ written j = '{' :: t := by
  cases j with
  | arr l =>
    refine ⟨Json.textList l ++ g!"]", .inl ?_⟩
    simp [written, Json.text, trim, trimRight, trimLeft]
  | obj l =>
    refine ⟨Json.textFields l ++ g!"}", .inr ?_⟩
    simp [written, Json.text, trim, trimRight, trimLeft]
  | _ => simp [Json.isCompound] at h

theorem flat_of_written {j : Json} {c : Char} {t : Str} (h : written j = c :: t) (h1 : c ≠ '[') (h2 : c ≠ '{') : j.isCompound = false := by
  cases hc : j.isCompound with
  | false => rfl
  | true =>
    obtain ⟨t', h' | h'⟩ := written_compound hc
    · exact absurd (List.cons.inj (h.symm.trans h')).1 h1
    · exact absurd (List.cons.inj (h.symm.trans h')).1 h2

theorem steady_id {pre : Str} (hp : pre = g!"SPDXRef-" ∨ pre = g!"DocumentRef-") : SteadyV (IdIs pre) := by
  rintro j k x - hl ⟨h1, h2⟩
  have : j.isCompound = false := by
    rcases hp with rfl | rfl
    · exact flat_of_written h1 (by decide) (by decide)
    · exact flat_of_written h1 (by decide) (by decide)
  rw [like_eq_of_flat hl this]
  exact ⟨h1, h2⟩

theorem steady_ref : SteadyV RefIs := by
  intro j k x _ hl h
  have : j.isCompound = false := by
    rcases h with ⟨h1 | h1, -⟩ | ⟨_, h1, -⟩ | ⟨_, h1, -⟩ | ⟨_, _, h1, -⟩ <;>
      exact flat_of_written h1 (by decide) (by decide)
  rw [like_eq_of_flat hl this]
  exact h

theorem steady_agent {β : Type} {key : Str} {says : Json → β → Prop}
    (hk : ∀ j, agentPlain key j = true → j.isCompound = false) : SteadyAt key says := by
  intro j k x ha _ hl h
  rw [like_eq_of_flat hl (hk j ha)]
  exact h

theorem annotator_plain : ∀ j, agentPlain g!"annotator" j = true → j.isCompound = false := by
  intro j h
  rw [agentPlain, if_neg (by decide), if_pos (by decide)] at h
  simpa using h

theorem supplier_plain : ∀ j, agentPlain g!"supplier" j = true → j.isCompound = false := by
  intro j h
  rw [agentPlain, if_neg (by decide), if_pos (by decide)] at h
  simpa using h

theorem originator_plain : ∀ j, agentPlain g!"originator" j = true → j.isCompound = false := by
  intro j h
  rw [agentPlain, if_neg (by decide), if_pos (by decide)] at h
  simpa using h

theorem likeList_flat : ∀ {js ks : List Json}, LikeList false js ks → js.any (·.isCompound) = false → ks = js
  | _, _, .nil, _ => rfl
  | _, _, .cons h1 h2, h => by
    rw [List.any_cons, Bool.or_eq_false_iff] at h
    rw [like_eq_of_flat h1 h.1, likeList_flat h2 h.2]

theorem steady_creators : SteadyAt g!"creators" (ListIs CreatorIs) := by
  intro j k x ha _ hl h
  rw [agentPlain, if_pos (by decide)] at ha
  cases hl with
  | arr hl =>
    have : _ = _ := likeList_flat hl (by simpa [Json.hasCompound] using ha)
    rw [this]
    exact h
  | obj _ _ => rcases h with ⟨_, h, -⟩ | ⟨h, -⟩ <;> cases h
  | _ => exact h

/-! ## Objects -/

theorem ite_steady {p : Prop} [Decidable p] {A B C : Prop} (hs : A → B) (h : if p then A else C) : if p then B else C := by
  split
  · next hc => rw [if_pos hc] at h; exact hs h
  · next hc => rw [if_neg hc] at h; exact h
theorem ite_steady' {p : Prop} [Decidable p] {A B C : Prop} (hs : A → B) (h : if p then C else A) : if p then C else B := by
  split
  · next hc => rw [if_pos hc] at h; exact h
  · next hc => rw [if_neg hc] at h; exact hs h

section
variable {es es' : List (Str × Json)} {key : Str} (hp : Json.agentsPlainFields es = true) (hl : Like false (.obj es) (.obj es'))
include hp hl

theorem hasText_steady {s : Str} (h : HasText es key s) : HasText es' key s := has_steady (steady_text.at _) hp hl h
theorem hasTexts_steady {s : List Str} (h : HasTexts es key s) : HasTexts es' key s := has_steady ((steady_list steady_text).at _) hp hl h
theorem hasId_steady {s : Str} (h : HasId es key s) : HasId es' key s := has_steady ((steady_id (.inl rfl)).at _) hp hl h
theorem hasObjects_steady {β : Type} {says : List (Str × Json) → β → Prop} {unset : β} {l : List β} (hs : SteadyO says)
    (h : HasObjects es key says unset l) : HasObjects es' key says unset l :=
  has_steady ((steady_list (steady_object hs)).at _) hp hl h
theorem hasObject_steady {β : Type} {says : List (Str × Json) → β → Prop} {unset u x : β} (hs : SteadyO says)
    (h : Has es key (ObjectIs says unset) u x) : Has es' key (ObjectIs says unset) u x := has_steady ((steady_object hs).at _) hp hl h
end

theorem steady_checksum : SteadyO ChecksumIs := fun _ _ _ hp hl h =>
  ⟨hasText_steady hp hl h.1, hasText_steady hp hl h.2⟩

theorem steady_code : SteadyO CodeIs := fun _ _ _ hp hl h =>
  ⟨hasText_steady hp hl h.1, hasTexts_steady hp hl h.2⟩

theorem steady_pointer : SteadyO PointerIs := fun _ _ _ hp hl h =>
  ⟨has_steady (steady_number.at _) hp hl h.1, has_steady (steady_number.at _) hp hl h.2, hasId_steady hp hl h.3⟩

theorem steady_range : SteadyO RangeIs := fun _ _ _ hp hl h =>
  ⟨hasObject_steady hp hl steady_pointer h.1, hasObject_steady hp hl steady_pointer h.2⟩

theorem steady_externalDocument : SteadyO ExternalDocumentIs := fun _ _ _ hp hl h =>
  ⟨has_steady ((steady_id (.inr rfl)).at _) hp hl h.1, hasText_steady hp hl h.2, hasObject_steady hp hl steady_checksum h.3⟩

theorem steady_creation : SteadyO CreationIs := fun _ _ _ hp hl h =>
  ⟨hasText_steady hp hl h.1, has_steady steady_creators hp hl h.2, hasText_steady hp hl h.3, hasText_steady hp hl h.4⟩

theorem steady_annotation : SteadyO AnnotationIs := fun _ _ _ hp hl h =>
  ⟨has_steady (steady_agent annotator_plain) hp hl h.1, hasText_steady hp hl h.2, hasText_steady hp hl h.3, hasText_steady hp hl h.4, h.5⟩

theorem steady_relationship : SteadyO RelationshipIs := fun _ _ _ hp hl h =>
  ⟨has_steady (steady_ref.at _) hp hl h.1, has_steady (steady_ref.at _) hp hl h.2, hasText_steady hp hl h.3, hasText_steady hp hl h.4⟩

theorem steady_license : SteadyO LicenseIs := fun _ _ _ hp hl h =>
  ⟨hasText_steady hp hl h.1, hasText_steady hp hl h.2, hasText_steady hp hl h.3, hasTexts_steady hp hl h.4, hasText_steady hp hl h.5⟩

theorem steady_artifact : SteadyO ArtifactIs := fun _ _ _ hp hl h =>
  ⟨hasText_steady hp hl h.1, hasText_steady hp hl h.2, hasText_steady hp hl h.3⟩

theorem steady_snippet : SteadyO SnippetIs := fun _ _ _ hp hl h =>
  { id := hasId_steady hp hl h.id
    fromFile := hasId_steady hp hl h.fromFile
    ranges := hasObjects_steady hp hl steady_range h.ranges
    licenseConcluded := hasText_steady hp hl h.licenseConcluded
    licenseInfo := hasTexts_steady hp hl h.licenseInfo
    licenseComments := hasText_steady hp hl h.licenseComments
    copyright := hasText_steady hp hl h.copyright
    comment := hasText_steady hp hl h.comment
    name := hasText_steady hp hl h.name
    attributions := h.attributions }

theorem steady_file (v : Version) : SteadyO (FileIs v) := fun _ _ _ hp hl h =>
  { name := hasText_steady hp hl h.name
    id := hasId_steady hp hl h.id
    types := hasTexts_steady hp hl h.types
    checksums := hasObjects_steady hp hl steady_checksum h.checksums
    licenseConcluded := hasText_steady hp hl h.licenseConcluded
    licenseInfo := hasTexts_steady hp hl h.licenseInfo
    licenseComments := hasText_steady hp hl h.licenseComments
    copyright := hasText_steady hp hl h.copyright
    artifacts := ite_steady (hasObjects_steady hp hl steady_artifact) h.artifacts
    comment := hasText_steady hp hl h.comment
    notice := hasText_steady hp hl h.notice
    contributors := hasTexts_steady hp hl h.contributors
    attributions := ite_steady' (hasTexts_steady hp hl) h.attributions
    dependencies := ite_steady (hasTexts_steady hp hl) h.dependencies
    snippets := h.snippets
    annotations := hasObjects_steady hp hl steady_annotation h.annotations }

theorem steady_externalRef (v : Version) : SteadyO (ExternalRefIs v) := fun _ _ _ hp hl h =>
  { category := h.category.elim fun c hc => ⟨c, hasText_steady hp hl hc.1, hc.2⟩
    type := hasText_steady hp hl h.type
    locator := hasText_steady hp hl h.locator
    comment := hasText_steady hp hl h.comment }

theorem steady_package (v : Version) : SteadyO (PackageIs v) := fun _ _ _ hp hl h =>
  { unpackaged := h.unpackaged
    name := hasText_steady hp hl h.name
    id := hasId_steady hp hl h.id
    version := hasText_steady hp hl h.version
    fileName := hasText_steady hp hl h.fileName
    supplier := has_steady (steady_option (steady_agent supplier_plain)) hp hl h.supplier
    originator := has_steady (steady_option (steady_agent originator_plain)) hp hl h.originator
    downloadLocation := hasText_steady hp hl h.downloadLocation
    analyzed := h.analyzed.elim fun o ho => ⟨o, has_steady (steady_option (steady_flag.at _)) hp hl ho.1, ho.2⟩
    code := h.code.elim fun o ho => ⟨o, has_steady (steady_option ((steady_object steady_code).at _)) hp hl ho.1, ho.2⟩
    checksums := hasObjects_steady hp hl steady_checksum h.checksums
    homePage := hasText_steady hp hl h.homePage
    sourceInfo := hasText_steady hp hl h.sourceInfo
    licenseConcluded := hasText_steady hp hl h.licenseConcluded
    licenseInfo := hasTexts_steady hp hl h.licenseInfo
    licenseDeclared := hasText_steady hp hl h.licenseDeclared
    licenseComments := hasText_steady hp hl h.licenseComments
    copyright := hasText_steady hp hl h.copyright
    summary := hasText_steady hp hl h.summary
    description := hasText_steady hp hl h.description
    comment := hasText_steady hp hl h.comment
    externalRefs := hasObjects_steady hp hl (steady_externalRef v) h.externalRefs
    attributions := ite_steady' (hasTexts_steady hp hl) h.attributions
    purpose := ite_steady (hasText_steady hp hl) h.purpose
    released := ite_steady (hasText_steady hp hl) h.released
    built := ite_steady (hasText_steady hp hl) h.built
    validUntil := ite_steady (hasText_steady hp hl) h.validUntil
    files := hasObjects_steady hp hl (steady_file v) h.files
    annotations := hasObjects_steady hp hl steady_annotation h.annotations }

theorem steady_hasFiles : SteadyO HasFilesIs := fun _ _ _ hp hl h =>
  ⟨hasId_steady hp hl h.1, has_steady ((steady_list steady_ref).at _) hp hl h.2⟩

theorem steady_relationships {v : Version} {es es' : List (Str × Json)} {id : Str} {rels : List Relationship}
    (hp : Json.agentsPlainFields es = true) (hl : Like false (.obj es) (.obj es')) (h : RelationshipsAre v es id rels) :
    RelationshipsAre v es' id rels := by
  obtain ⟨own, h1, h2⟩ := h
  refine ⟨own, hasObjects_steady hp hl steady_relationship h1, ite_steady' ?_ h2⟩
  rintro ⟨ds, os, h3, h4, h5⟩
  exact ⟨ds, os, has_steady ((steady_list steady_ref).at _) hp hl h3, hasObjects_steady hp hl steady_hasFiles h4, h5⟩

theorem steady_document (v : Version) : SteadyO (DocumentIs v) := fun _ _ _ hp hl h =>
  { version := hasText_steady hp hl h.version
    license := hasText_steady hp hl h.license
    id := hasId_steady hp hl h.id
    name := hasText_steady hp hl h.name
    namespace_ := hasText_steady hp hl h.namespace_
    externalDocuments := hasObjects_steady hp hl steady_externalDocument h.externalDocuments
    comment := hasText_steady hp hl h.comment
    creation := has_steady (steady_option ((steady_object steady_creation).at _)) hp hl h.creation
    packages := hasObjects_steady hp hl (steady_package v) h.packages
    files := hasObjects_steady hp hl (steady_file v) h.files
    licenses := hasObjects_steady hp hl steady_license h.licenses
    relationships := steady_relationships hp hl h.relationships
    annotations := hasObjects_steady hp hl steady_annotation h.annotations
    snippets := hasObjects_steady hp hl steady_snippet h.snippets
    reviews := h.reviews }

end Verif
