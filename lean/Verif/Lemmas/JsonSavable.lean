import Verif.Spec.JsonSavable
import Verif.Lemmas.JsonSays

/-!
# Loading JSON and saving it
-/

namespace Verif
open Spec

theorem written_asItIs {html : Bool} {j : Json} {raw : Str} (h : AsItIs html j raw) : written j = raw := by
  obtain ⟨rfl, h, -⟩ := h
  rw [← written_eq]
  exact trimQuotes_quoted h

theorem htmlSafe_parts {html : Bool} {a b : Str} : HtmlSafe html (a ++ b) ↔ HtmlSafe html a ∧ HtmlSafe html b := by
  unfold HtmlSafe
  constructor
  · intro h
    exact ⟨fun e c hc => h e c (by simp [hc]), fun e c hc => h e c (by simp [hc])⟩
  · rintro ⟨h1, h2⟩ e c hc
    rcases List.mem_append.1 hc with hc | hc
    · exact h1 e c hc
    · exact h2 e c hc

theorem jsonId_of_given {html : Bool} {pre key id : Str} {es : List (Str × Json)} (hg : GivenId html pre key es)
    (h : Has es key (IdIs pre) [] id) : JsonId html pre id := by
  obtain ⟨j, raw, he, hr, hn⟩ := hg
  rcases h with ⟨h, -⟩ | ⟨j', h, h1, h2⟩
  · rw [he] at h
    cases h
  · rw [he] at h
    cases h
    rw [written_asItIs hr] at h1
    subst h1
    exact ⟨(plain_append.1 hr.2.1).2, (htmlSafe_parts.1 hr.2.2).2, h2,
      hasPrefix_false_iff.2 fun r e => hn r (by rw [e]; simp)⟩

theorem jsonRef_of {html : Bool} {j : Json} {r : DocElementID} (hs : SavableRef html j) (h : RefIs j r) : JsonRefIn html r := by
  obtain ⟨raw, hr, h1, h2, h3, h4⟩ := hs
  unfold RefIs at h
  rw [written_asItIs hr] at h
  obtain ⟨-, hp, hh⟩ := hr
  rcases h with ⟨h, rfl⟩ | ⟨e, rfl, hne, rfl⟩ | ⟨d, rfl, hc, hne, rfl⟩ | ⟨d, e, rfl, hc, hd, he, rfl⟩
  · rcases h with rfl | rfl
    · exact ⟨.none, fun _ => by simp, fun _ => by simp⟩
    · exact ⟨.noassertion, fun _ => by simp, fun _ => by simp⟩
  · exact ⟨.element e (plain_append.1 hp).2 hne (hasPrefix_false_iff.2 fun r e' => h1 r (by rw [e']; simp)),
      fun _ => by simp, (htmlSafe_parts.1 hh).2⟩
  · exact absurd (h4 d rfl) hc
  · simp only [plain_append] at hp
    simp only [htmlSafe_parts] at hh
    exact ⟨.external d e hp.1.1.2 hd hc (hasPrefix_false_iff.2 fun r e' => h2 (r ++ g!":SPDXRef-" ++ e) (by rw [e']; simp))
      hp.2 he (hasPrefix_false_iff.2 fun r e' => h3 (g!"DocumentRef-" ++ d) r (by rw [e']; simp)), hh.1.1.2, hh.2⟩

theorem plain_trimSpace {s : Str} (h : Plain s) : Plain (trimSpace s) := fun c hc => h c (mem_of_mem_trim hc)

theorem htmlSafe_trimSpace {html : Bool} {s : Str} (h : HtmlSafe html s) : HtmlSafe html (trimSpace s) :=
  fun e c hc => h e c (mem_of_mem_trim hc)

theorem jsonAgent_of {html : Bool} {raw kind name : Str} (hp : Plain raw) (hh : HtmlSafe html raw) (h : ColonPair raw kind name) :
    JsonAgent kind name ∧ HtmlSafe html kind ∧ HtmlSafe html name := by
  obtain ⟨a, b, rfl, hc, rfl, rfl⟩ := h
  simp only [plain_append] at hp
  simp only [htmlSafe_parts] at hh
  exact ⟨⟨plain_trimSpace hp.1.1, plain_trimSpace hp.2, fun hm => hc (mem_of_mem_trim hm), trim_trim _ _, trim_trim _ _⟩,
    htmlSafe_trimSpace hh.1.1, htmlSafe_trimSpace hh.2⟩

theorem jsonCreator_of {html : Bool} {j : Json} {c : Creator} (hs : SavableAgent html j) (h : CreatorIs j c) : JsonCreator html c := by
  obtain ⟨raw, hr, hn⟩ := hs
  unfold CreatorIs at h
  rw [written_asItIs hr] at h
  obtain ⟨h1, h2, h3⟩ := jsonAgent_of hr.2.1 hr.2.2 h
  exact ⟨hn _ _ h, h1, h2, h3⟩

theorem has_one {β : Type} {es : List (Str × Json)} {key : Str} {says : Json → β → Prop} {unset x : β} {j : Json}
    (he : entries key es = [j]) (h : Has es key says unset x) : says j x := by
  rcases h with ⟨h, -⟩ | ⟨j', h, h1⟩
  · rw [he] at h
    cases h
  · rw [he] at h
    cases h
    exact h1

theorem jsonAnnotation_of {html : Bool} {es : List (Str × Json)} {a : Annotation} (hs : SavableAnnotation html es)
    (h : AnnotationIs es a) : JsonAnnotation html a := by
  obtain ⟨j, he, raw, hr, hn⟩ := hs
  have := has_one he h.annotator
  unfold AnnotatorIs at this
  rw [written_asItIs hr] at this
  obtain ⟨h1, h2, h3⟩ := jsonAgent_of hr.2.1 hr.2.2 this
  exact ⟨hn _ _ this, h1, h2, h3⟩

theorem pointwise_right {α β : Type} {R : α → β → Prop} {l : List α} {m : List β} (h : Pointwise R l m) :
    ∀ b ∈ m, ∃ a ∈ l, R a b := by
  induction h with
  | nil => simp
  | cons h _ ih =>
    intro b hb
    rcases List.mem_cons.1 hb with rfl | hb
    · exact ⟨_, by simp, h⟩
    · obtain ⟨a, ha, hr⟩ := ih b hb
      exact ⟨a, by simp [ha], hr⟩

/-- What holds for the entries of an array holds for what they say. -/
theorem each_list {β : Type} {es : List (Str × Json)} {key : Str} {says : Json → β → Prop} {P : Json → Prop} {Q : β → Prop} {l : List β}
    (hs : Under es key (EachEntry P)) (h : Has es key (ListIs says) [] l) (hq : ∀ j x, P j → says j x → Q x) : ∀ x ∈ l, Q x := by
  intro x hx
  rcases h with ⟨-, rfl⟩ | ⟨j, he, ⟨js, rfl, hp⟩ | ⟨-, rfl⟩⟩
  · cases hx
  · obtain ⟨a, ha, hr⟩ := pointwise_right hp x hx
    exact hq a x (hs _ (by rw [he]; simp) js rfl a ha) hr
  · cases hx

/-- The same for objects. -/
theorem each_object {β : Type} {es : List (Str × Json)} {key : Str} {says : List (Str × Json) → β → Prop} {unset : β}
    {P : List (Str × Json) → Prop} {Q : β → Prop} {l : List β} (hs : Under es key (EachEntry (AnObject P)))
    (h : HasObjects es key says unset l) (hq : ∀ o x, P o → says o x → Q x) : ∀ x ∈ l, Q x :=
  each_list hs h fun j x ⟨o, e, hp⟩ hx => by
    subst e
    rcases hx with ⟨o', e, hx⟩ | ⟨e, -⟩
    · cases e
      exact hq o x hp hx
    · cases e

/-- What objects say, without a condition on them. -/
theorem all_objects {β : Type} {es : List (Str × Json)} {key : Str} {says : List (Str × Json) → β → Prop} {unset : β}
    {Q : β → Prop} {l : List β} (h : HasObjects es key says unset l) (h0 : Q unset) (hq : ∀ o x, says o x → Q x) :
    ∀ x ∈ l, Q x := by
  refine each_list (P := fun _ => True) (fun _ _ _ _ _ _ => trivial) h fun j x _ hx => ?_
  rcases hx with ⟨o, -, hx⟩ | ⟨-, rfl⟩
  · exact hq o x hx
  · exact h0

theorem jsonFile_of {html : Bool} {v : Version} {es : List (Str × Json)} {f : FileV} (hs : SavableFile html es)
    (h : FileIs v es f) : JsonFile html f where
  id := jsonId_of_given hs.id h.id
  annotations := each_object hs.annotations h.annotations fun _ _ => jsonAnnotation_of

theorem jsonSupplier_of {html : Bool} {j : Json} {s : Supplier} (hs : SavableSupplier html j) (h : SupplierIs j s) :
    JsonPartyIn html s.supplierType s.supplier := by
  obtain ⟨raw, hr, hn⟩ := hs
  unfold SupplierIs at h
  rw [written_asItIs hr] at h
  rcases h with ⟨-, rfl⟩ | h
  · exact ⟨.inl ⟨rfl, rfl⟩, fun _ => by simp, fun _ => by decide⟩
  · obtain ⟨h1, h2, h3⟩ := jsonAgent_of hr.2.1 hr.2.2 h
    obtain ⟨h4, h5, h6⟩ := hn _ _ h
    exact ⟨.inr ⟨h4, h5, h6, h1⟩, h2, h3⟩

theorem jsonOriginator_of {html : Bool} {j : Json} {s : Originator} (hs : SavableOriginator html j) (h : OriginatorIs j s) :
    JsonPartyIn html s.originatorType s.originator := by
  obtain ⟨raw, hr, hn⟩ := hs
  unfold OriginatorIs at h
  rw [written_asItIs hr] at h
  obtain ⟨-, hp, hh⟩ := hr
  rcases h with ⟨-, rfl⟩ | ⟨b, rfl, hc, e⟩
  · exact ⟨.inl ⟨rfl, rfl⟩, fun _ => by simp, fun _ => by decide⟩
  · obtain ⟨h4, h5, name, h6, h7, h8, h9⟩ := hn _ _ rfl hc
    have e' : s.originator = name := by rw [e, h6]
    simp only [plain_append] at hp
    simp only [htmlSafe_parts] at hh
    have hm : ∀ c ∈ s.originator, c ∈ b := fun c hc => by
      rw [e] at hc
      exact (List.dropWhile_suffix _).subset hc
    refine ⟨.inr ⟨h4, by rw [e']; exact h7, by rw [e']; exact h9, hp.1.1, fun c hc => hp.2 c (hm c hc), hc, h5, by rw [e']; exact h8⟩,
      hh.1.1, fun e c hc => hh.2 e c (hm c hc)⟩

theorem each_option {β : Type} {es : List (Str × Json)} {key : Str} {says : Json → β → Prop} {P : Json → Prop} {Q : β → Prop} {o : Option β}
    (hs : Under es key fun j => j = .null ∨ P j) (h : Has es key (OptionIs says) none o) (hq : ∀ j x, P j → says j x → Q x) :
    ∀ x, o = some x → Q x := by
  rintro x rfl
  rcases h with ⟨-, h⟩ | ⟨j, he, ⟨-, h⟩ | ⟨hj, y, e, h⟩⟩
  · cases h
  · cases h
  · cases e
    exact hq j x ((hs j (by rw [he]; simp)).resolve_left hj) h

theorem jsonPackage_of {html : Bool} {v : Version} {es : List (Str × Json)} {p : PackageV} (hs : SavablePackage html es)
    (h : PackageIs v es p) : JsonPackage html p where
  id := jsonId_of_given hs.id h.id
  supplier := each_option hs.supplier h.supplier fun _ _ => jsonSupplier_of
  originator := each_option hs.originator h.originator fun _ _ => jsonOriginator_of
  files := each_object hs.files h.files fun _ _ => jsonFile_of
  annotations := each_object hs.annotations h.annotations fun _ _ => jsonAnnotation_of

theorem int64_of {es : List (Str × Json)} {key : Str} {n : Int} (h : Has es key NumberIs 0 n) : IsInt64 n := by
  rcases h with ⟨-, rfl⟩ | ⟨j, -, ⟨l, -, h1, h2, -⟩ | ⟨-, rfl⟩⟩
  · exact ⟨by decide, by decide⟩
  · exact ⟨h1, h2⟩
  · exact ⟨by decide, by decide⟩

theorem jsonPointer_of {html : Bool} {es : List (Str × Json)} {key : Str} {p : RangePointer} (hs : SavablePointer html key es)
    (h : Has es key (ObjectIs PointerIs {}) {} p) : JsonPointer html p := by
  obtain ⟨o, he, hg⟩ := hs
  rcases has_one he h with ⟨o', e, h⟩ | ⟨e, -⟩
  · cases e
    exact ⟨jsonId_of_given hg h.file, int64_of h.offset, int64_of h.line⟩
  · cases e

theorem jsonSnippet_of {html : Bool} {es : List (Str × Json)} {s : Snippet} (hs : SavableSnippet html es) (h : SnippetIs es s) :
    JsonSnippet html s where
  id := jsonId_of_given hs.id h.id
  fromFile := jsonId_of_given hs.fromFile h.fromFile
  ranges := each_object hs.ranges h.ranges fun _ _ hs h => ⟨jsonPointer_of hs.1 h.start, jsonPointer_of hs.2 h.stop⟩

theorem completed_mem {own wanted : List Relationship} : ∀ r ∈ completed own wanted, r ∈ own ∨ r ∈ wanted := by
  unfold completed
  induction wanted generalizing own with
  | nil => intro r hr; exact .inl hr
  | cons w ws ih =>
    intro r hr
    rcases ih r hr with h | h
    · simp only at h
      split at h
      · exact .inl h
      · rcases List.mem_append.1 h with h | h
        · exact .inl h
        · exact .inr (by simp [List.mem_singleton.1 h])
    · exact .inr (by simp [h])

theorem jsonRefIn_of_id {html : Bool} {id : Str} (h : JsonId html g!"SPDXRef-" id) : JsonRefIn html { elementRefID := id } :=
  ⟨.element id h.plain h.nonempty h.bare, fun _ => by simp, h.safe⟩

/-- What a savable object says can be carried by JSON. -/
theorem jsonDocument_of {html : Bool} {v : Version} {es : List (Str × Json)} {d : Doc} (hs : SavableJson html es)
    (h : DocumentIs v es d) : JsonDocument html d where
  id := jsonId_of_given hs.id h.id
  refs := each_object hs.externalDocuments h.externalDocuments fun _ _ hs h => jsonId_of_given hs h.id
  creators := by
    have : Under es g!"creationInfo" fun j => j = .null ∨ ∀ o, j = .obj o → Under o g!"creators" (EachEntry (SavableAgent html)) :=
      fun j hj => .inr (hs.creators j hj)
    refine each_option this h.creation fun j x hp hx => ?_
    rcases hx with ⟨o, rfl, hx⟩ | ⟨-, rfl⟩
    · exact each_list (hp o rfl) hx.creators fun _ _ => jsonCreator_of
    · simp
  packages := each_object hs.packages h.packages fun _ _ => jsonPackage_of
  files := each_object hs.files h.files fun _ _ => jsonFile_of
  relationships := by
    obtain ⟨own, h1, h2⟩ := h.relationships
    have ho : ∀ r ∈ own, JsonRefIn html r.refA ∧ JsonRefIn html r.refB :=
      each_object hs.relationships h1 fun _ _ ⟨_, _, e1, e2, s1, s2⟩ h =>
        ⟨jsonRef_of s1 (has_one e1 h.left), jsonRef_of s2 (has_one e2 h.right)⟩
    split at h2
    · subst h2
      exact ho
    · obtain ⟨ds, owners, h3, h4, e⟩ := h2
      intro r hr
      rw [e] at hr
      rcases completed_mem r hr with hr | hr
      · exact ho r hr
      · rcases List.mem_append.1 hr with hr | hr
        · obtain ⟨x, hx, rfl⟩ := List.mem_map.1 hr
          exact ⟨jsonRefIn_of_id (jsonId_of_given hs.id h.id), each_list hs.describes h3 (fun _ _ => jsonRef_of) x hx⟩
        · obtain ⟨o, ho, hr⟩ := List.mem_flatMap.1 hr
          obtain ⟨x, hx, rfl⟩ := List.mem_map.1 hr
          have := each_object (Q := fun (o : Str × List DocElementID) => JsonId html g!"SPDXRef-" o.1 ∧ ∀ x ∈ o.2, JsonRefIn html x)
            hs.packages h4 (fun _ _ hs h => ⟨jsonId_of_given hs.id h.1, each_list hs.hasFiles h.2 fun _ _ => jsonRef_of⟩) o ho
          exact ⟨jsonRefIn_of_id this.1, this.2 x hx⟩
  annotations := each_object hs.annotations h.annotations fun _ _ => jsonAnnotation_of
  snippets := each_object hs.snippets h.snippets fun _ _ => jsonSnippet_of

/-! ## Nothing else is lost -/

theorem wholeFile_of {v : Version} {es : List (Str × Json)} {f : FileV} (h : FileIs v es f) : WholeFile v f where
  snippets := h.snippets
  annotations := all_objects h.annotations rfl fun _ _ h => h.subject
  texts := fun hv => by have := h.attributions; rwa [if_pos hv] at this
  old := fun hv => ⟨by have := h.artifacts; rwa [if_neg hv] at this, by have := h.dependencies; rwa [if_neg hv] at this⟩

theorem wholeFile_empty (v : Version) : WholeFile v {} := ⟨rfl, by simp, fun _ => rfl, fun _ => ⟨rfl, rfl⟩⟩

theorem wholePackage_of {v : Version} {es : List (Str × Json)} {p : PackageV} (h : PackageIs v es p) :
    WholePackage v { p with filesAnalyzedTagPresent := decide (v ≠ .v21) } where
  unpackaged := h.unpackaged
  tag := rfl
  code := by
    intro hv
    obtain ⟨o, -, e⟩ := h.code
    simp only [e]
    split
    · simp
    · rename_i hn
      exact fun e => hn ⟨hv, e⟩
  refs := by
    intro hv
    refine all_objects (Q := fun (r : PackageExternalRef) => '_' ∉ r.category) h.externalRefs (by decide) fun _ r h => ?_
    obtain ⟨c, -, e⟩ := h.category
    rw [e, if_neg hv]
    intro hm
    obtain ⟨x, -, hx⟩ := List.mem_map.1 hm
    split at hx
    · exact absurd hx (by decide)
    · rename_i hn
      exact hn hx
  files := all_objects h.files (wholeFile_empty v) fun _ _ => wholeFile_of
  annotations := all_objects h.annotations rfl fun _ _ h => h.subject
  texts := fun hv => by have := h.attributions; rwa [if_pos hv] at this
  old := fun hv => ⟨by have := h.purpose; rwa [if_neg hv] at this, by have := h.released; rwa [if_neg hv] at this,
    by have := h.built; rwa [if_neg hv] at this, by have := h.validUntil; rwa [if_neg hv] at this⟩

theorem wholeDoc_of {v : Version} {es : List (Str × Json)} {d : Doc} (h : DocumentIs v es d) : WholeDoc v (flagged v d) where
  reviews := h.reviews
  packages := by
    intro p hp
    obtain ⟨q, hq, rfl⟩ := List.mem_map.1 hp
    exact all_objects (Q := fun (p : PackageV) => WholePackage v { p with filesAnalyzedTagPresent := decide (v ≠ .v21) })
      h.packages ⟨rfl, rfl, by simp, by simp, by simp, by simp, by simp, by simp⟩ (fun _ _ => wholePackage_of) q hq
  files := all_objects h.files (wholeFile_empty v) fun _ _ => wholeFile_of
  annotations := all_objects h.annotations rfl fun _ _ h => h.subject
  snippets := all_objects h.snippets rfl fun _ _ h => h.attributions

end Verif
