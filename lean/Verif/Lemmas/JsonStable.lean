import Verif.Props.C57_JsonSays
import Verif.Props.C68_JsonLoadSave

/-!
# The JSON value written for a document

It has no key twice and no entry `null`, it does not depend on the sorting routine, and only on what is kept.
-/

namespace Verif
open Spec

/-! ## Tidiness -/

/-- What the encoder makes of values is tidy. -/
def Tidies {β : Type} (c : Codec β) : Prop := ∀ b j, c.enc b = .ok j → tidy j = true

/-- What the encoder makes of a value is tidy and not `null`. -/
def TidyAt {β : Type} (c : Codec β) (b : β) : Prop := ∀ j, c.enc b = .ok j → tidy j = true ∧ j ≠ .null

theorem tidyAt_str (s : Str) : TidyAt strCodec s := by rintro j ⟨⟩; exact ⟨rfl, by simp⟩
theorem tidyAt_bool (b : Bool) : TidyAt boolCodec b := by rintro j ⟨⟩; exact ⟨rfl, by simp⟩
theorem tidyAt_int (n : Int) : TidyAt intCodec n := by rintro j ⟨⟩; exact ⟨rfl, by simp⟩

theorem tidyAt_text {β : Type} {toJson : β → Res Str} {ofJson : β → Str → Res β} (b : β) : TidyAt (textCodec toJson ofJson) b := by
  intro j hj
  simp only [textCodec] at hj
  cases h : toJson b with
  | err => rw [h] at hj; cases hj
  | panic => rw [h] at hj; cases hj
  | ok t =>
    rw [h, Res.bind_ok] at hj
    unfold ofMarshaled at hj
    split at hj
    · cases hj; exact ⟨rfl, by simp⟩
    · cases hj

theorem tidies_of {β : Type} {c : Codec β} (h : ∀ b, TidyAt c b) : Tidies c := fun b j hj => (h b j hj).1

theorem mapRes_tidy {β : Type} {c : Codec β} : ∀ {l : List β} {js : List Json}, (∀ b ∈ l, TidyAt c b) → mapRes c.enc l = .ok js →
    tidyList js = true
  | [], js, _, h => by cases h; rfl
  | b :: l, js, hl, h => by
    rw [mapRes] at h
    cases h1 : c.enc b with
    | err => rw [h1] at h; cases h
    | panic => rw [h1] at h; cases h
    | ok j =>
      rw [h1, Res.bind_ok] at h
      cases h2 : mapRes c.enc l with
      | err => rw [h2] at h; cases h
      | panic => rw [h2] at h; cases h
      | ok m =>
        rw [h2, Res.bind_ok] at h
        cases h
        obtain ⟨h3, h4⟩ := hl b (by simp) j h1
        exact tidyList_cons.2 ⟨h4, h3, mapRes_tidy (fun x hx => hl x (by simp [hx])) h2⟩

theorem list_tidy {β : Type} {zero : β} {c : Codec β} {l : List β} (hl : ∀ b ∈ l, TidyAt c b) {j : Json}
    (h : (listCodec zero c).enc l = .ok j) : tidy j = true := by
  cases l with
  | nil => cases h; rfl
  | cons b l =>
    simp only [listCodec] at h
    cases h2 : mapRes c.enc (b :: l) with
    | err => rw [h2] at h; cases h
    | panic => rw [h2] at h; cases h
    | ok m =>
      rw [h2, Res.bind_ok] at h
      cases h
      exact mapRes_tidy hl h2

theorem tidies_list {β : Type} {zero : β} {c : Codec β} (h : ∀ b, TidyAt c b) : Tidies (listCodec zero c) :=
  fun _ _ hj => list_tidy (fun b _ => h b) hj

theorem tidies_ptrList {β : Type} {zero : β} {c : Codec β} (h : ∀ b, TidyAt c b) : Tidies (ptrListCodec zero c) :=
  fun _ _ hj => list_tidy (zero := zero) (c := { enc := c.enc, dec := _ }) (fun b _ => h b) hj

theorem tidies_ptr {β : Type} {zero : β} {c : Codec β} (h : Tidies c) : Tidies (ptrCodec zero c) := by
  intro o j hj
  cases o with
  | none => cases hj; rfl
  | some b => exact h b j hj

theorem fields_tidy {σ : Type} {s : σ} : ∀ {fs : List (Field σ)} {es : List (Str × Json)},
    (∀ f ∈ fs, ∀ j, f.codec.enc (f.get s) = .ok j → tidy j = true) → encodeFields s fs = .ok es → (es.map (·.1)).Sublist (fs.map (·.key)) ∧ ∀ e ∈ es, tidy e.2 = true
  | [], es, _, h => by cases h; exact ⟨.slnil, by simp⟩
  | f :: fs, es, hf, h => by
    rw [encodeFields] at h
    split at h
    · obtain ⟨h1, h2⟩ := fields_tidy (fun x hx => hf x (by simp [hx])) h
      exact ⟨h1.cons _, h2⟩
    · cases h1 : f.codec.enc (f.get s) with
      | err => rw [h1] at h; cases h
      | panic => rw [h1] at h; cases h
      | ok j =>
        rw [h1, Res.bind_ok] at h
        cases h2 : encodeFields s fs with
        | err => rw [h2] at h; cases h
        | panic => rw [h2] at h; cases h
        | ok m =>
          rw [h2, Res.bind_ok] at h
          cases h
          obtain ⟨h3, h4⟩ := fields_tidy (fun x hx => hf x (by simp [hx])) h2
          refine ⟨h3.cons_cons _, fun e he => ?_⟩
          rcases List.mem_cons.1 he with rfl | he
          · exact hf f (by simp) _ h1
          · exact h4 e he

theorem obj_tidy {es : List (Str × Json)} (h1 : KeysDiffer (es.map (·.1))) (h2 : ∀ e ∈ es, tidy e.2 = true) : tidy (.obj es) = true := by
  show (decide (OneEach es) && tidyFields es) = true
  rw [tidyFields_iff.2 h2, Bool.and_true]
  exact decide_eq_true h1

theorem tidyAt_struct {σ : Type} {fs : List (Field σ)} (hk : KeysDiffer (fs.map (·.key))) (hf : ∀ f ∈ fs, Tidies f.codec) (s : σ) :
    TidyAt (structCodec fs) s := by
  intro j hj
  simp only [structCodec] at hj
  cases h : encodeFields s fs with
  | err => rw [h] at hj; cases hj
  | panic => rw [h] at hj; cases hj
  | ok es =>
    rw [h, Res.bind_ok] at hj
    cases hj
    obtain ⟨h1, h2⟩ := fields_tidy (fun f hm => hf f hm _) h
    exact ⟨obj_tidy (keysDiffer_sublist h1 hk) h2, by simp⟩

theorem tidies_str : Tidies strCodec := tidies_of tidyAt_str
theorem tidies_bool : Tidies boolCodec := tidies_of tidyAt_bool
theorem tidies_int : Tidies intCodec := tidies_of tidyAt_int
theorem tidies_strs : Tidies strsCodec := tidies_list tidyAt_str
theorem tidies_text {β : Type} {toJson : β → Res Str} {ofJson : β → Str → Res β} : Tidies (textCodec toJson ofJson) := tidies_of tidyAt_text

/-- All fields of a list; a list of fields of a struct by its parts. -/
def AllTidy {σ : Type} (fs : List (Field σ)) : Prop := ∀ f ∈ fs, Tidies f.codec

section
variable {σ : Type} {f : Field σ} {fs gs : List (Field σ)}
theorem allTidy_nil : AllTidy ([] : List (Field σ)) := by simp [AllTidy]
theorem allTidy_cons (h : Tidies f.codec) (t : AllTidy fs) : AllTidy (f :: fs) := by
  intro x hx
  rcases List.mem_cons.1 hx with rfl | hx
  · exact h
  · exact t x hx
theorem allTidy_append (h : AllTidy fs) (t : AllTidy gs) : AllTidy (fs ++ gs) := by
  intro x hx
  rcases List.mem_append.1 hx with hx | hx
  · exact h x hx
  · exact t x hx
theorem allTidy_only {b : Bool} (h : Tidies f.codec) : AllTidy (only b f) := by
  unfold only
  split
  · exact allTidy_cons h allTidy_nil
  · exact allTidy_nil
end

theorem tidyAt_checksum : ∀ c, TidyAt checksumCodec c :=
  tidyAt_struct (by decide) <| allTidy_cons tidies_str <| allTidy_cons tidies_str allTidy_nil
theorem tidyAt_code : ∀ c, TidyAt codeCodec c :=
  tidyAt_struct (by decide) <| allTidy_cons tidies_str <| allTidy_cons tidies_strs allTidy_nil
theorem tidyAt_pointer : ∀ c, TidyAt pointerCodec c :=
  tidyAt_struct (by decide) <| allTidy_cons tidies_int <| allTidy_cons tidies_int <| allTidy_cons tidies_text allTidy_nil
theorem tidyAt_range : ∀ c, TidyAt rangeCodec c :=
  tidyAt_struct (by decide) <| allTidy_cons (tidies_of tidyAt_pointer) <| allTidy_cons (tidies_of tidyAt_pointer) allTidy_nil
theorem tidyAt_externalDoc : ∀ c, TidyAt externalDocCodec c :=
  tidyAt_struct (by decide) <| allTidy_cons tidies_text <| allTidy_cons tidies_str <| allTidy_cons (tidies_of tidyAt_checksum) allTidy_nil
theorem tidyAt_creationInfo : ∀ c, TidyAt creationInfoCodec c :=
  tidyAt_struct (by decide) <| allTidy_cons tidies_str <| allTidy_cons (tidies_list tidyAt_text) <| allTidy_cons tidies_str <|
    allTidy_cons tidies_str allTidy_nil
theorem tidyAt_annotation : ∀ c, TidyAt annotationCodec c :=
  tidyAt_struct (by decide) <| allTidy_cons tidies_text <| allTidy_cons tidies_str <| allTidy_cons tidies_str <|
    allTidy_cons tidies_str allTidy_nil
theorem tidyAt_relationship : ∀ c, TidyAt relationshipCodec c :=
  tidyAt_struct (by decide) <| allTidy_cons tidies_text <| allTidy_cons tidies_text <| allTidy_cons tidies_str <|
    allTidy_cons tidies_str allTidy_nil
theorem tidyAt_otherLicense : ∀ c, TidyAt otherLicenseCodec c :=
  tidyAt_struct (by decide) <| allTidy_cons tidies_str <| allTidy_cons tidies_str <| allTidy_cons tidies_str <|
    allTidy_cons tidies_strs <| allTidy_cons tidies_str allTidy_nil
theorem tidyAt_artifact : ∀ c, TidyAt artifactCodec c :=
  tidyAt_struct (by decide) <| allTidy_cons tidies_str <| allTidy_cons tidies_str <| allTidy_cons tidies_str allTidy_nil
theorem tidyAt_snippet (v : Version) : ∀ c, TidyAt (snippetCodec v) c :=
  tidyAt_struct (by cases v <;> decide) <| allTidy_cons tidies_text <| allTidy_cons tidies_text <| allTidy_cons (tidies_list tidyAt_range) <|
    allTidy_cons tidies_str <| allTidy_cons tidies_strs <| allTidy_cons tidies_str <| allTidy_cons tidies_str <|
    allTidy_cons tidies_str <| allTidy_cons tidies_str allTidy_nil
theorem tidyAt_file (v : Version) : ∀ c, TidyAt (fileCodec v) c :=
  tidyAt_struct (keys_file v) <| allTidy_append (allTidy_append (allTidy_append (allTidy_append (allTidy_append
    (allTidy_cons tidies_str <| allTidy_cons tidies_text <| allTidy_cons tidies_strs <| allTidy_cons (tidies_list tidyAt_checksum) <|
      allTidy_cons tidies_str <| allTidy_cons tidies_strs <| allTidy_cons tidies_str <| allTidy_cons tidies_str allTidy_nil)
    (allTidy_only (tidies_ptrList tidyAt_artifact)))
    (allTidy_cons tidies_str <| allTidy_cons tidies_str <| allTidy_cons tidies_strs allTidy_nil))
    (allTidy_only tidies_strs)) (allTidy_only tidies_strs)) (allTidy_cons (tidies_list tidyAt_annotation) allTidy_nil)
theorem tidyAt_externalRef (v : Version) : ∀ c, TidyAt (externalRefCodec v) c := fun c =>
  tidyAt_struct (by decide) (allTidy_cons tidies_str <| allTidy_cons tidies_str <| allTidy_cons tidies_str <|
    allTidy_cons tidies_str allTidy_nil) _

theorem tidy_package_fields (v : Version) : AllTidy (packageFields v) := by
  refine allTidy_append ?_ (allTidy_cons ?_ ?_)
  · exact allTidy_cons tidies_str <| allTidy_cons tidies_text <| allTidy_cons tidies_str <| allTidy_cons tidies_str <|
      allTidy_cons (tidies_ptr tidies_text) <| allTidy_cons (tidies_ptr tidies_text) <| allTidy_cons tidies_str <|
      allTidy_cons tidies_bool allTidy_nil
  · cases v
    · exact tidies_of tidyAt_code
    · exact tidies_of tidyAt_code
    · exact tidies_ptr (tidies_of tidyAt_code)
  · exact allTidy_append (allTidy_append (allTidy_append (allTidy_append (allTidy_append (allTidy_append
      (allTidy_cons (tidies_list tidyAt_checksum) <| allTidy_cons tidies_str <| allTidy_cons tidies_str <| allTidy_cons tidies_str <|
        allTidy_cons tidies_strs <| allTidy_cons tidies_str <| allTidy_cons tidies_str <| allTidy_cons tidies_str <| allTidy_cons tidies_str <|
        allTidy_cons tidies_str <| allTidy_cons tidies_str <| allTidy_cons (tidies_ptrList (tidyAt_externalRef v)) allTidy_nil)
      (allTidy_only tidies_strs)) (allTidy_only tidies_str)) (allTidy_only tidies_str)) (allTidy_only tidies_str))
      (allTidy_only tidies_str))
      (allTidy_cons (tidies_ptrList (tidyAt_file v)) <| allTidy_cons (tidies_list tidyAt_annotation) allTidy_nil)

/-! ## The sorting routine -/

theorem sortKeysFields_keys (so : Sorter) : ∀ l : List (Str × Json), (Json.sortKeysFields so l).map (·.1) = l.map (·.1)
  | [] => by rw [Json.sortKeysFields]
  | (k, j) :: l => by rw [Json.sortKeysFields, List.map_cons, List.map_cons, sortKeysFields_keys so l]

mutual
theorem sortKeys_any (so so' : Sorter) : ∀ j : Json, tidy j = true → j.sortKeys so = j.sortKeys so'
  | .null, _ => by rw [Json.sortKeys, Json.sortKeys]
  | .bool _, _ => by rw [Json.sortKeys, Json.sortKeys]
  | .num _, _ => by rw [Json.sortKeys, Json.sortKeys]
  | .str _, _ => by rw [Json.sortKeys, Json.sortKeys]
  | .arr l, h => by rw [Json.sortKeys, Json.sortKeys, sortKeysList_any so so' l h]
  | .obj l, h => by
    have h' : (decide (OneEach l) && tidyFields l) = true := h
    rw [Bool.and_eq_true] at h'
    rw [Json.sortKeys, Json.sortKeys, sortKeysFields_any so so' l h'.2]
    refine congrArg Json.obj (sort_eq so so' (.refl _) ?_)
    rw [sortKeysFields_keys]
    exact keysDiffer_nodup (of_decide_eq_true h'.1)
theorem sortKeysList_any (so so' : Sorter) : ∀ l : List Json, tidyList l = true → Json.sortKeysList so l = Json.sortKeysList so' l
  | [], _ => by rw [Json.sortKeysList, Json.sortKeysList]
  | j :: l, h => by
    have h' := tidyList_cons.1 h
    rw [Json.sortKeysList, Json.sortKeysList, sortKeys_any so so' j h'.2.1, sortKeysList_any so so' l h'.2.2]
theorem sortKeysFields_any (so so' : Sorter) : ∀ l : List (Str × Json), tidyFields l = true →
    Json.sortKeysFields so l = Json.sortKeysFields so' l
  | [], _ => by rw [Json.sortKeysFields, Json.sortKeysFields]
  | (k, j) :: l, h => by
    have h' : (tidy j && tidyFields l) = true := h
    rw [Bool.and_eq_true] at h'
    rw [Json.sortKeysFields, Json.sortKeysFields, sortKeys_any so so' j h'.1, sortKeysFields_any so so' l h'.2]
end

theorem filtered_tidy {es : List (Str × Json)} (p : Str × Json → Bool) (h : tidy (.obj es) = true) : tidy (.obj (es.filter p)) = true := by
  obtain ⟨h1, h2⟩ := tidy_obj h
  exact obj_tidy (keysDiffer_sublist (List.filter_sublist.map _) h1) fun e he => h2 e (List.mem_filter.1 he).1

theorem packageEntries_tidy {v : Version} {p : PackageV} {es : List (Str × Json)} (h : encodeFields p (packageFields v) = .ok es) :
    tidy (.obj es) = true := by
  obtain ⟨h1, h2⟩ := fields_tidy (fun f hm => tidy_package_fields v f hm _) h
  exact obj_tidy (keysDiffer_sublist h1 (keys_package v)) h2

theorem encodePackage_any (so so' : Sorter) (v : Version) (p : PackageV × List DocElementID) :
    encodePackage so v p = encodePackage so' v p := by
  cases v with
  | v21 => rfl
  | v23 => rfl
  | v22 =>
    unfold encodePackage
    cases h : encodeFields p.1 (packageFields .v22) with
    | err => rfl
    | panic => rfl
    | ok es =>
      simp only [Res.bind_ok]
      split
      · rw [sortKeys_any so so' _ (filtered_tidy _ (packageEntries_tidy h))]
      · rfl

theorem packageCodec_any (so so' : Sorter) (v : Version) : packageCodec so v = packageCodec so' v := by
  unfold packageCodec
  rw [show encodePackage so v = encodePackage so' v from funext (encodePackage_any so so' v)]

theorem docFields_any (so so' : Sorter) (v : Version) : docFields so v = docFields so' v := by
  unfold docFields
  rw [packageCodec_any so so' v]

theorem writeJson_any (so so' : Sorter) (v : Version) (html : Bool) (d : Doc) : writeJson so v html d = writeJson so' v html d := by
  unfold writeJson
  rw [docFields_any so so' v]

theorem decodeDoc_any (so so' : Sorter) (v : Version) (j : Json) : decodeDoc so v j = decodeDoc so' v j := by
  unfold decodeDoc
  rw [docFields_any so so' v]

/-! ## The document -/

theorem sortKeys_tidy (so : Sorter) {j : Json} (h : tidy j = true) : tidy (j.sortKeys so) = true := like_tidy j (like_sort so j) h

theorem tidyAt_package (so : Sorter) (v : Version) (p : PackageV × List DocElementID) : TidyAt (packageCodec so v) p := by
  cases v with
  | v21 => exact tidyAt_struct (keys_package .v21) (tidy_package_fields .v21) p.1
  | v23 => exact tidyAt_struct (keys_package .v23) (tidy_package_fields .v23) p.1
  | v22 =>
    intro j hj
    simp only [packageCodec, encodePackage] at hj
    cases h : encodeFields p.1 (packageFields .v22) with
    | err => rw [h] at hj; cases hj
    | panic => rw [h] at hj; cases hj
    | ok es =>
      rw [h, Res.bind_ok] at hj
      split at hj
      · cases hj
        refine ⟨sortKeys_tidy so (filtered_tidy _ (packageEntries_tidy h)), ?_⟩
        rw [Json.sortKeys]
        simp
      · cases hj
        exact ⟨packageEntries_tidy h, by simp⟩

theorem mapRes_some {β : Type} {zero : β} {c : Codec β} (l : List β) (h : ∀ b, TidyAt c b) {j : Json}
    (hj : (listCodec none (ptrCodec zero c)).enc (l.map some) = .ok j) : tidy j = true := by
  refine list_tidy (fun o ho => ?_) hj
  obtain ⟨b, -, rfl⟩ := List.mem_map.1 ho
  exact h b

mutual
theorem escapeHtml_tidy : ∀ j : Json, tidy j = true → tidy j.escapeHtml = true ∧ (j ≠ .null → j.escapeHtml ≠ .null)
  | .null, h => by rw [Json.escapeHtml]; exact ⟨h, id⟩
  | .bool _, h => by rw [Json.escapeHtml]; exact ⟨h, id⟩
  | .num _, h => by rw [Json.escapeHtml]; exact ⟨h, id⟩
  | .str _, _ => by rw [Json.escapeHtml]; exact ⟨rfl, fun _ => by simp⟩
  | .arr l, h => by rw [Json.escapeHtml]; exact ⟨escapeHtmlList_tidy l h, fun _ => by simp⟩
  | .obj l, h => by
    have h' : (decide (OneEach l) && tidyFields l) = true := h
    rw [Bool.and_eq_true] at h'
    obtain ⟨h1, h2⟩ := escapeHtmlFields_tidy l h'.2
    rw [Json.escapeHtml]
    refine ⟨?_, fun _ => by simp⟩
    show (decide (OneEach _) && tidyFields _) = true
    rw [h1, Bool.and_true]
    refine decide_eq_true ?_
    show KeysDiffer _
    rw [h2]
    exact of_decide_eq_true h'.1
theorem escapeHtmlList_tidy : ∀ l : List Json, tidyList l = true → tidyList (Json.escapeHtmlList l) = true
  | [], h => by rw [Json.escapeHtmlList]; exact h
  | j :: l, h => by
    obtain ⟨h1, h2, h3⟩ := tidyList_cons.1 h
    rw [Json.escapeHtmlList]
    exact tidyList_cons.2 ⟨(escapeHtml_tidy j h2).2 h1, (escapeHtml_tidy j h2).1, escapeHtmlList_tidy l h3⟩
theorem escapeHtmlFields_tidy : ∀ l : List (Str × Json), tidyFields l = true →
    tidyFields (Json.escapeHtmlFields l) = true ∧ (Json.escapeHtmlFields l).map (·.1) = l.map (·.1)
  | [], h => by rw [Json.escapeHtmlFields]; exact ⟨h, rfl⟩
  | (k, j) :: l, h => by
    have h' : (tidy j && tidyFields l) = true := h
    rw [Bool.and_eq_true] at h'
    obtain ⟨h1, h2⟩ := escapeHtmlFields_tidy l h'.2
    rw [Json.escapeHtmlFields]
    refine ⟨?_, by rw [List.map_cons, List.map_cons, h2]⟩
    show (tidy _ && tidyFields _) = true
    rw [h1, (escapeHtml_tidy j h'.1).1]
    rfl
end

theorem encodeFields_parts {σ : Type} {s : σ} {f : Field σ} {fs : List (Field σ)} {es : List (Str × Json)}
    (h : encodeFields s (f :: fs) = .ok es) (hn : f.isEmpty (f.get s) = false) :
    ∃ j es', f.codec.enc (f.get s) = .ok j ∧ encodeFields s fs = .ok es' ∧ es = (f.key, j) :: es' := by
  rw [encodeFields, hn, if_neg (by simp)] at h
  cases h1 : f.codec.enc (f.get s) with
  | err => rw [h1] at h; cases h
  | panic => rw [h1] at h; cases h
  | ok j =>
    rw [h1, Res.bind_ok] at h
    cases h2 : encodeFields s fs with
    | err => rw [h2] at h; cases h
    | panic => rw [h2] at h; cases h
    | ok m =>
      rw [h2, Res.bind_ok] at h
      cases h
      exact ⟨j, m, rfl, rfl, rfl⟩

/-- The document as the encoder gets it. -/
def encDoc (d : Doc) : RawDoc :=
  { doc := d, packages := d.packages.map fun p => some (p, []), relationships := d.relationships.map some }

theorem docFields_tidy (so : Sorter) (v : Version) (d : Doc) :
    ∀ f ∈ docFields so v, ∀ j, f.codec.enc (f.get (encDoc d)) = .ok j → tidy j = true := by
  have h1 : ∀ j, (listCodec none (ptrCodec ({}, []) (packageCodec so v))).enc (d.packages.map fun p => some (p, [])) = .ok j →
      tidy j = true := by
    intro j hj
    refine mapRes_some (zero := ({}, [])) (d.packages.map fun p => (p, [])) (tidyAt_package so v) (j := j) ?_
    rw [List.map_map]; exact hj
  have h2 : ∀ j, (listCodec none (ptrCodec {} relationshipCodec)).enc (d.relationships.map some) = .ok j → tidy j = true :=
    fun j hj => mapRes_some _ tidyAt_relationship hj
  unfold docFields
  simp only [List.forall_mem_cons]
  exact ⟨tidies_str _, tidies_str _, tidies_text _, tidies_str _, tidies_str _, tidies_list tidyAt_externalDoc _, tidies_str _,
    tidies_ptr (tidies_of tidyAt_creationInfo) _, h1, tidies_ptrList (tidyAt_file v) _, tidies_ptrList tidyAt_otherLicense _, h2,
    tidies_ptrList tidyAt_annotation _, tidies_list (tidyAt_snippet v) _, by simp⟩

/-- What is written is an object without a key that occurs twice or an entry `null`; it begins with the version. -/
theorem writeJson_tidyObject {so : Sorter} {v : Version} {html : Bool} {d : Doc} {j : Json} (h : writeJson so v html d = .ok j) :
    ∃ es raw, j = .obj es ∧ tidy (.obj es) = true ∧ (g!"spdxVersion", .str raw) ∈ es ∧
      raw = if html then (d.spdxVersion.flatMap jsonEscapeChar).flatMap escapeHtmlChar else d.spdxVersion.flatMap jsonEscapeChar := by
  unfold writeJson at h
  change ((encodeFields (encDoc d) (docFields so v) >>= fun es => Res.ok (Json.obj es)) >>= fun j =>
    Res.ok (if html then j.escapeHtml else j)) = Res.ok j at h
  cases h1 : encodeFields (encDoc d) (docFields so v) with
  | err => rw [h1] at h; cases h
  | panic => rw [h1] at h; cases h
  | ok es =>
    rw [h1] at h
    simp only [Res.bind_ok] at h
    cases h
    obtain ⟨h2, h3⟩ := fields_tidy (docFields_tidy so v d) h1
    have ht := obj_tidy (keysDiffer_sublist h2 (keys_doc so v)) h3
    obtain ⟨j, es', h4, -, rfl⟩ := encodeFields_parts h1 rfl
    cases h4
    cases html
    · exact ⟨_, _, rfl, ht, List.mem_cons_self, rfl⟩
    · refine ⟨Json.escapeHtmlFields ((g!"spdxVersion", .str (d.spdxVersion.flatMap jsonEscapeChar)) :: es'), _, ?_,
        ?_, ?_, rfl⟩
      · show Json.escapeHtml _ = _
        rw [Json.escapeHtml]; rfl
      · have := (escapeHtml_tidy _ ht).1
        rw [Json.escapeHtml] at this
        exact this
      · rw [Json.escapeHtmlFields, Json.escapeHtml]
        exact List.mem_cons_self

/-! ## What is kept -/

theorem list_kept {β : Type} {zero : β} {c : Codec β} {f : β → β} (h : ∀ b, c.enc (f b) = c.enc b) (l : List β) :
    (listCodec zero c).enc (l.map f) = (listCodec zero c).enc l := by
  cases l with
  | nil => rfl
  | cons b l =>
    have e : mapRes c.enc ((b :: l).map f) = mapRes c.enc (b :: l) := by
      rw [mapRes_map]
      exact congrArg (fun g => mapRes g (b :: l)) (funext h)
    exact congrArg (fun r => r >>= fun js => Res.ok (Json.arr js)) e

theorem ptrList_kept {β : Type} {zero : β} {c : Codec β} {f : β → β} (h : ∀ b, c.enc (f b) = c.enc b) (l : List β) :
    (ptrListCodec zero c).enc (l.map f) = (ptrListCodec zero c).enc l :=
  list_kept (zero := zero) (c := { enc := c.enc, dec := c.dec }) h l

theorem annotation_kept (a : Annotation) : annotationCodec.enc (keptAnnotation a) = annotationCodec.enc a := rfl
theorem snippet_kept (v : Version) (s : Snippet) : (snippetCodec v).enc (keptSnippet s) = (snippetCodec v).enc s := rfl

theorem file_kept (v : Version) (f : FileV) : (fileCodec v).enc (keptFile v f) = (fileCodec v).enc f := by
  refine congrArg (fun r => r >>= fun es => Res.ok (Json.obj es)) ?_
  cases v <;>
    simp [fileFields, only, encodeFields, strF, strOptF, codecF, listOptF, strOpt23F, strsOptF, keptFile, list_kept annotation_kept]

theorem replace_back (s : Str) : replaceChar '-' '_' (replaceChar '_' '-' s) = replaceChar '-' '_' s := by
  unfold replaceChar
  rw [List.map_map]
  refine List.map_congr_left fun c _ => ?_
  simp only [Function.comp_apply]
  by_cases h : c = '_' <;> simp [h]

theorem replace_idem (s : Str) : replaceChar '_' '-' (replaceChar '_' '-' s) = replaceChar '_' '-' s := by
  unfold replaceChar
  rw [List.map_map]
  refine List.map_congr_left fun c _ => ?_
  simp only [Function.comp_apply]
  by_cases h : c = '_' <;> simp [h]

theorem ref_kept (v : Version) (r : PackageExternalRef) : (externalRefCodec v).enc (keptRef v r) = (externalRefCodec v).enc r := by
  cases v with
  | v21 => rfl
  | v22 => simp only [externalRefCodec, keptRef, reduceCtorEq, if_false, replace_back]
  | v23 => simp only [externalRefCodec, keptRef, reduceCtorEq, if_false, replace_idem]

theorem codeValue_kept (v : Version) (o : Option VerificationCode) :
    codeValue (if v ≠ .v23 ∧ o = some {} then none else o) = codeValue o := by
  split
  · next h => rw [h.2]; rfl
  · rfl

theorem encodeFields_agree {σ : Type} {s t : σ} : ∀ {fs : List (Field σ)},
    (∀ f ∈ fs, f.isEmpty (f.get s) = f.isEmpty (f.get t) ∧ f.codec.enc (f.get s) = f.codec.enc (f.get t)) →
    encodeFields s fs = encodeFields t fs
  | [], _ => rfl
  | f :: fs, h => by
    rw [encodeFields, encodeFields, (h f (by simp)).1, (h f (by simp)).2, encodeFields_agree fun g hg => h g (by simp [hg])]

theorem packageFields_kept (v : Version) (p : PackageV) :
    encodeFields (keptPackage v p) (packageFields v) = encodeFields p (packageFields v) := by
  have hf := ptrList_kept (zero := ({} : FileV)) (file_kept v) p.files
  have hr := ptrList_kept (zero := ({} : PackageExternalRef)) (ref_kept v) p.externalRefs
  have ha := list_kept (zero := ({} : Annotation)) annotation_kept p.annotations
  have hc := codeValue_kept v p.verificationCode
  refine encodeFields_agree ?_
  cases v <;>
    simp only [packageFields, packageFieldsA, packageFieldsB, codeField, only, List.cons_append, List.append_nil, List.nil_append,
      List.forall_mem_cons, ne_eq, reduceCtorEq, not_false_eq_true, not_true_eq_false, decide_true, decide_false, if_true,
      Bool.false_eq_true, if_false, List.not_mem_nil, false_implies, implies_true, and_true] <;>
    repeat' apply And.intro
  all_goals first
    | rfl
    | exact hf
    | exact hr
    | exact ha
    | exact congrArg codeCodec.enc hc
    | exact List.isEmpty_map
    | simp

theorem package_kept (so : Sorter) (v : Version) (p : PackageV) (l : List DocElementID) :
    encodePackage so v (keptPackage v p, l) = encodePackage so v (p, l) := by
  have h := packageFields_kept v p
  cases v with
  | v21 => exact congrArg (fun r => r >>= fun es => Res.ok (Json.obj es)) h
  | v23 => exact congrArg (fun r => r >>= fun es => Res.ok (Json.obj es)) h
  | v22 =>
    unfold encodePackage
    simp only [h]
    rw [show codeValue (keptPackage .v22 p).verificationCode = codeValue p.verificationCode from codeValue_kept .v22 _]

/-- The writer looks only at what is kept. -/
theorem writeJson_kept (so : Sorter) (v : Version) (html : Bool) (d : Doc) :
    writeJson so v html (keptDoc v d) = writeJson so v html d := by
  have hp : (listCodec none (ptrCodec ({}, []) (packageCodec so v))).enc ((d.packages.map (keptPackage v)).map fun p => some (p, [])) =
      (listCodec none (ptrCodec ({}, []) (packageCodec so v))).enc (d.packages.map fun p => some (p, [])) := by
    have := list_kept (zero := none) (c := ptrCodec ({}, []) (packageCodec so v))
      (f := fun o => o.map fun x => (keptPackage v x.1, x.2)) (fun o => by
        cases o with
        | none => rfl
        | some x => exact package_kept so v x.1 x.2) (d.packages.map fun p => some (p, []))
    rw [← this, List.map_map, List.map_map]
    rfl
  have hf := ptrList_kept (zero := ({} : FileV)) (file_kept v) d.files
  have ha := ptrList_kept (zero := ({} : Annotation)) annotation_kept d.annotations
  have hs := list_kept (zero := ({} : Snippet)) (snippet_kept v) d.snippets
  unfold writeJson
  refine congrArg (fun (r : Res Json) => r >>= fun j => Res.ok (if html then j.escapeHtml else j)) ?_
  refine congrArg (fun r => r >>= fun es => Res.ok (Json.obj es)) ?_
  simp only [docFields, encodeFields, strF, strOptF, codecF, listOptF, keptDoc, hp, hf, ha, hs, List.isEmpty_map]

end Verif
