import Verif.Model.EmptyLists
import Verif.Lemmas.JsonDoc
import Verif.Lemmas.JsonWritten

/-!
# Lists that are empty but not nil: round trips
-/

namespace Verif
open Spec

section
variable {html : Bool} {σ : Type}

/-! ## Codecs -/

/-- For every value there is one like it. -/
theorem like_some (html : Bool) (j : Json) : ∃ k, Like html j k := ⟨_, like_write html j⟩

theorem trip_unique {β : Type} {c : Codec β} {z x b b' : β} (h : Trip html c z x b) (h' : Trip html c z x b') : b = b' := by
  obtain ⟨j, h1, h2⟩ := h
  obtain ⟨j', h1', h2'⟩ := h'
  rw [h1] at h1'
  cases h1'
  obtain ⟨k, hk⟩ := like_some html j
  have := h2 k hk
  rw [h2' k hk] at this
  cases this
  rfl

/-- A slice written as `[]` or `null` is read as the same. -/
theorem trip_mark {β : Type} {zero : β} {c : Codec β} {b : Bool} {z l r : List β} (h : Trip html (listCodec zero c) z l r) :
    Trip html (markCodec b (listCodec zero c)) z l r := by
  by_cases hb : (b && l.isEmpty) = true
  · have hl : l = [] := List.isEmpty_iff.1 (Bool.and_eq_true_iff.1 hb).2
    subst hl
    obtain ⟨j, h1, h2⟩ := h
    cases h1
    have h3 := h2 .null .null
    refine ⟨.arr [], if_pos hb, fun k hk => ?_⟩
    cases hk with
    | arr hk => cases hk; exact h3
  · obtain ⟨j, h1, h2⟩ := h
    exact ⟨j, (if_neg hb).trans h1, h2⟩

/-- A slice whose elements are written in different ways. -/
theorem trip_each {β : Type} {enc : Nat → β → Res Json} {c : Codec β} {zero : β} {g : β → β} {z l : List β}
    (h : ∀ b ∈ l, ∀ i, Trip html { enc := enc i, dec := c.dec } zero b (g b)) :
    Trip html (eachCodec enc (listCodec zero c)) z l (l.map g) := by
  have key : ∀ (l : List β) (n : Nat), (∀ b ∈ l, ∀ i, Trip html { enc := enc i, dec := c.dec } zero b (g b)) →
      ∃ js, mapResAt enc n l = .ok js ∧ ∀ ks, LikeList html js ks → mapRes (fun j => c.dec j zero) ks = .ok (l.map g) := by
    intro l
    induction l with
    | nil => intro _ _; exact ⟨[], rfl, fun ks hk => by cases hk; rfl⟩
    | cons b l ih =>
      intro n h
      obtain ⟨j, h1, h2⟩ := h b (by simp) n
      obtain ⟨js, h3, h4⟩ := ih (n + 1) fun b hb => h b (by simp [hb])
      have h1' : enc n b = .ok j := h1
      refine ⟨j :: js, by rw [mapResAt, h1', h3]; rfl, fun ks hk => ?_⟩
      cases hk with
      | cons hk1 hk2 =>
        have h2' : c.dec _ zero = .ok (g b) := h2 _ hk1
        rw [mapRes, h2', h4 _ hk2]
        rfl
  cases l with
  | nil => exact ⟨_, rfl, fun k hk => by cases hk; rfl⟩
  | cons b l =>
    obtain ⟨js, h1, h2⟩ := key (b :: l) 0 h
    refine ⟨.arr js, by simp only [eachCodec, h1, Res.bind_ok], fun k hk => ?_⟩
    cases hk with
    | arr hk => exact h2 _ hk

/-- The same for slices of pointers. -/
theorem trip_eachPtr {β : Type} {enc : Nat → β → Res Json} {c : Codec β} {zero : β} {g : β → β} {z l : List β}
    (h : ∀ b ∈ l, ∀ i, TripN html { enc := enc i, dec := c.dec } zero b (g b)) :
    Trip html (eachCodec enc (ptrListCodec zero c)) z l (l.map g) := by
  refine trip_each fun b hb i => ?_
  obtain ⟨j, h1, h2, h3⟩ := h b hb i
  refine ⟨j, h1, fun k hk => ?_⟩
  have := like_ne_null hk h2
  show (match k with | .null => Res.err | j => c.dec j zero) = .ok (g b)
  split
  · contradiction
  · exact h3 _ hk

/-! ## Fields -/

/-- Another way of writing a field. -/
theorem ft_recode {β : Type} {c c' : Codec β} {k : Str} {get : σ → β} {set : β → σ → σ} {i : β → Bool} {s acc acc' : σ}
    (h : ∀ z b, Trip html c z (get s) b → Trip html c' z (get s) b)
    (hf : FieldTrip html { β, key := k, get, set, isEmpty := i, codec := c } s acc acc') :
    FieldTrip html { β, key := k, get, set, isEmpty := i, codec := c' } s acc acc' := by
  rcases hf with h1 | ⟨h1, b, h2, h3⟩
  · exact .inl h1
  · exact .inr ⟨h1, b, h _ _ h2, h3⟩

theorem ft_recode_of {β : Type} {c c' : Codec β} {k : Str} {get : σ → β} {set : β → σ → σ} {i : β → Bool} {s acc acc' : σ} {b : β}
    (h : ∀ z, Trip html c z (get s) b) (h' : ∀ z, Trip html c' z (get s) b)
    (hf : FieldTrip html { β, key := k, get, set, isEmpty := i, codec := c } s acc acc') :
    FieldTrip html { β, key := k, get, set, isEmpty := i, codec := c' } s acc acc' :=
  ft_recode (fun z _ hb => trip_unique (h z) hb ▸ h' z) hf

theorem fieldsTrip_replace {s : σ} {g : Field σ} {fs : List (Field σ)} {acc r : σ}
    (h : ∀ f ∈ fs, f.key = g.key → ∀ acc acc', FieldTrip html f s acc acc' → FieldTrip html g s acc acc')
    (ht : FieldsTrip html s fs acc r) : FieldsTrip html s (replaceField g fs) acc r := by
  obtain ⟨es, ht⟩ := ht
  induction ht with
  | nil => exact fieldsTrip_nil
  | @skip f fs acc r es h1 h2 ih =>
    have hi := ih fun f hf => h f (by simp [hf])
    simp only [replaceField, List.map_cons]
    refine fieldsTrip_cons ?_ hi
    split
    · next e => exact h f (by simp) e _ _ (.inl ⟨h1, rfl⟩)
    · exact .inl ⟨h1, rfl⟩
  | @keep f fs acc r es j b h1 h2 h3 h4 ih =>
    have hi := ih fun f hf => h f (by simp [hf])
    have hf : FieldTrip html f s acc (f.set b acc) := .inr ⟨h1, b, ⟨j, h2, h3⟩, rfl⟩
    simp only [replaceField, List.map_cons]
    refine fieldsTrip_cons ?_ hi
    split
    · next e => exact h f (by simp) e _ _ hf
    · exact hf

theorem replace_keys (g : Field σ) (fs : List (Field σ)) : (replaceField g fs).map (·.key) = fs.map (·.key) := by
  rw [replaceField, List.map_map]
  refine List.map_congr_left fun f _ => ?_
  simp only [Function.comp]
  split
  · next e => exact e.symm
  · rfl

theorem dec_replace {g : Field σ} {fs : List (Field σ)} (h : ∀ f ∈ fs, f.key = g.key → ∀ es s, decodeEntries g es s = decodeEntries f es s)
    (es : List (Str × Json)) (s : σ) : decodeFields es (replaceField g fs) s = decodeFields es fs s := by
  induction fs generalizing s with
  | nil => rfl
  | cons f fs ih =>
    have hi := ih fun f hf => h f (by simp [hf])
    simp only [replaceField, List.map_cons, decodeFields]
    split
    · next e =>
      rw [h f (by simp) e]
      cases decodeEntries f es s with
      | ok s' => exact hi s'
      | err => rfl
      | panic => rfl
    · cases decodeEntries f es s with
      | ok s' => exact hi s'
      | err => rfl
      | panic => rfl

theorem struct_dec_replace {g : Field σ} {fs : List (Field σ)}
    (h : ∀ f ∈ fs, f.key = g.key → ∀ es s, decodeEntries g es s = decodeEntries f es s) (k : Json) (s : σ) :
    (structCodec (replaceField g fs)).dec k s = (structCodec fs).dec k s := by
  cases k with
  | obj es => exact dec_replace h es s
  | _ => rfl


/-! ### Finding a field -/

theorem field_unique {f f' : Field σ} : ∀ {fs : List (Field σ)}, KeysDiffer (fs.map (·.key)) → f ∈ fs → f' ∈ fs → f.key = f'.key → f = f'
  | [], _, h, _, _ => by cases h
  | g :: fs, hd, h, h', e => by
    rw [List.map_cons] at hd
    have hd' := List.pairwise_cons.1 hd
    rcases List.mem_cons.1 h with h | h <;> rcases List.mem_cons.1 h' with h' | h'
    · rw [h, h']
    · have := hd'.1 f'.key (List.mem_map.2 ⟨f', h', rfl⟩)
      rw [← h, e, sameKey_self] at this
      cases this
    · have := hd'.1 f.key (List.mem_map.2 ⟨f, h, rfl⟩)
      rw [← h', e, sameKey_self] at this
      cases this
    · exact field_unique hd'.2 h h' e

/-- To replace a field it is enough to know about the one that is there. -/
theorem the_field {P : Field σ → Prop} {g f : Field σ} {fs : List (Field σ)} (hd : KeysDiffer (fs.map (·.key))) (hf : f ∈ fs)
    (hk : f.key = g.key) (h : P f) : ∀ f' ∈ fs, f'.key = g.key → P f' := fun f' hf' hk' => by
  rw [field_unique hd hf' hf (hk'.trans hk.symm)]
  exact h

theorem mem_replace {g f : Field σ} {fs : List (Field σ)} (hf : f ∈ fs) (hk : f.key ≠ g.key) : f ∈ replaceField g fs :=
  List.mem_map.2 ⟨f, hf, if_neg hk⟩

theorem keys_replace {g : Field σ} {fs : List (Field σ)} (h : KeysDiffer (fs.map (·.key))) : KeysDiffer ((replaceField g fs).map (·.key)) := by
  rw [replace_keys]
  exact h

end

/-! ## Parts of a document -/

variable {html : Bool}

theorem mem_file_checksums (v : Version) :
    codecF (listCodec {} checksumCodec) g!"checksums" (·.checksums) (fun b (s : FileV) => { s with checksums := b }) ∈ fileFields v :=
  List.mem_of_getElem? (show (fileFields v)[3]? = some _ from rfl)

theorem mem_file_info (v : Version) :
    strsOptF (v = .v23) g!"licenseInfoInFiles" (·.licenseInfoInFiles) (fun b (s : FileV) => { s with licenseInfoInFiles := b }) ∈ fileFields v :=
  List.mem_of_getElem? (show (fileFields v)[5]? = some _ from rfl)

theorem mem_file_checksumsM (v : Version) (m : FileMarks) :
    codecF (listCodec {} checksumCodec) g!"checksums" (·.checksums) (fun b (s : FileV) => { s with checksums := b }) ∈
      replaceField (fileInfoM v m) (fileFields v) :=
  mem_replace (mem_file_checksums v) (show g!"checksums" ≠ g!"licenseInfoInFiles" by decide)

theorem keys_fileM (v : Version) (m : FileMarks) : KeysDiffer ((fileFieldsM v m).map (·.key)) :=
  keys_replace (keys_replace (keys_file v))

theorem trip_fileFieldsM (v : Version) (m : FileMarks) {f : FileV} (h : JsonFile html f) :
    FieldsTrip html f (fileFieldsM v m) {} (keptFile v f) := by
  refine fieldsTrip_replace (g := fileChecksumsM m) (the_field (keys_replace (keys_file v)) (mem_file_checksumsM v m) rfl ?_) <|
    fieldsTrip_replace (g := fileInfoM v m) (the_field (keys_file v) (mem_file_info v) rfl ?_) <| trip_fileFields v h
  · exact fun acc acc' => ft_recode fun z b => trip_mark
  · exact fun acc acc' => ft_recode fun z b => trip_mark

theorem dec_fileM (v : Version) (m : FileMarks) (k : Json) (s : FileV) : (fileCodecM v m).dec k s = (fileCodec v).dec k s := by
  unfold fileCodecM fileFieldsM
  rw [struct_dec_replace, struct_dec_replace]
  · rfl
  · refine the_field (keys_file v) (mem_file_info v) rfl ?_
    exact fun es s => decodeEntries_enc _ _ _ _ _ _ es s
  · refine the_field (keys_replace (keys_file v)) (mem_file_checksumsM v m) rfl ?_
    exact fun es s => decodeEntries_enc _ _ _ _ _ _ es s

theorem trip_fileM (v : Version) (m : FileMarks) {f : FileV} (h : JsonFile html f) :
    TripN html { enc := (fileCodecM v m).enc, dec := (fileCodec v).dec } {} f (keptFile v f) := by
  obtain ⟨j, h1, h2, h3⟩ := trip_struct (keys_fileM v m) (trip_fileFieldsM v m h)
  exact ⟨j, h1, h2, fun k hk => (dec_fileM v m k {}).symm.trans (h3 k hk)⟩

theorem keys_snippet (v : Version) : KeysDiffer ((snippetFields v).map (·.key)) := by cases v <;> decide

theorem trip_snippetFields (v : Version) {s : Snippet} (h : JsonSnippet html s) : FieldsTrip html s (snippetFields v) {} (keptSnippet s) :=
  fieldsTrip_cons (ft_codec (trip_elementId h.id).trip) <|
    fieldsTrip_cons (ft_codec (trip_elementId h.fromFile).trip) <|
    fieldsTrip_cons (ft_codec (trip_same fun r hr => (trip_range (h.ranges r hr)).trip)) <|
    fieldsTrip_cons (ft_strOpt23 rfl) <| fieldsTrip_cons (ft_strsOpt rfl) <| fieldsTrip_cons (ft_strOpt rfl) <|
    fieldsTrip_cons ft_str <| fieldsTrip_cons (ft_strOpt rfl) <| fieldsTrip_cons (ft_strOpt rfl) fieldsTrip_nil

theorem mem_snippet_ranges (v : Version) :
    codecF (listCodec {} rangeCodec) g!"ranges" (·.ranges) (fun b (s : Snippet) => { s with ranges := b }) ∈ snippetFields v :=
  List.mem_of_getElem? (show (snippetFields v)[2]? = some _ from rfl)

theorem trip_snippetM (v : Version) (b : Bool) {s : Snippet} (h : JsonSnippet html s) :
    TripN html { enc := (snippetCodecM v b).enc, dec := (snippetCodec v).dec } {} s (keptSnippet s) := by
  obtain ⟨j, h1, h2, h3⟩ := trip_struct (keys_replace (keys_snippet v)) <| fieldsTrip_replace
    (g := rangesM b)
    (the_field (keys_snippet v) (mem_snippet_ranges v) rfl fun acc acc' => ft_recode fun z b => trip_mark) (trip_snippetFields v h)
  refine ⟨j, h1, h2, fun k hk => ?_⟩
  rw [← h3 k hk]
  symm
  apply struct_dec_replace
  refine the_field (keys_snippet v) (mem_snippet_ranges v) rfl ?_
  exact fun es s => decodeEntries_enc _ _ _ _ _ _ es s

theorem keys_creationInfo : KeysDiffer (creationInfoFields.map (·.key)) := by decide

theorem mem_creators :
    codecF (listCodec {} creatorCodec) g!"creators" (·.creators) (fun b (s : CreationInfo) => { s with creators := b }) ∈ creationInfoFields :=
  List.mem_of_getElem? (show creationInfoFields[1]? = some _ from rfl)

theorem trip_creationInfoM (b : Bool) {i : CreationInfo} (h : ∀ c ∈ i.creators, JsonCreator html c) :
    TripN html { enc := (creationInfoCodecM b).enc, dec := creationInfoCodec.dec } {} i i := by
  have hf : FieldsTrip html i creationInfoFields {} i :=
    fieldsTrip_cons (ft_strOpt rfl) <| fieldsTrip_cons (ft_codec (trip_same fun c hc => (trip_creator (h c hc)).trip)) <|
      fieldsTrip_cons ft_str <| fieldsTrip_cons (ft_strOpt rfl) fieldsTrip_nil
  obtain ⟨j, h1, h2, h3⟩ := trip_struct (keys_replace keys_creationInfo) <| fieldsTrip_replace
    (g := creatorsM b)
    (the_field keys_creationInfo mem_creators rfl fun acc acc' => ft_recode fun z b => trip_mark) hf
  refine ⟨j, h1, h2, fun k hk => ?_⟩
  rw [← h3 k hk]
  symm
  apply struct_dec_replace
  refine the_field keys_creationInfo mem_creators rfl ?_
  exact fun es s => decodeEntries_enc _ _ _ _ _ _ es s

theorem trip_creationInfoPtrM (b : Bool) {o : Option CreationInfo} (h : ∀ i, o = some i → ∀ c ∈ i.creators, JsonCreator html c) :
    Trip html (creationInfoPtrM b) none o o := by
  cases o with
  | none => exact trip_ptr_none (c := creationInfoCodec) (zero := {})
  | some i => exact (trip_ptr (trip_creationInfoM b (h i rfl))).trip

/-! ## Packages -/

theorem mem_package_files (v : Version) :
    listOptF (ptrListCodec {} (fileCodec v)) g!"files" (·.files) (fun b (s : PackageV) => { s with files := b }) ∈ packageFieldsB v :=
  List.mem_append_right _ (by simp)

theorem mem_package_info (v : Version) :
    strsOptF (v ≠ .v21) g!"licenseInfoFromFiles" (·.licenseInfoFromFiles) (fun b (s : PackageV) => { s with licenseInfoFromFiles := b }) ∈ packageFieldsB v :=
  List.mem_of_getElem? (show (packageFieldsB v)[4]? = some _ from rfl)

theorem mem_package_filesM (v : Version) (m : PackageMarks) :
    listOptF (ptrListCodec {} (fileCodec v)) g!"files" (·.files) (fun b (s : PackageV) => { s with files := b }) ∈
      replaceField (packageInfoM v m) (packageFieldsB v) :=
  mem_replace (mem_package_files v) (show g!"files" ≠ g!"licenseInfoFromFiles" by decide)

theorem keys_packageB (v : Version) : KeysDiffer ((packageFieldsB v).map (·.key)) := by cases v <;> decide

theorem trip_packageBM (v : Version) (m : PackageMarks) {p : PackageV} {c : Option VerificationCode} (h : JsonPackage html p) :
    FieldsTrip html p (packageFieldsBM v m) { partPackage p with verificationCode := c } { rawPackage v p with verificationCode := c } := by
  refine fieldsTrip_replace (g := packageFilesM v m) (the_field (keys_replace (keys_packageB v)) (mem_package_filesM v m) (show g!"files" = g!"files" from rfl) ?_) <|
    fieldsTrip_replace (g := packageInfoM v m) (the_field (keys_packageB v) (mem_package_info v) (show g!"licenseInfoFromFiles" = g!"licenseInfoFromFiles" from rfl) ?_) <| trip_packageB v h
  · exact fun acc acc' => ft_recode_of (b := p.files.map (keptFile v)) (fun z => trip_ptrList fun f hf => trip_file v (h.files f hf))
      (fun z => trip_eachPtr fun f hf i => trip_fileM v (m.files i) (h.files f hf))
  · exact fun acc acc' => ft_recode fun z b => trip_mark

theorem decodeFields_packageM (v : Version) (m : PackageMarks) (es : List (Str × Json)) (s : PackageV) :
    decodeFields es (packageFieldsBM v m) s = decodeFields es (packageFieldsB v) s := by
  unfold packageFieldsBM
  rw [dec_replace, dec_replace]
  · refine the_field (keys_packageB v) (mem_package_info v) (show g!"licenseInfoFromFiles" = g!"licenseInfoFromFiles" from rfl) ?_
    exact fun es s => decodeEntries_enc _ _ _ _ _ _ es s
  · refine the_field (keys_replace (keys_packageB v)) (mem_package_filesM v m) (show g!"files" = g!"files" from rfl) ?_
    exact fun es s => decodeEntries_enc _ _ _ _ _ _ es s

theorem dec_packageM (v : Version) (m : PackageMarks) (k : Json) (s : PackageV) :
    (structCodec (packageFieldsM v m)).dec k s = (structCodec (packageFields v)).dec k s := by
  cases k with
  | obj es =>
    show decodeFields es (packageFieldsA v ++ (codeField v :: packageFieldsBM v m)) s = decodeFields es (packageFieldsA v ++ (codeField v :: packageFieldsB v)) s
    rw [decodeFields_append, decodeFields_append]
    simp only [decodeFields, decodeFields_packageM]
  | _ => rfl

theorem packageKeysM (v : Version) (m : PackageMarks) : (packageFieldsM v m).map (·.key) = (packageFields v).map (·.key) := by
  unfold packageFieldsM packageFields packageFieldsBM
  rw [List.map_append, List.map_append, List.map_cons, List.map_cons, replace_keys, replace_keys]

theorem trip_packageFieldsM (v : Version) (m : PackageMarks) {p : PackageV} (h : JsonPackage html p) :
    FieldsTrip html p (packageFieldsM v m) {} (rawPackage v p) := by
  obtain ⟨c, h1, h2⟩ := ft_code (html := html) v (p := p)
  have := fieldsTrip_append (trip_packageA v h) (fieldsTrip_cons h1 (trip_packageBM v m (c := c) h))
  rwa [h2] at this

theorem encodeFields_append {σ : Type} {p : σ} : ∀ (fs gs : List (Field σ)) (a b : List (Str × Json)), encodeFields p fs = .ok a →
    encodeFields p gs = .ok b → encodeFields p (fs ++ gs) = .ok (a ++ b) := by
  intro fs
  induction fs with
  | nil => intro gs a b ha hb; cases ha; exact hb
  | cons f fs ih =>
    intro gs a b ha hb
    rw [encodeFields] at ha
    rw [List.cons_append, encodeFields]
    split at ha
    · next hf => rw [if_pos hf]; exact ih gs a b ha hb
    · next hf =>
      rw [if_neg hf]
      cases hx : f.codec.enc (f.get p) with
      | err => rw [hx] at ha; cases ha
      | panic => rw [hx] at ha; cases ha
      | ok x =>
        rw [hx, Res.bind_ok] at ha
        cases hy : encodeFields p fs with
        | err => rw [hy] at ha; cases ha
        | panic => rw [hy] at ha; cases ha
        | ok y =>
          rw [hy, Res.bind_ok] at ha
          cases ha
          rw [Res.bind_ok, ih gs y b hy hb]
          rfl

/-- The encoded package is like an object with some of the fields, all decoded to the raw package. -/
theorem encode_packageM (so : Sorter) (v : Version) (m : PackageMarks) {p : PackageV} (h : JsonPackage html p) :
    ∃ j es, encodePackageM so v m (p, []) = .ok j ∧ Like false (.obj es) j ∧
      (es.map (·.1)).Sublist ((packageFields v).map (·.key)) ∧
      (v ≠ .v21 → (g!"filesAnalyzed", .bool p.filesAnalyzed) ∈ es) ∧
      ∀ k, Like html (.obj es) k → (structCodec (packageFields v)).dec k {} = .ok (rawPackage v p) := by
  have full : ∀ es, encodeFields p (packageFieldsM v m) = .ok es → v ≠ .v21 → (g!"filesAnalyzed", Json.bool p.filesAnalyzed) ∈ es := by
    intro es he hv
    have hm : ∃ f ∈ packageFieldsA v, f.key = g!"filesAnalyzed" ∧ f.isEmpty (f.get p) = false ∧
        f.codec.enc (f.get p) = .ok (.bool p.filesAnalyzed) :=
      ⟨_, List.mem_of_getElem? (show (packageFieldsA v)[7]? = some _ from rfl), rfl, by simp [hv], rfl⟩
    obtain ⟨f, hf, hk, h0, he'⟩ := hm
    obtain ⟨j, h1, h2⟩ := encode_mem he (List.mem_append_left _ hf) h0
    rw [hk] at h2
    rw [he'] at h1
    cases h1
    exact h2
  obtain ⟨es, ht⟩ := trip_packageFieldsM v m h
  have henc := trips_encode ht
  by_cases hc : v = .v22 ∧ (codeValue p.verificationCode).value = [] ∧ (codeValue p.verificationCode).excludedFiles = [] ∧ m.excludedFiles = false
  · obtain ⟨rfl, hc⟩ := hc
    have hc0 : codeValue p.verificationCode = {} := by
      revert hc
      cases codeValue p.verificationCode
      rintro ⟨h1, h2, -⟩
      cases h1
      cases h2
      rfl
    obtain ⟨esA, hA⟩ := trip_packageA .v22 h
    obtain ⟨esB, hB⟩ := trip_packageBM .v22 m (c := none) h
    have hB' : Trips html p (packageFieldsBM .v22 m) (partPackage p) (rawPackage .v22 p) esB := by
      have e : { rawPackage .v22 p with verificationCode := none } = rawPackage .v22 p := by
        rw [← rawPackage_code22, hc0]; rfl
      rw [e] at hB
      exact hB
    obtain ⟨jc, hj, _⟩ := trip_code (html := html) (c := codeValue p.verificationCode)
    have h2 : encodeFields p (packageFieldsM .v22 m) = .ok (esA ++ (codeKey, jc) :: esB) := by
      refine encodeFields_append _ _ _ _ (trips_encode hA) ?_
      rw [encodeFields]
      have : (codeField .v22).isEmpty ((codeField .v22).get p) = false := rfl
      rw [if_neg (by simp [this])]
      have : (codeField .v22).codec.enc ((codeField .v22).get p) = .ok jc := hj
      rw [this, Res.bind_ok, trips_encode hB']
      rfl
    have hAk := trips_keys hA
    have hBk : (esB.map (·.1)).Sublist ((packageFieldsB .v22).map (·.key)) := by
      have := trips_keys hB
      unfold packageFieldsBM at this
      rwa [replace_keys, replace_keys] at this
    have h1 : Trips html p (packageFieldsA .v22 ++ packageFieldsBM .v22 m) {} (rawPackage .v22 p) (esA ++ esB) := trips_append hA hB'
    have hkeys : (packageFieldsA .v22 ++ packageFieldsBM .v22 m).map (·.key) = (packageFieldsA .v22 ++ packageFieldsB .v22).map (·.key) := by
      unfold packageFieldsBM
      rw [List.map_append, List.map_append, replace_keys, replace_keys]
    have hkd : KeysDiffer ((packageFieldsA .v22 ++ packageFieldsBM .v22 m).map (·.key)) := by
      rw [hkeys]
      decide
    have hk : ((esA ++ esB).map (·.1)).Sublist ((packageFields .v22).map (·.key)) := by
      rw [List.map_append, packageFields, List.map_append, List.map_cons]
      exact hAk.append (hBk.cons _)
    have hA' : codeKey ∉ esA.map (·.1) := fun hm => absurd (hAk.subset hm) (by decide)
    have hB'' : codeKey ∉ esB.map (·.1) := fun hm => absurd (hBk.subset hm) (by decide)
    have hf : ((esA ++ (codeKey, jc) :: esB).filter fun e => e.1 ≠ codeKey) = esA ++ esB := by
      rw [List.filter_append, List.filter_cons, if_neg (by simp), filter_keys hA', filter_keys hB'']
    refine ⟨_, esA ++ esB, ?_, like_sort so _, hk, fun hv => ?_, fun k hkk => ?_⟩
    · simp only [encodePackageM, h2, Res.bind_ok, if_pos hc, hf]
    · have := full _ h2 hv
      rw [List.mem_append, List.mem_cons] at this
      rcases this with h | h | h
      · exact List.mem_append_left _ h
      · exact absurd (show g!"filesAnalyzed" = codeKey from congrArg Prod.fst h) (by decide)
      · exact List.mem_append_right _ h
    · have hdec := trips_obj h1 hkd k hkk
      obtain ⟨gs, rfl, hgs⟩ := like_absent (key := codeKey) hkk (keysDiffer_sublist hk (keys_package .v22)) fun x hx => by
        rw [List.map_append, List.mem_append] at hx
        have hall : ∀ y ∈ (packageFieldsA .v22 ++ packageFieldsB .v22).map (·.key), sameKey codeKey y = false := by decide
        refine hall x ?_
        rw [List.map_append, List.mem_append]
        exact hx.imp (fun h => hAk.subset h) (fun h => hBk.subset h)
      show decodeFields gs (packageFieldsA .v22 ++ (codeField .v22 :: packageFieldsB .v22)) {} = _
      have hdec' : decodeFields gs (packageFieldsA .v22 ++ packageFieldsBM .v22 m) {} = .ok (rawPackage .v22 p) := hdec
      rw [decodeFields_append] at hdec' ⊢
      rw [← hdec']
      show (decodeFields gs (packageFieldsA .v22) {} >>= decodeFields gs (codeField .v22 :: packageFieldsB .v22)) =
        (decodeFields gs (packageFieldsA .v22) {} >>= decodeFields gs (packageFieldsBM .v22 m))
      have hcode : ∀ s, decodeEntries (codeField .v22) gs s = .ok s := by
        intro s
        rw [decodeEntries_filter]
        have : (gs.filter fun e => sameKey (codeField .v22).key e.1) = [] := hgs
        rw [this]
        rfl
      cases decodeFields gs (packageFieldsA .v22) {} with
      | err => rfl
      | panic => rfl
      | ok s =>
        rw [Res.bind_ok, Res.bind_ok, decodeFields, hcode, Res.bind_ok, decodeFields_packageM]
  · refine ⟨.obj es, es, ?_, like_refl _, ?_, full es henc, fun k hk => ?_⟩
    · cases v with
      | v22 =>
        have hc' := fun e => hc ⟨rfl, e⟩
        simp only [encodePackageM, henc, Res.bind_ok, if_neg hc']
      | v21 => simp only [encodePackageM, structCodec, henc, Res.bind_ok]
      | v23 => simp only [encodePackageM, structCodec, henc, Res.bind_ok]
    · rw [← packageKeysM v m]
      exact trips_keys ht
    · rw [← dec_packageM v m]
      exact trips_obj ht (by rw [packageKeysM]; exact keys_package v) k hk

theorem trip_packageM (so : Sorter) (v : Version) (m : PackageMarks) {p : PackageV} (h : JsonPackage html p) :
    TripN html { enc := encodePackageM so v m, dec := (packageCodec so v).dec } ({}, []) (p, []) (keptPackage v p, []) := by
  obtain ⟨j, es, h1, h2, h3, h4, h5⟩ := encode_packageM so v m h
  refine ⟨j, h1, (by intro e; rw [e] at h2; cases h2), fun k hk => ?_⟩
  have hk' := like_trans _ h2 hk
  have hd := h5 k hk'
  show decodePackage v k ({}, []) = _
  cases v with
  | v21 =>
    simp only [decodePackage, hd, Res.bind_ok]
    rfl
  | v22 =>
    simp only [decodePackage, hd, Res.bind_ok, packageExtras_dec h3 (h4 (by decide)) hk']
    rfl
  | v23 =>
    simp only [decodePackage, hd, Res.bind_ok, packageExtras_dec h3 (h4 (by decide)) hk']
    rfl

/-! ## Documents -/

section
variable {so : Sorter} {v : Version} {m : DocMarks}

theorem mem_doc_info : codecF (ptrCodec {} creationInfoCodec) g!"creationInfo" (·.doc.creationInfo)
    (fun b (s : RawDoc) => { s with doc := { s.doc with creationInfo := b } }) ∈ docFields so v :=
  List.mem_of_getElem? (show (docFields so v)[7]? = some _ from rfl)

theorem mem_doc_packages : listOptF (listCodec none (ptrCodec ({}, []) (packageCodec so v))) g!"packages" (·.packages)
    (fun b (s : RawDoc) => { s with packages := b }) ∈ docFields so v :=
  List.mem_of_getElem? (show (docFields so v)[8]? = some _ from rfl)

theorem mem_doc_files : listOptF (ptrListCodec {} (fileCodec v)) g!"files" (·.doc.files)
    (fun b (s : RawDoc) => { s with doc := { s.doc with files := b } }) ∈ docFields so v :=
  List.mem_of_getElem? (show (docFields so v)[9]? = some _ from rfl)

theorem mem_doc_snippets : listOptF (listCodec {} (snippetCodec v)) g!"snippets" (·.doc.snippets)
    (fun b (s : RawDoc) => { s with doc := { s.doc with snippets := b } }) ∈ docFields so v :=
  List.mem_of_getElem? (show (docFields so v)[13]? = some _ from rfl)

theorem docKeysM : (docFieldsM so v m).map (·.key) = (docFields so v).map (·.key) := by
  unfold docFieldsM
  rw [replace_keys, replace_keys, replace_keys, replace_keys]

end

end Verif
