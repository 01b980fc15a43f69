import Verif.Lemmas.EmptyLists

/-!
# Lists that are empty but not nil: documents
-/

namespace Verif
open Spec

section
variable {so : Sorter} {v : Version} {m : DocMarks}

/-! ## The fields that are replaced -/

theorem mem_doc_files1 : listOptF (ptrListCodec {} (fileCodec v)) g!"files" (·.doc.files)
    (fun b (s : RawDoc) => { s with doc := { s.doc with files := b } }) ∈ replaceField (docSnippetsM v m) (docFields so v) :=
  mem_replace mem_doc_files (show g!"files" ≠ g!"snippets" by decide)

theorem mem_doc_packages1 : listOptF (listCodec none (ptrCodec ({}, []) (packageCodec so v))) g!"packages" (·.packages)
    (fun b (s : RawDoc) => { s with packages := b }) ∈ replaceField (docSnippetsM v m) (docFields so v) :=
  mem_replace mem_doc_packages (show g!"packages" ≠ g!"snippets" by decide)

theorem mem_doc_packages2 : listOptF (listCodec none (ptrCodec ({}, []) (packageCodec so v))) g!"packages" (·.packages)
    (fun b (s : RawDoc) => { s with packages := b }) ∈ replaceField (docFilesM v m) (replaceField (docSnippetsM v m) (docFields so v)) :=
  mem_replace mem_doc_packages1 (show g!"packages" ≠ g!"files" by decide)

theorem mem_doc_info1 : codecF (ptrCodec {} creationInfoCodec) g!"creationInfo" (·.doc.creationInfo)
    (fun b (s : RawDoc) => { s with doc := { s.doc with creationInfo := b } }) ∈ replaceField (docSnippetsM v m) (docFields so v) :=
  mem_replace mem_doc_info (show g!"creationInfo" ≠ g!"snippets" by decide)

theorem mem_doc_info2 : codecF (ptrCodec {} creationInfoCodec) g!"creationInfo" (·.doc.creationInfo)
    (fun b (s : RawDoc) => { s with doc := { s.doc with creationInfo := b } }) ∈ replaceField (docFilesM v m) (replaceField (docSnippetsM v m) (docFields so v)) :=
  mem_replace mem_doc_info1 (show g!"creationInfo" ≠ g!"files" by decide)

theorem mem_doc_info3 : codecF (ptrCodec {} creationInfoCodec) g!"creationInfo" (·.doc.creationInfo)
    (fun b (s : RawDoc) => { s with doc := { s.doc with creationInfo := b } }) ∈
    replaceField (docPackagesM so v m) (replaceField (docFilesM v m) (replaceField (docSnippetsM v m) (docFields so v))) :=
  mem_replace mem_doc_info2 (show g!"creationInfo" ≠ g!"packages" by decide)

/-- Statements about the four fields that are replaced. -/
theorem the_fields {P : Field RawDoc → Field RawDoc → Prop}
    (h1 : P (docSnippetsM v m) (listOptF (listCodec {} (snippetCodec v)) g!"snippets" (·.doc.snippets) (fun b (s : RawDoc) => { s with doc := { s.doc with snippets := b } })))
    (h2 : P (docFilesM v m) (listOptF (ptrListCodec {} (fileCodec v)) g!"files" (·.doc.files) (fun b (s : RawDoc) => { s with doc := { s.doc with files := b } })))
    (h3 : P (docPackagesM so v m) (listOptF (listCodec none (ptrCodec ({}, []) (packageCodec so v))) g!"packages" (·.packages) (fun b (s : RawDoc) => { s with packages := b })))
    (h4 : P (docInfoM m) (codecF (ptrCodec {} creationInfoCodec) g!"creationInfo" (·.doc.creationInfo) (fun b (s : RawDoc) => { s with doc := { s.doc with creationInfo := b } }))) :
    (∀ f ∈ docFields so v, f.key = (docSnippetsM v m).key → P (docSnippetsM v m) f) ∧
    (∀ f ∈ replaceField (docSnippetsM v m) (docFields so v), f.key = (docFilesM v m).key → P (docFilesM v m) f) ∧
    (∀ f ∈ replaceField (docFilesM v m) (replaceField (docSnippetsM v m) (docFields so v)), f.key = (docPackagesM so v m).key → P (docPackagesM so v m) f) ∧
    (∀ f ∈ replaceField (docPackagesM so v m) (replaceField (docFilesM v m) (replaceField (docSnippetsM v m) (docFields so v))),
      f.key = (docInfoM m).key → P (docInfoM m) f) :=
  ⟨the_field (keys_doc so v) mem_doc_snippets (show g!"snippets" = g!"snippets" from rfl) h1,
   the_field (keys_replace (keys_doc so v)) mem_doc_files1 (show g!"files" = g!"files" from rfl) h2,
   the_field (keys_replace (keys_replace (keys_doc so v))) mem_doc_packages2 (show g!"packages" = g!"packages" from rfl) h3,
   the_field (keys_replace (keys_replace (keys_replace (keys_doc so v)))) mem_doc_info3 (show g!"creationInfo" = g!"creationInfo" from rfl) h4⟩

/-! ## Writing and reading -/

theorem replace_none {σ : Type} {g : Field σ} {fs : List (Field σ)} (h : ∀ f ∈ fs, f.key ≠ g.key) : replaceField g fs = fs := by
  have : ∀ f ∈ fs, (if f.key = g.key then g else f) = id f := fun f hf => if_neg (h f hf)
  rw [replaceField, List.map_congr_left this, List.map_id]

/-- Replacing a field, if the fields before it keep something of the variable. -/
theorem fieldsTrip_replace_when {σ : Type} {html : Bool} {I : σ → Prop} {s : σ} {g : Field σ} {fs : List (Field σ)} {acc r : σ}
    (hk : KeysDiffer (fs.map (·.key))) (hI : ∀ f ∈ fs, f.key ≠ g.key → ∀ b acc, I acc → I (f.set b acc))
    (h : ∀ f ∈ fs, f.key = g.key → ∀ acc acc', I acc → FieldTrip html f s acc acc' → FieldTrip html g s acc acc')
    (ht : FieldsTrip html s fs acc r) (h0 : I acc) : FieldsTrip html s (replaceField g fs) acc r := by
  obtain ⟨es, ht⟩ := ht
  have rest : ∀ {f : Field σ} {fs : List (Field σ)}, KeysDiffer ((f :: fs).map (·.key)) → f.key = g.key → replaceField g fs = fs := by
    intro f fs hk e
    refine replace_none fun f' hf' e' => ?_
    have : sameKey f.key f'.key = false := (List.pairwise_cons.1 hk).1 f'.key (List.mem_map.2 ⟨f', hf', rfl⟩)
    rw [e, e', sameKey_self] at this
    cases this
  induction ht with
  | nil => exact fieldsTrip_nil
  | @skip f fs acc r es h1 h2 ih =>
    have hf : FieldTrip html f s acc acc := .inl ⟨h1, rfl⟩
    have hk' := (List.pairwise_cons.1 hk).2
    show FieldsTrip html s ((if f.key = g.key then g else f) :: replaceField g fs) acc r
    by_cases e : f.key = g.key
    · rw [if_pos e, rest hk e]
      exact fieldsTrip_cons (h f (by simp) e _ _ h0 hf) ⟨_, h2⟩
    · rw [if_neg e]
      exact fieldsTrip_cons hf (ih hk' (fun f hf => hI f (by simp [hf])) (fun f hf => h f (by simp [hf])) h0)
  | @keep f fs acc r es j b h1 h2 h3 h4 ih =>
    have hf : FieldTrip html f s acc (f.set b acc) := .inr ⟨h1, b, ⟨j, h2, h3⟩, rfl⟩
    have hk' := (List.pairwise_cons.1 hk).2
    show FieldsTrip html s ((if f.key = g.key then g else f) :: replaceField g fs) acc r
    by_cases e : f.key = g.key
    · rw [if_pos e, rest hk e]
      exact fieldsTrip_cons (h f (by simp) e _ _ h0 hf) ⟨_, h4⟩
    · rw [if_neg e]
      exact fieldsTrip_cons hf (ih hk' (fun f hf => hI f (by simp [hf])) (fun f hf => h f (by simp [hf])) (hI f (by simp) e b acc h0))

theorem mem_of_replace {σ : Type} {g f : Field σ} {fs : List (Field σ)} (h : f ∈ replaceField g fs) : f = g ∨ f ∈ fs := by
  obtain ⟨f', h1, h2⟩ := List.mem_map.1 h
  split at h2
  · exact .inl h2.symm
  · exact .inr (h2 ▸ h1)

theorem set_keeps_info : ∀ f ∈ docFields so v, f.key ≠ g!"creationInfo" → ∀ b (acc : RawDoc), acc.doc.creationInfo = none → (f.set b acc).doc.creationInfo = none := by
  simp only [docFields, List.forall_mem_cons, List.not_mem_nil, false_implies, implies_true, and_true]
  refine ⟨fun _ _ _ h => h, fun _ _ _ h => h, fun _ _ _ h => h, fun _ _ _ h => h, fun _ _ _ h => h, fun _ _ _ h => h, fun _ _ _ h => h,
    fun h => absurd rfl h, fun _ _ _ h => h, fun _ _ _ h => h, fun _ _ _ h => h, fun _ _ _ h => h, fun _ _ _ h => h, fun _ _ _ h => h⟩

theorem dec_docM (k : Json) (s : RawDoc) : (structCodec (docFieldsM so v m)).dec k s = (structCodec (docFields so v)).dec k s := by
  obtain ⟨h1, h2, h3, h4⟩ := the_fields (so := so) (v := v) (m := m) (P := fun g f => ∀ es s, decodeEntries g es s = decodeEntries f es s)
    (fun es s => decodeEntries_enc _ _ _ _ _ _ es s) (fun es s => decodeEntries_enc _ _ _ _ _ _ es s)
    (fun es s => decodeEntries_enc _ _ _ _ _ _ es s) (fun es s => decodeEntries_enc _ _ _ _ _ _ es s)
  unfold docFieldsM
  rw [struct_dec_replace h4, struct_dec_replace h3, struct_dec_replace h2, struct_dec_replace h1]

theorem trip_docFieldsM {html : Bool} {d : Doc} (h : JsonDocument html d) : FieldsTrip html (rawDoc d) (docFieldsM so v m) {} (rawKept v d) := by
  obtain ⟨h1, h2, h3, h4⟩ := the_fields (so := so) (v := v) (m := m)
    (P := fun g f => ∀ acc acc', (g.key = g!"creationInfo" → acc.doc.creationInfo = none) → FieldTrip html f (rawDoc d) acc acc' → FieldTrip html g (rawDoc d) acc acc')
    (fun acc acc' _ => ft_recode_of (b := d.snippets.map keptSnippet) (fun z => trip_list fun s hs => (trip_snippet v (h.snippets s hs)).trip)
      (fun z => trip_each fun s hs i => (trip_snippetM v (m.snippets i) (h.snippets s hs)).trip))
    (fun acc acc' _ => ft_recode_of (b := d.files.map (keptFile v)) (fun z => trip_ptrList fun f hf => trip_file v (h.files f hf))
      (fun z => trip_eachPtr fun f hf i => trip_fileM v (m.files i) (h.files f hf)))
    (fun acc acc' _ => ft_recode_of (b := (rawDoc d).packages.map fun o => o.map fun x => (keptPackage v x.1, []))
      (fun z => trip_list fun o ho => by
        obtain ⟨p, hp, rfl⟩ := List.mem_map.1 ho
        exact (trip_ptr (trip_package so v (h.packages p hp))).trip)
      (fun z => trip_each fun o ho i => by
        obtain ⟨p, hp, rfl⟩ := List.mem_map.1 ho
        exact (trip_ptr (trip_packageM so v (m.packages i) (h.packages p hp))).trip))
    (fun acc acc' h0 hf => by
      rcases hf with hf | ⟨hf1, b, hf2, hf3⟩
      · exact .inl hf
      · refine .inr ⟨hf1, b, ?_, hf3⟩
        have hz : (codecF (ptrCodec {} creationInfoCodec) g!"creationInfo" (·.doc.creationInfo)
            (fun b (s : RawDoc) => { s with doc := { s.doc with creationInfo := b } })).get acc = none := h0 rfl
        have hz' : (docInfoM m).get acc = none := h0 rfl
        rw [hz] at hf2
        rw [hz']
        have old : Trip html (ptrCodec {} creationInfoCodec) none d.creationInfo d.creationInfo := by
          cases hc : d.creationInfo with
          | none => exact trip_ptr_none
          | some i => exact (trip_ptr (trip_creationInfo (h.creators i hc))).trip
        have hb : d.creationInfo = b := trip_unique old hf2
        have new : Trip html (creationInfoPtrM m.creators) none d.creationInfo d.creationInfo := trip_creationInfoPtrM m.creators h.creators
        rw [hb] at new
        show Trip html (creationInfoPtrM m.creators) none d.creationInfo b
        rw [hb]
        exact new)
  have t1 := fieldsTrip_replace (g := docSnippetsM v m) (fun f hf e acc acc' =>
    h1 f hf e acc acc' fun e => absurd (show g!"snippets" = g!"creationInfo" from e) (by decide)) (trip_docFields so v h)
  have t2 := fieldsTrip_replace (g := docFilesM v m) (fun f hf e acc acc' =>
    h2 f hf e acc acc' fun e => absurd (show g!"files" = g!"creationInfo" from e) (by decide)) t1
  have t3 := fieldsTrip_replace (g := docPackagesM so v m) (fun f hf e acc acc' =>
    h3 f hf e acc acc' fun e => absurd (show g!"packages" = g!"creationInfo" from e) (by decide)) t2
  refine fieldsTrip_replace_when (I := fun acc => acc.doc.creationInfo = none) (keys_replace (keys_replace (keys_replace (keys_doc so v)))) ?_
    (fun f hf e acc acc' h0 => h4 f hf e acc acc' fun _ => h0) t3 rfl
  intro f hf e b acc h0
  rcases mem_of_replace hf with rfl | hf
  · exact h0
  rcases mem_of_replace hf with rfl | hf
  · exact h0
  rcases mem_of_replace hf with rfl | hf
  · exact h0
  exact set_keeps_info f hf e b acc h0

/-- Writing a document with lists that are empty, and the version and contents of what is written. -/
theorem json_writtenM (so so' : Sorter) (v : Version) (html : Bool) (m : DocMarks) (d : Doc)
    (hd : JsonDocument html d) (hv : d.spdxVersion = versionName v) :
    ∃ j, writeJsonM so v html m d = .ok j ∧ ∀ k, Like false j k → ∃ gs raw, k = .obj gs ∧
      lastEntry g!"spdxVersion" gs = some (.str raw) ∧ unescape raw = some (versionName v) ∧ decodeDoc so' v k = .ok (keptDoc v d) := by
  obtain ⟨es, ht⟩ := trip_docFieldsM (so := so) (v := v) (m := m) hd
  have henc := trips_encode ht
  have hkeys : KeysDiffer ((docFieldsM so v m).map (·.key)) := by rw [docKeysM]; exact keys_doc so v
  refine ⟨if html then (Json.obj es).escapeHtml else .obj es, ?_, fun k hk => ?_⟩
  · have : (structCodec (docFieldsM so v m)).enc (rawDoc d) = .ok (.obj es) := by
      simp only [structCodec, henc, Res.bind_ok]
    show (do let j ← (structCodec (docFieldsM so v m)).enc (rawDoc d); Res.ok (if html then j.escapeHtml else j)) = _
    rw [this, Res.bind_ok]
  · have hk' : Like html (.obj es) k := like_trans' _ (like_write html _) hk
    have hs : (es.map (·.1)).Sublist ((docFields so v).map (·.key)) := by
      rw [← docKeysM (m := m)]
      exact trips_keys ht
    have hdiff := keysDiffer_sublist hs (keys_doc so v)
    have hdec : (structCodec (docFields so' v)).dec k {} = .ok (rawKept v d) := by
      have := trips_obj ht hkeys k hk'
      rwa [dec_docM, dec_sorter so so'] at this
    have hmem : strF g!"spdxVersion" (·.doc.spdxVersion) (fun b (s : RawDoc) => { s with doc := { s.doc with spdxVersion := b } }) ∈ docFieldsM so v m := by
      refine mem_replace (mem_replace (mem_replace (mem_replace (by simp [docFields]) ?_) ?_) ?_) ?_
      · exact (show g!"spdxVersion" ≠ g!"snippets" by decide)
      · exact (show g!"spdxVersion" ≠ g!"files" by decide)
      · exact (show g!"spdxVersion" ≠ g!"packages" by decide)
      · exact (show g!"spdxVersion" ≠ g!"creationInfo" by decide)
    obtain ⟨j, h1, h2⟩ := encode_mem henc hmem rfl
    cases h1
    obtain ⟨gs, j', rfl, h3, h4, _⟩ := like_entry hk' hdiff h2
    obtain ⟨raw, rfl, h5⟩ := unescape_version html _ h3
    have h5' : unescape raw = some (versionName v) := by rw [← hv]; exact h5
    have h4' : lastEntry g!"spdxVersion" gs = some (.str raw) := h4
    exact ⟨gs, raw, rfl, h4', h5', decodeDoc_kept so' v hdec (docExtras_dec hs hk')⟩

theorem json_round_tripM (so so' : Sorter) (copy : Version → Version → Doc → Doc) (v : Version) (html : Bool) (m : DocMarks) (d : Doc)
    (hd : JsonDocument html d) (hv : d.spdxVersion = versionName v) :
    ∃ j, writeJsonM so v html m d = .ok j ∧ ∀ k, Like false j k → readJsonInto so' copy true v k = .ok (keptDoc v d) := by
  obtain ⟨j, h1, h2⟩ := json_writtenM so so' v html m d hd hv
  refine ⟨j, h1, fun k hk => ?_⟩
  obtain ⟨gs, raw, rfl, h3, h4, h5⟩ := h2 k hk
  simp only [readJsonInto, Bool.not_true, Bool.false_eq_true, if_false, h3, h4, Option.bind_some, versionNamed_name]
  rw [h5, Res.bind_ok]
  cases v <;> rfl

end

/-! ## The text -/

section
variable {float : Str → Bool} {n : Nat}

theorem enc_mark {β : Type} {b : Bool} {c : Codec (List β)} {l : List β} (h : Enc c l (FineJson float (n + 1))) :
    Enc (markCodec b c) l (FineJson float (n + 1)) := by
  intro j hj
  simp only [markCodec] at hj
  split at hj
  · cases hj
    exact fine_arr.2 (by simp)
  · exact h j hj

theorem enc_each {β : Type} {enc : Nat → β → Res Json} {c : Codec (List β)} {l : List β}
    (h : ∀ b ∈ l, ∀ i j, enc i b = .ok j → FineJson float n j) : Enc (eachCodec enc c) l (FineJson float (n + 1)) := by
  have key : ∀ (l : List β) (k : Nat) (js : List Json), (∀ b ∈ l, ∀ i j, enc i b = .ok j → FineJson float n j) → mapResAt enc k l = .ok js →
      ∀ j ∈ js, FineJson float n j := by
    intro l
    induction l with
    | nil => intro k js _ hj; cases hj; simp
    | cons b l ih =>
      intro k js h hj
      rw [mapResAt] at hj
      cases h1 : enc k b with
      | err => rw [h1] at hj; cases hj
      | panic => rw [h1] at hj; cases hj
      | ok x =>
        rw [h1, Res.bind_ok] at hj
        cases h2 : mapResAt enc (k + 1) l with
        | err => rw [h2] at hj; cases hj
        | panic => rw [h2] at hj; cases hj
        | ok xs =>
          rw [h2, Res.bind_ok] at hj
          cases hj
          intro j hm
          rcases List.mem_cons.1 hm with rfl | hm
          · exact h b (by simp) k _ h1
          · exact ih (k + 1) xs (fun b hb => h b (by simp [hb])) h2 j hm
  intro j hj
  cases l with
  | nil => cases hj; exact fine_null
  | cons b l =>
    simp only [eachCodec] at hj
    cases h1 : mapResAt enc 0 (b :: l) with
    | err => rw [h1] at hj; cases hj
    | panic => rw [h1] at hj; cases hj
    | ok js =>
      rw [h1, Res.bind_ok] at hj
      cases hj
      exact fine_arr.2 (key _ 0 js h h1)

theorem fine_replace {σ : Type} {s : σ} {g : Field σ} {fs : List (Field σ)} (hg : FieldFine float n g s) (h : AllFine float n fs s) :
    AllFine float n (replaceField g fs) s := fun f hf => by
  rcases mem_of_replace hf with rfl | hf
  · exact hg
  · exact h f hf

theorem fileFields_fine (v : Version) (f : FileV) : AllFine float 2 (fileFields v) f :=
  fine_append (fine_append (fine_append (fine_append (fine_append
    (fine_cons (ff_scalar (enc_str _)) <| fine_cons (ff_scalar (enc_elementId _)) <| fine_cons (ff_other rfl (enc_strs _)) <|
      fine_cons (ff_other rfl (enc_list fun c _ => enc_checksum c)) <| fine_cons (ff_scalar (enc_str _)) <|
      fine_cons (ff_other rfl (enc_strs _)) <| fine_cons (ff_scalar (enc_str _)) <| fine_cons (ff_scalar (enc_str _)) fine_nil)
    (fine_only (ff_other rfl (enc_ptrList fun a _ => enc_artifact a))))
    (fine_cons (ff_scalar (enc_str _)) <| fine_cons (ff_scalar (enc_str _)) <| fine_cons (ff_other rfl (enc_strs _)) fine_nil))
    (fine_only (ff_other rfl (enc_strs _))))
    (fine_only (ff_other rfl (enc_strs _))))
    (fine_cons (ff_other rfl (enc_list fun a _ => enc_annotation a)) fine_nil)

theorem enc_fileM (v : Version) (m : FileMarks) (f : FileV) : Enc (fileCodecM v m) f (FineJson float 3) :=
  enc_struct (fine_replace (ff_other rfl (enc_mark (enc_list fun c _ => enc_checksum c)))
    (fine_replace (ff_other rfl (enc_mark (enc_strs _))) (fileFields_fine v f)))

theorem enc_snippetM (v : Version) (b : Bool) {s : Snippet} (h : FineSnippet float s) : Enc (snippetCodecM v b) s (FineJson float 4) :=
  enc_struct <| fine_replace (ff_other rfl (enc_mark (enc_list fun r hr => enc_range (h r hr)))) <|
    fine_cons (ff_scalar (enc_elementId _)) <| fine_cons (ff_scalar (enc_elementId _)) <|
    fine_cons (ff_other rfl (enc_list fun r hr => enc_range (h r hr))) <|
    fine_cons (ff_scalar (enc_str _)) <| fine_cons (ff_other rfl (enc_strs _)) <| fine_cons (ff_scalar (enc_str _)) <|
    fine_cons (ff_scalar (enc_str _)) <| fine_cons (ff_scalar (enc_str _)) <| fine_cons (ff_scalar (enc_str _)) fine_nil

theorem packageFieldsM_fine (v : Version) (m : PackageMarks) (p : PackageV) : AllFine float 4 (packageFieldsM v m) p := by
  have h := packageFields_fine (float := float) v p
  have hB : AllFine float 4 (packageFieldsB v) p := fun f hf => h f (List.mem_append_right _ (List.mem_cons_of_mem _ hf))
  refine fine_append (fun f hf => h f (List.mem_append_left _ hf)) (fine_cons (h _ (List.mem_append_right _ (by simp))) ?_)
  exact fine_replace (ff_other rfl (enc_each fun f _ i => enc_fileM v (m.files i) f)) (fine_replace (ff_other rfl (enc_mark (enc_strs _))) hB)

theorem enc_packageM (so : Sorter) (v : Version) (m : PackageMarks) (p : PackageV × List DocElementID) (j : Json)
    (hj : encodePackageM so v m p = .ok j) : FineJson float 5 j := by
  cases v with
  | v21 => exact enc_struct (packageFieldsM_fine .v21 m p.1) j hj
  | v23 => exact enc_struct (packageFieldsM_fine .v23 m p.1) j hj
  | v22 =>
    simp only [encodePackageM] at hj
    cases he : encodeFields p.1 (packageFieldsM .v22 m) with
    | err => rw [he] at hj; cases hj
    | panic => rw [he] at hj; cases hj
    | ok es =>
      rw [he, Res.bind_ok] at hj
      have h := fields_fine (packageFieldsM_fine (float := float) .v22 m p.1) he
      split at hj
      · cases hj
        refine fine_like _ (like_sort so _) (fine_obj.2 fun e hm => h e (List.mem_filter.1 hm).1)
      · cases hj
        exact fine_obj.2 h

theorem enc_creationInfoM (b : Bool) (i : CreationInfo) : Enc (creationInfoCodecM b) i (FineJson float 2) := by
  refine enc_struct (fine_replace ?_ ?_)
  · intro j hj
    have h : FineJson float 1 j := enc_mark (enc_list fun c _ => enc_creator c) j hj
    exact ⟨h, agentPlain_creators h⟩
  · refine fine_cons (ff_scalar (enc_str _)) <| fine_cons ?_ <| fine_cons (ff_scalar (enc_str _)) <| fine_cons (ff_scalar (enc_str _)) fine_nil
    intro j hj
    have h : FineJson float 1 j := enc_list (fun c _ => enc_creator c) j hj
    exact ⟨h, agentPlain_creators h⟩

theorem docFields_fine (so : Sorter) (v : Version) (d : RawDoc) (h : ∀ s ∈ d.doc.snippets, FineSnippet float s) : AllFine float 6 (docFields so v) d :=
  fine_cons (ff_scalar (enc_str _)) <| fine_cons (ff_scalar (enc_str _)) <| fine_cons (ff_scalar (enc_elementId _)) <|
    fine_cons (ff_scalar (enc_str _)) <| fine_cons (ff_scalar (enc_str _)) <|
    fine_cons (ff_other rfl (enc_list fun r _ => (enc_externalDoc r).up (by decide))) <| fine_cons (ff_scalar (enc_str _)) <|
    fine_cons (ff_other rfl (enc_ptr fun i _ => (enc_creationInfo i).up (by decide))) <|
    fine_cons (ff_other rfl (enc_list fun o _ => enc_ptr fun p _ => enc_package so v p)) <|
    fine_cons (ff_other rfl (enc_ptrList fun f _ => (enc_file v f).up (by decide))) <|
    fine_cons (ff_other rfl (enc_ptrList fun l _ => (enc_otherLicense l).up (by decide))) <|
    fine_cons (ff_other rfl (enc_list fun o _ => enc_ptr fun r _ => (enc_relationship r).up (by decide))) <|
    fine_cons (ff_other rfl (enc_ptrList fun a _ => (enc_annotation a).up (by decide))) <|
    fine_cons (ff_other rfl (enc_list fun s hs => (enc_snippet v (h s hs)).up (by decide))) fine_nil

theorem writeJsonM_fine {so : Sorter} {v : Version} {html : Bool} {m : DocMarks} {d : Doc} {j : Json} (h : ∀ s ∈ d.snippets, FineSnippet float s)
    (hj : writeJsonM so v html m d = .ok j) : FineJson float 7 j := by
  unfold writeJsonM at hj
  cases he : (structCodec (docFieldsM so v m)).enc
      { doc := d, packages := d.packages.map fun p => some (p, []), relationships := d.relationships.map some } with
  | err => rw [he] at hj; cases hj
  | panic => rw [he] at hj; cases hj
  | ok k =>
    rw [he, Res.bind_ok] at hj
    cases hj
    refine fine_like k (like_write html k) (enc_struct (fine_replace ?_ (fine_replace ?_ (fine_replace ?_ (fine_replace ?_ (docFields_fine so v _ h))))) k he)
    · refine ff_other rfl fun j hj => ?_
      have hj' : (creationInfoPtrM m.creators).enc d.creationInfo = .ok j := hj
      revert hj'
      cases d.creationInfo with
      | none => intro hj; cases hj; exact fine_null
      | some i => exact fun hj => (enc_creationInfoM m.creators i j hj).mono (by decide)
    · refine ff_other rfl (enc_each fun o ho i j hj => ?_)
      cases o with
      | none => cases hj; exact fine_null
      | some p => exact enc_packageM so v _ p j hj
    · exact ff_other rfl (enc_each fun f _ i j hj => (enc_fileM v _ f j hj).mono (by decide))
    · exact ff_other rfl (enc_each fun s hs i j hj => (enc_snippetM v _ (h s hs) j hj).mono (by decide))

end

/-! ## Without empty lists -/

theorem markCodec_nil {β : Type} (c : Codec (List β)) : markCodec false c = c := by
  cases c
  simp [markCodec]

theorem mapResAt_same {α β : Type} (f : α → Res β) (n : Nat) (l : List α) : mapResAt (fun _ => f) n l = mapRes f l := by
  induction l generalizing n with
  | nil => rfl
  | cons a l ih => simp only [mapResAt, mapRes, ih]

theorem eachCodec_same {β : Type} {zero : β} {c : Codec β} {enc : β → Res Json} (h : enc = c.enc) :
    eachCodec (fun _ => enc) (listCodec zero c) = listCodec zero c := by
  subst h
  have : (eachCodec (fun _ => c.enc) (listCodec zero c)).enc = (listCodec zero c).enc := by
    funext l
    cases l with
    | nil => rfl
    | cons a l => simp only [eachCodec, listCodec, mapResAt_same]
  show Codec.mk (eachCodec (fun _ => c.enc) (listCodec zero c)).enc (listCodec zero c).dec = _
  rw [this]

theorem replace_same {σ : Type} {g : Field σ} {fs : List (Field σ)} (h : ∀ f ∈ fs, f.key = g.key → g = f) : replaceField g fs = fs := by
  have : ∀ f ∈ fs, (if f.key = g.key then g else f) = id f := fun f hf => by
    split
    · next e => exact h f hf e
    · rfl
  rw [replaceField, List.map_congr_left this, List.map_id]

theorem replace_mem {σ : Type} {g f : Field σ} {fs : List (Field σ)} (hk : KeysDiffer (fs.map (·.key))) (hf : f ∈ fs) (h : g = f) :
    replaceField g fs = fs := replace_same fun f' hf' e => by
  subst h
  exact field_unique hk hf hf' e.symm

theorem fileFieldsM_nil (v : Version) : fileFieldsM v {} = fileFields v := by
  have h1 : fileInfoM v {} = strsOptF (v = .v23) g!"licenseInfoInFiles" (·.licenseInfoInFiles) (fun b (s : FileV) => { s with licenseInfoInFiles := b }) := by
    simp only [fileInfoM, markCodec_nil, strsOptF]
  have h2 : fileChecksumsM {} = codecF (listCodec {} checksumCodec) g!"checksums" (·.checksums) (fun b (s : FileV) => { s with checksums := b }) := by
    simp only [fileChecksumsM, markCodec_nil]
  unfold fileFieldsM
  rw [replace_mem (keys_file v) (mem_file_info v) h1]
  exact replace_mem (keys_file v) (mem_file_checksums v) h2

theorem fileCodecM_nil (v : Version) : fileCodecM v {} = fileCodec v := by
  unfold fileCodecM
  rw [fileFieldsM_nil]
  rfl

theorem packageFieldsM_nil (v : Version) : packageFieldsM v {} = packageFields v := by
  have h1 : packageInfoM v {} = strsOptF (v ≠ .v21) g!"licenseInfoFromFiles" (·.licenseInfoFromFiles) (fun b (s : PackageV) => { s with licenseInfoFromFiles := b }) := by
    simp only [packageInfoM, markCodec_nil, strsOptF]
  have h2 : packageFilesM v {} = listOptF (ptrListCodec {} (fileCodec v)) g!"files" (·.files) (fun b (s : PackageV) => { s with files := b }) := by
    have : eachCodec (fun i => (fileCodecM v (({} : PackageMarks).files i)).enc) (ptrListCodec {} (fileCodec v)) = ptrListCodec {} (fileCodec v) :=
      eachCodec_same (by rw [fileCodecM_nil])
    unfold packageFilesM
    rw [this]
  unfold packageFieldsM packageFieldsBM packageFields
  rw [replace_mem (keys_packageB v) (mem_package_info v) h1,
    replace_mem (keys_packageB v) (mem_package_files v) h2]

theorem encodePackageM_nil (so : Sorter) (v : Version) : encodePackageM so v {} = encodePackage so v := by
  funext p
  have hc : ∀ c : VerificationCode, (c.value = [] ∧ c.excludedFiles = [] ∧ True) ↔ c = {} := by
    intro c
    cases c
    simp
  cases v with
  | v21 => simp only [encodePackageM, encodePackage, packageFieldsM_nil]
  | v22 => simp only [encodePackageM, encodePackage, packageFieldsM_nil, hc]
  | v23 => simp only [encodePackageM, encodePackage, packageFieldsM_nil]

theorem snippetCodecM_nil (v : Version) : snippetCodecM v false = snippetCodec v := by
  have h : rangesM false = codecF (listCodec {} rangeCodec) g!"ranges" (·.ranges) (fun b (s : Snippet) => { s with ranges := b }) := by
    simp only [rangesM, markCodec_nil]
  unfold snippetCodecM snippetCodec
  rw [replace_mem (keys_snippet v) (mem_snippet_ranges v) h]

theorem creationInfoPtrM_nil : creationInfoPtrM false = ptrCodec {} creationInfoCodec := by
  have h : creatorsM false = codecF (listCodec {} creatorCodec) g!"creators" (·.creators) (fun b (s : CreationInfo) => { s with creators := b }) := by
    simp only [creatorsM, markCodec_nil]
  have h' : creationInfoCodecM false = creationInfoCodec := by
    unfold creationInfoCodecM creationInfoCodec
    rw [replace_mem keys_creationInfo mem_creators h]
  unfold creationInfoPtrM
  rw [h']
  have : (fun o : Option CreationInfo => match o with | none => Res.ok Json.null | some i => creationInfoCodec.enc i) = (ptrCodec {} creationInfoCodec).enc := by
    funext o
    cases o <;> rfl
  show Codec.mk _ (ptrCodec {} creationInfoCodec).dec = _
  exact congrArg (fun e => Codec.mk e (ptrCodec {} creationInfoCodec).dec) this

theorem docFieldsM_nil (so : Sorter) (v : Version) : docFieldsM so v {} = docFields so v := by
  have hs : docSnippetsM v {} = listOptF (listCodec {} (snippetCodec v)) g!"snippets" (·.doc.snippets) (fun b (s : RawDoc) => { s with doc := { s.doc with snippets := b } }) := by
    have : eachCodec (fun i => (snippetCodecM v (({} : DocMarks).snippets i)).enc) (listCodec {} (snippetCodec v)) = listCodec {} (snippetCodec v) :=
      eachCodec_same (by rw [snippetCodecM_nil])
    unfold docSnippetsM
    rw [this]
  have hf : docFilesM v {} = listOptF (ptrListCodec {} (fileCodec v)) g!"files" (·.doc.files) (fun b (s : RawDoc) => { s with doc := { s.doc with files := b } }) := by
    have : eachCodec (fun i => (fileCodecM v (({} : DocMarks).files i)).enc) (ptrListCodec {} (fileCodec v)) = ptrListCodec {} (fileCodec v) :=
      eachCodec_same (by rw [fileCodecM_nil])
    unfold docFilesM
    rw [this]
  have hp : docPackagesM so v {} = listOptF (listCodec none (ptrCodec ({}, []) (packageCodec so v))) g!"packages" (·.packages) (fun b (s : RawDoc) => { s with packages := b }) := by
    have : eachCodec (fun i => encodePackagePtrM so v (({} : DocMarks).packages i)) (listCodec none (ptrCodec ({}, []) (packageCodec so v))) =
        listCodec none (ptrCodec ({}, []) (packageCodec so v)) :=
      eachCodec_same (by
        funext o
        cases o with
        | none => rfl
        | some p => exact congrFun (encodePackageM_nil so v) p)
    unfold docPackagesM
    rw [this]
  have hi : docInfoM {} = codecF (ptrCodec {} creationInfoCodec) g!"creationInfo" (·.doc.creationInfo) (fun b (s : RawDoc) => { s with doc := { s.doc with creationInfo := b } }) := by
    simp only [docInfoM, creationInfoPtrM_nil]
  have ks := keys_doc so v
  unfold docFieldsM
  rw [replace_mem ks mem_doc_snippets hs,
    replace_mem ks mem_doc_files hf,
    replace_mem ks mem_doc_packages hp,
    replace_mem ks mem_doc_info hi]

theorem writeJsonM_nil (so : Sorter) (v : Version) (html : Bool) (d : Doc) : writeJsonM so v html {} d = writeJson so v html d := by
  unfold writeJsonM writeJson
  rw [docFieldsM_nil]

end Verif
