import Verif.Model.Reuse
import Verif.Lemmas.JsonSafe
import Verif.Spec.JsonSays
import Verif.Spec.RepeatedKeys

/-!
# Memory that is used again does not matter without repeated keys
-/

namespace Verif
open Spec

/-- Decoding into the value `z` gives the same with both, unless a key is repeated. -/
def AgreeAt {β : Type} (c c' : Codec β) (z : β) : Prop := ∀ j, tidy j true = true → c'.dec j z = c.dec j z

theorem agreeAt_refl {β : Type} {c : Codec β} {z : β} : AgreeAt c c z := fun _ _ => rfl

theorem tidyList_consR {j : Json} {l : List Json} (h : tidyList (j :: l) true = true) : tidy j true = true ∧ tidyList l true = true := by
  cases j <;> simpa [tidyList, tidy] using h

theorem mapResAt_fresh {α β : Type} {f : α → Res β} {g : Nat → α → Res β} : ∀ (l : List α) (i : Nat), (∀ i, ∀ a ∈ l, g i a = f a) →
    mapResAt g i l = mapRes f l
  | [], _, _ => rfl
  | a :: l, i, h => by
    rw [mapResAt, mapRes, h i a (by simp), mapResAt_fresh l (i + 1) fun i a ha => h i a (by simp [ha])]

theorem tidyList_memR : ∀ {l : List Json}, tidyList l true = true → ∀ j ∈ l, tidy j true = true
  | [], _, j, hj => by cases hj
  | a :: l, h, j, hj => by
    rcases List.mem_cons.1 hj with rfl | hj
    · exact (tidyList_consR h).1
    · exact tidyList_memR (tidyList_consR h).2 j hj

theorem agreeAt_list {β : Type} {r : Reuse} {zero : β} {c c' : Codec β} (h : AgreeAt c c' zero) :
    AgreeAt (listCodec zero c) (reuseCodec r zero c') [] := by
  intro j hj
  cases j with
  | arr l =>
    rw [tidy] at hj
    refine mapResAt_fresh l 0 fun i a ha => ?_
    rw [r.fresh]
    exact h a (tidyList_memR hj a ha)
  | _ => rfl

theorem agreeAt_ptrList {β : Type} {r : Reuse} {zero : β} {c c' : Codec β} (h : AgreeAt c c' zero) :
    AgreeAt (ptrListCodec zero c) (reusePtrCodec r zero c') [] := by
  refine agreeAt_list fun j hj => ?_
  cases j with
  | null => rfl
  | _ => exact h _ hj

theorem agreeAt_ptr {β : Type} {zero : β} {c c' : Codec β} (h : AgreeAt c c' zero) :
    AgreeAt (ptrCodec zero c) (ptrCodec zero c') none := by
  intro j hj
  cases j with
  | null => rfl
  | _ => simp only [ptrCodec]; rw [h _ hj]

/-- The same field with another codec, which agrees at the value in `z`. -/
def AgreeField {σ : Type} (z : σ) (f f' : Field σ) : Prop := ∃ c : Codec f.β, f' = { f with codec := c } ∧ AgreeAt f.codec c (f.get z)

/-- Fields that agree one by one, and do not touch each other. -/
inductive AgreeFields {σ : Type} (z : σ) : List (Field σ) → List (Field σ) → Prop
  | nil : AgreeFields z [] []
  | cons {f f' : Field σ} {fs fs' : List (Field σ)} (h : AgreeField z f f') (hs : AgreeFields z fs fs')
      (apart : ∀ g ∈ fs, ∀ b s, g.get (f.set b s) = g.get s) : AgreeFields z (f :: fs) (f' :: fs')

theorem sameKey_trans {a b c : Str} (h1 : sameKey a b = true) (h2 : sameKey a c = true) : sameKey b c = true := by
  simp only [sameKey, decide_eq_true_eq] at *
  rw [← h1, h2]

theorem decodeEntries_none {σ : Type} (f : Field σ) : ∀ (es : List (Str × Json)) (s : σ), (∀ k ∈ es.map (·.1), sameKey f.key k = false) →
    decodeEntries f es s = .ok s
  | [], _, _ => rfl
  | (k, j) :: es, s, h => by
    rw [decodeEntries, if_neg (by simp [h k (by simp)])]
    exact decodeEntries_none f es s fun k hk => h k (by simp only [List.map_cons, List.mem_cons]; exact Or.inr hk)

theorem decodeEntries_agree {σ : Type} {f : Field σ} {c : Codec f.β} {z : f.β} (h : AgreeAt f.codec c z) :
    ∀ (es : List (Str × Json)) (s : σ), OneEach es → (∀ e ∈ es, tidy e.2 true = true) → f.get s = z →
      decodeEntries { f with codec := c } es s = decodeEntries f es s
  | [], _, _, _, _ => rfl
  | (k, j) :: es, s, h1, h2, hz => by
    have h1' := List.pairwise_cons.1 (show ((k :: es.map (·.1)).Pairwise fun a b => sameKey a b = false) from h1)
    rw [decodeEntries, decodeEntries]
    by_cases hk : sameKey f.key k = true
    · rw [if_pos hk, if_pos hk]
      show (c.dec j (f.get s)).bind _ = (f.codec.dec j (f.get s)).bind _
      rw [hz, h j (h2 (k, j) (by simp))]
      congr 1
      funext b
      have : ∀ k' ∈ es.map (·.1), sameKey f.key k' = false := fun k' hk' => by
        cases hc : sameKey f.key k' with
        | false => rfl
        | true =>
          have := sameKey_trans hk hc
          rw [h1'.1 k' hk'] at this
          cases this
      have e1 : decodeEntries { f with codec := c } es (f.set b s) = .ok (f.set b s) := decodeEntries_none { f with codec := c } es _ this
      exact e1.trans (decodeEntries_none f es _ this).symm
    · rw [if_neg hk, if_neg hk]
      exact decodeEntries_agree h es s h1'.2 (fun e he => h2 e (by simp [he])) hz

theorem decodeEntries_apartR {σ : Type} {f g : Field σ} (h : ∀ b s, g.get (f.set b s) = g.get s) :
    ∀ (es : List (Str × Json)) (s t : σ), decodeEntries f es s = .ok t → g.get t = g.get s
  | [], s, t, ht => by cases ht; rfl
  | (k, j) :: es, s, t, ht => by
    rw [decodeEntries] at ht
    split at ht
    · cases hb : f.codec.dec j (f.get s) with
      | ok b =>
        rw [hb, Res.bind_ok] at ht
        rw [decodeEntries_apartR h es _ t ht, h]
      | err => rw [hb] at ht; cases ht
      | panic => rw [hb] at ht; cases ht
    · exact decodeEntries_apartR h es s t ht

theorem decodeFields_agree {σ : Type} {z : σ} {es : List (Str × Json)} (h1 : OneEach es) (h2 : ∀ e ∈ es, tidy e.2 true = true) :
    ∀ {fs fs' : List (Field σ)}, AgreeFields z fs fs' → ∀ s, (∀ f ∈ fs, f.get s = f.get z) →
      decodeFields es fs' s = decodeFields es fs s := by
  intro fs fs' h
  induction h with
  | nil => intro _ _; rfl
  | @cons f f' fs fs' hf _ apart ih =>
    intro s hs
    obtain ⟨c, rfl, hc⟩ := hf
    rw [decodeFields, decodeFields, decodeEntries_agree hc es s h1 h2 (hs f (by simp))]
    cases ht : decodeEntries f es s with
    | err => rfl
    | panic => rfl
    | ok t =>
      rw [Res.bind_ok, Res.bind_ok]
      refine ih t fun g hg => ?_
      rw [decodeEntries_apartR (apart g hg) es s t ht]
      exact hs g (by simp [hg])

theorem tidyFields_memR : ∀ {es : List (Str × Json)}, tidyFields es true = true → ∀ e ∈ es, tidy e.2 true = true
  | [], _, e, he => by cases he
  | (k, j) :: es, h, e, he => by
    rw [tidyFields, Bool.and_eq_true] at h
    rcases List.mem_cons.1 he with rfl | he
    · exact h.1
    · exact tidyFields_memR h.2 e he

theorem agreeAt_struct {σ : Type} {z : σ} {fs fs' : List (Field σ)} (h : AgreeFields z fs fs') :
    AgreeAt (structCodec fs) (structCodec fs') z := by
  intro j hj
  cases j with
  | obj es =>
    rw [tidy, Bool.and_eq_true, decide_eq_true_eq] at hj
    exact decodeFields_agree hj.1 (tidyFields_memR hj.2) h z fun _ _ => rfl
  | _ => rfl

theorem agreeField_same {σ : Type} {z : σ} {f : Field σ} : AgreeField z f f := ⟨f.codec, rfl, agreeAt_refl⟩
theorem agreeField_of {σ : Type} {z : σ} {f : Field σ} {c : Codec f.β} (h : AgreeAt f.codec c (f.get z)) :
    AgreeField z f { f with codec := c } := ⟨c, rfl, h⟩

/-- Fields do not touch each other. -/
macro "apart" : tactic => `(tactic| (simp only [List.forall_mem_cons, List.not_mem_nil, false_imp_iff, implies_true, and_true]; repeat' first | exact fun _ _ => rfl | refine And.intro ?_ ?_ | exact trivial))

/-- Goes through the fields of a struct. -/
macro "agree" : tactic => `(tactic| repeat' first
  | exact AgreeFields.nil
  | exact agreeField_same
  | exact agreeField_of (by assumption)
  | refine AgreeFields.cons ?_ ?_ (by apart))

variable {r : Reuse}

theorem agree_strs : AgreeAt strsCodec (strsCodecR r) [] := agreeAt_list agreeAt_refl

theorem agree_code : AgreeAt codeCodec (codeCodecR r) {} := by
  have h : AgreeAt strsCodec (strsCodecR r) [] := agree_strs
  exact agreeAt_struct (by unfold codeFields codeFieldsR; agree)

theorem agree_creationInfo : AgreeAt creationInfoCodec (creationInfoCodecR r) {} := by
  have h : AgreeAt (listCodec {} creatorCodec) (reuseCodec r {} creatorCodec) [] := agreeAt_list agreeAt_refl
  exact agreeAt_struct (by unfold creationInfoFields creationInfoFieldsR; agree)

theorem agree_otherLicense : AgreeAt otherLicenseCodec (otherLicenseCodecR r) {} := by
  have h : AgreeAt strsCodec (strsCodecR r) [] := agree_strs
  exact agreeAt_struct (by unfold otherLicenseFields otherLicenseFieldsR; agree)

theorem agree_snippet (v : Version) : AgreeAt (snippetCodec v) (snippetCodecR r v) {} := by
  have h : AgreeAt strsCodec (strsCodecR r) [] := agree_strs
  have h2 : AgreeAt (listCodec {} rangeCodec) (reuseCodec r {} rangeCodec) [] := agreeAt_list agreeAt_refl
  exact agreeAt_struct (by unfold snippetFields snippetFieldsR; agree)

theorem agree_file (v : Version) : AgreeAt (fileCodec v) (fileCodecR r v) {} := by
  have h : AgreeAt strsCodec (strsCodecR r) [] := agree_strs
  have h2 : AgreeAt (listCodec {} checksumCodec) (reuseCodec r {} checksumCodec) [] := agreeAt_list agreeAt_refl
  have h3 : AgreeAt (listCodec {} annotationCodec) (reuseCodec r {} annotationCodec) [] := agreeAt_list agreeAt_refl
  have h4 : AgreeAt (ptrListCodec {} artifactCodec) (reusePtrCodec r {} artifactCodec) [] := agreeAt_ptrList agreeAt_refl
  refine agreeAt_struct ?_
  cases v
  all_goals
    simp only [fileFields, fileFieldsR, only, reduceCtorEq, decide_false, decide_true, ne_eq, not_true_eq_false, not_false_eq_true, if_true, Bool.false_eq_true, if_false, List.append_nil, List.cons_append, List.nil_append]
    agree

theorem agree_packageStruct (v : Version) : AgreeAt (structCodec (packageFields v)) (structCodec (packageFieldsR r v)) {} := by
  have h : AgreeAt strsCodec (strsCodecR r) [] := agree_strs
  have h2 : AgreeAt (listCodec {} checksumCodec) (reuseCodec r {} checksumCodec) [] := agreeAt_list agreeAt_refl
  have h3 : AgreeAt (listCodec {} annotationCodec) (reuseCodec r {} annotationCodec) [] := agreeAt_list agreeAt_refl
  have h4 : AgreeAt (ptrListCodec {} (externalRefCodec v)) (reusePtrCodec r {} (externalRefCodec v)) [] := agreeAt_ptrList agreeAt_refl
  have h5 : AgreeAt (ptrListCodec {} (fileCodec v)) (reusePtrCodec r {} (fileCodecR r v)) [] := agreeAt_ptrList (agree_file v)
  have h6 : AgreeAt codeCodec (codeCodecR r) {} := agree_code
  have h7 : AgreeAt (ptrCodec {} codeCodec) (ptrCodec {} (codeCodecR r)) none := agreeAt_ptr agree_code
  refine agreeAt_struct ?_
  cases v
  all_goals
    simp only [packageFields, packageFieldsR, packageFieldsA, packageFieldsB, packageFieldsBR, codeField, codeFieldR, only, reduceCtorEq, decide_false, decide_true, ne_eq, not_true_eq_false, not_false_eq_true, if_true, Bool.false_eq_true, if_false, List.append_nil, List.cons_append, List.nil_append]
    agree

theorem agree_packageExtras : AgreeAt (structCodec packageExtrasFields) (structCodec (packageExtrasFieldsR r)) {} := by
  have h : AgreeAt (listCodec {} docElementIdCodec) (reuseCodec r {} docElementIdCodec) [] := agreeAt_list agreeAt_refl
  exact agreeAt_struct (by unfold packageExtrasFields packageExtrasFieldsR; agree)

theorem agree_package (so : Sorter) (v : Version) : AgreeAt (packageCodec so v) (packageCodecR r so v) ({}, []) := by
  intro j hj
  show decodePackageR r v j ({}, []) = decodePackage v j ({}, [])
  unfold decodePackage decodePackageR
  cases v
  · show ((structCodec (packageFieldsR r .v21)).dec j {}).bind _ = ((structCodec (packageFields .v21)).dec j {}).bind _
    rw [agree_packageStruct .v21 j hj]
  · rw [agree_packageStruct .v22 j hj, agree_packageExtras j hj]
    rfl
  · rw [agree_packageStruct .v23 j hj, agree_packageExtras j hj]
    rfl

theorem agree_doc (so : Sorter) (v : Version) : AgreeAt (structCodec (docFields so v)) (structCodec (docFieldsR r so v)) {} := by
  have h1 : AgreeAt (listCodec {} externalDocCodec) (reuseCodec r {} externalDocCodec) [] := agreeAt_list agreeAt_refl
  have h2 : AgreeAt (ptrCodec {} creationInfoCodec) (ptrCodec {} (creationInfoCodecR r)) none := agreeAt_ptr agree_creationInfo
  have h3 : AgreeAt (listCodec none (ptrCodec ({}, []) (packageCodec so v))) (reuseCodec r none (ptrCodec ({}, []) (packageCodecR r so v))) [] :=
    agreeAt_list (agreeAt_ptr (agree_package so v))
  have h4 : AgreeAt (ptrListCodec {} (fileCodec v)) (reusePtrCodec r {} (fileCodecR r v)) [] := agreeAt_ptrList (agree_file v)
  have h5 : AgreeAt (ptrListCodec {} otherLicenseCodec) (reusePtrCodec r {} (otherLicenseCodecR r)) [] := agreeAt_ptrList agree_otherLicense
  have h6 : AgreeAt (listCodec none (ptrCodec {} relationshipCodec)) (reuseCodec r none (ptrCodec {} relationshipCodec)) [] := agreeAt_list agreeAt_refl
  have h7 : AgreeAt (ptrListCodec {} annotationCodec) (reusePtrCodec r {} annotationCodec) [] := agreeAt_ptrList agreeAt_refl
  have h8 : AgreeAt (listCodec {} (snippetCodec v)) (reuseCodec r {} (snippetCodecR r v)) [] := agreeAt_list (agree_snippet v)
  refine agreeAt_struct ?_
  unfold docFields docFieldsR
  repeat' first
    | exact AgreeFields.nil
    | exact agreeField_of h1 | exact agreeField_of h2 | exact agreeField_of h3 | exact agreeField_of h4
    | exact agreeField_of h5 | exact agreeField_of h6 | exact agreeField_of h7 | exact agreeField_of h8
    | exact agreeField_same
    | refine AgreeFields.cons ?_ ?_ (by apart)

theorem agree_docExtras : AgreeAt (structCodec docExtrasFields) (structCodec (docExtrasFieldsR r)) [] := by
  have h : AgreeAt (listCodec {} docElementIdCodec) (reuseCodec r {} docElementIdCodec) [] := agreeAt_list agreeAt_refl
  exact agreeAt_struct (by unfold docExtrasFields docExtrasFieldsR; agree)

theorem decodeDocR_eq (so : Sorter) (v : Version) (j : Json) (hj : tidy j true = true) : decodeDocR r so v j = decodeDoc so v j := by
  unfold decodeDoc decodeDocR
  cases v
  · rw [agree_doc so .v21 j hj]
  · rw [agree_doc so .v22 j hj, agree_docExtras j hj]
  · rw [agree_doc so .v23 j hj, agree_docExtras j hj]

theorem readJsonIntoR_eq (so : Sorter) (copy : Version → Version → Doc → Doc) (isPtr : Bool) (target : Version) (j : Json)
    (hj : tidy j true = true) : readJsonIntoR r so copy isPtr target j = readJsonInto so copy isPtr target j := by
  cases j with
  | obj es =>
    simp only [readJsonInto, readJsonIntoR, decodeDocR_eq so _ _ hj]
    rfl
  | _ => rfl

/-! ## No panic -/

theorem mapResAt_safe {α β : Type} {f : Nat → α → Res β} (h : ∀ i a, f i a ≠ .panic) : ∀ l i, mapResAt f i l ≠ .panic
  | [], _ => ok_safe
  | a :: l, i => bind_safe (h i a) fun _ => bind_safe (mapResAt_safe h l (i + 1)) fun _ => ok_safe

theorem safeCodec_reuse {β : Type} {zero : β} {c : Codec β} (h : SafeCodec c) : SafeCodec (reuseCodec r zero c) := by
  intro j z
  cases j <;> first | exact ok_safe | exact err_safe | exact mapResAt_safe (fun i j => h j _) _ _

theorem safeCodec_reusePtr {β : Type} {zero : β} {c : Codec β} (h : SafeCodec c) : SafeCodec (reusePtrCodec r zero c) := by
  refine safeCodec_reuse fun j z => ?_
  cases j <;> first | exact err_safe | exact h _ _

theorem safeR_strs : SafeCodec (strsCodecR r) := safeCodec_reuse safeCodec_str

theorem safeR_code : SafeCodec (codeCodecR r) := by
  have : SafeCodec (strsCodecR r) := safeR_strs
  exact safeCodec_struct (by unfold codeFieldsR; fields_safe)
theorem safeR_creationInfo : SafeCodec (creationInfoCodecR r) := by
  have : SafeCodec (reuseCodec r {} creatorCodec) := safeCodec_reuse safeCodec_creator
  exact safeCodec_struct (by unfold creationInfoFieldsR; fields_safe)
theorem safeR_otherLicense : SafeCodec (otherLicenseCodecR r) := by
  have : SafeCodec (strsCodecR r) := safeR_strs
  exact safeCodec_struct (by unfold otherLicenseFieldsR; fields_safe)
theorem safeR_snippet (v : Version) : SafeCodec (snippetCodecR r v) := by
  have : SafeCodec (strsCodecR r) := safeR_strs
  have : SafeCodec (reuseCodec r {} rangeCodec) := safeCodec_reuse safeCodec_range
  exact safeCodec_struct (by unfold snippetFieldsR; fields_safe)
theorem safeR_file (v : Version) : SafeCodec (fileCodecR r v) := by
  have : SafeCodec (strsCodecR r) := safeR_strs
  have h1 : SafeCodec (reuseCodec r {} checksumCodec) := safeCodec_reuse safeCodec_checksum
  have h2 : SafeCodec (reusePtrCodec r {} artifactCodec) := safeCodec_reusePtr safeCodec_artifact
  have h3 : SafeCodec (reuseCodec r {} annotationCodec) := safeCodec_reuse safeCodec_annotation
  exact safeCodec_struct (by unfold fileFieldsR; fields_safe)

theorem safeR_package (so : Sorter) (v : Version) : SafeCodec (packageCodecR r so v) := by
  have : SafeCodec (strsCodecR r) := safeR_strs
  have h1 : SafeCodec (reuseCodec r {} checksumCodec) := safeCodec_reuse safeCodec_checksum
  have h2 : SafeCodec (reusePtrCodec r {} (externalRefCodec v)) := safeCodec_reusePtr (safeCodec_externalRef v)
  have h3 : SafeCodec (reuseCodec r {} annotationCodec) := safeCodec_reuse safeCodec_annotation
  have h4 : SafeCodec (reusePtrCodec r {} (fileCodecR r v)) := safeCodec_reusePtr (safeR_file v)
  have h5 : SafeCodec (codeFieldR r v).codec := by
    cases v
    · exact safeR_code
    · exact safeR_code
    · exact safeCodec_ptr safeR_code
  have h6 : SafeCodec (structCodec (packageFieldsR r v)) :=
    safeCodec_struct (by unfold packageFieldsR packageFieldsA packageFieldsBR; fields_safe)
  have h8 : SafeCodec (reuseCodec r {} docElementIdCodec) := safeCodec_reuse safeCodec_docElementId
  have h7 : SafeCodec (structCodec (packageExtrasFieldsR r)) := safeCodec_struct (by unfold packageExtrasFieldsR; fields_safe)
  intro j z
  show decodePackageR r v j z ≠ .panic
  unfold decodePackageR
  split
  · exact bind_safe (h6 j _) fun _ => ok_safe
  · exact bind_safe (h6 j _) fun _ => bind_safe (h7 j _) fun _ => ok_safe
  · exact bind_safe (h6 j _) fun _ => bind_safe (h7 j _) fun _ => ok_safe

theorem decodeDocR_safe (so : Sorter) (v : Version) (j : Json) : decodeDocR r so v j ≠ .panic := by
  have h1 : SafeCodec (reuseCodec r {} externalDocCodec) := safeCodec_reuse safeCodec_externalDoc
  have h2 : SafeCodec (ptrCodec {} (creationInfoCodecR r)) := safeCodec_ptr safeR_creationInfo
  have h3 : SafeCodec (reuseCodec r none (ptrCodec ({}, []) (packageCodecR r so v))) := safeCodec_reuse (safeCodec_ptr (safeR_package so v))
  have h4 : SafeCodec (reusePtrCodec r {} (fileCodecR r v)) := safeCodec_reusePtr (safeR_file v)
  have h5 : SafeCodec (reusePtrCodec r {} (otherLicenseCodecR r)) := safeCodec_reusePtr safeR_otherLicense
  have h6 : SafeCodec (reuseCodec r none (ptrCodec {} relationshipCodec)) := safeCodec_reuse (safeCodec_ptr safeCodec_relationship)
  have h7 : SafeCodec (reusePtrCodec r {} annotationCodec) := safeCodec_reusePtr safeCodec_annotation
  have h8 : SafeCodec (reuseCodec r {} (snippetCodecR r v)) := safeCodec_reuse (safeR_snippet v)
  have h : SafeCodec (structCodec (docFieldsR r so v)) := safeCodec_struct (by unfold docFieldsR; fields_safe)
  have h9 : SafeCodec (reuseCodec r {} docElementIdCodec) := safeCodec_reuse safeCodec_docElementId
  have h' : SafeCodec (structCodec (docExtrasFieldsR r)) := safeCodec_struct (by unfold docExtrasFieldsR; fields_safe)
  unfold decodeDocR
  split
  · exact bind_safe (h j _) fun _ => bind_safe (ofOption_safe _) fun _ => bind_safe (ofOption_safe _) fun _ => ok_safe
  · exact bind_safe (h j _) fun _ => bind_safe (h' j _) fun _ => bind_safe (ofOption_safe _) fun _ => ok_safe
  · exact bind_safe (h j _) fun _ => bind_safe (h' j _) fun _ => bind_safe (ofOption_safe _) fun _ => ok_safe

theorem readJsonIntoR_safe (so : Sorter) (copy : Version → Version → Doc → Doc) (isPtr : Bool) (target : Version) (j : Json) :
    readJsonIntoR r so copy isPtr target j ≠ .panic := by
  unfold readJsonIntoR
  repeat' first
    | exact err_safe
    | (refine bind_safe (decodeDocR_safe _ _ _) fun _ => ?_)
    | (unfold convertDocument)
    | exact ok_safe
    | split

/-! ## The last array counts -/

theorem decodeFields_split {σ : Type} {es : List (Str × Json)} {g : Field σ} {post : List (Field σ)} {t : σ} :
    ∀ {pre : List (Field σ)} {s : σ}, decodeFields es (pre ++ g :: post) s = .ok t →
      ∃ s1 s2, decodeFields es pre s = .ok s1 ∧ decodeEntries g es s1 = .ok s2 ∧ decodeFields es post s2 = .ok t
  | [], s, h => by
    rw [List.nil_append, decodeFields] at h
    cases h1 : decodeEntries g es s with
    | err => rw [h1] at h; cases h
    | panic => rw [h1] at h; cases h
    | ok s2 =>
      rw [h1, Res.bind_ok] at h
      exact ⟨s, s2, rfl, h1, h⟩
  | f :: pre, s, h => by
    rw [List.cons_append, decodeFields] at h
    cases h1 : decodeEntries f es s with
    | err => rw [h1] at h; cases h
    | panic => rw [h1] at h; cases h
    | ok s' =>
      rw [h1, Res.bind_ok] at h
      obtain ⟨a, b, h2, h3⟩ := decodeFields_split h
      exact ⟨a, b, by rw [decodeFields, h1, Res.bind_ok]; exact h2, h3⟩

theorem decodeFields_keeps {σ β : Type} {es : List (Str × Json)} {get : σ → β} :
    ∀ {fs : List (Field σ)} {s t : σ}, (∀ f ∈ fs, ∀ b s, get (f.set b s) = get s) → decodeFields es fs s = .ok t → get t = get s
  | [], s, t, _, h => by cases h; rfl
  | f :: fs, s, t, ha, h => by
    rw [decodeFields] at h
    cases h1 : decodeEntries f es s with
    | err => rw [h1] at h; cases h
    | panic => rw [h1] at h; cases h
    | ok s' =>
      rw [h1, Res.bind_ok] at h
      rw [decodeFields_keeps (fun f hf => ha f (by simp [hf])) h]
      exact decodeEntries_apartR (g := { β, key := [], get, set := fun _ s => s, isEmpty := fun _ => false, codec := ⟨fun _ => .err, fun _ _ => .err⟩ })
        (ha f (by simp)) es s s' h1

theorem mapResAt_length {α β : Type} {f : Nat → α → Res β} : ∀ {l : List α} {n : Nat} {bs : List β}, mapResAt f n l = .ok bs → bs.length = l.length
  | [], _, bs, h => by cases h; rfl
  | a :: l, n, bs, h => by
    rw [mapResAt] at h
    cases h1 : f n a with
    | err => rw [h1] at h; cases h
    | panic => rw [h1] at h; cases h
    | ok b =>
      rw [h1, Res.bind_ok] at h
      cases h2 : mapResAt f (n + 1) l with
      | err => rw [h2] at h; cases h
      | panic => rw [h2] at h; cases h
      | ok cs =>
        rw [h2, Res.bind_ok] at h
        cases h
        simp [mapResAt_length h2]

theorem reuse_length {β : Type} {zero : β} {c : Codec β} {j : Json} {old l : List β} (h : (reuseCodec r zero c).dec j old = .ok l) :
    l.length = valueLength j := by
  cases j with
  | arr js => exact mapResAt_length h
  | null => cases h; rfl
  | _ => cases h

theorem decodeEntries_length {σ β : Type} {g : Field σ} {get : σ → List β} (hl : ∀ j s b, g.codec.dec j (g.get s) = .ok b → ∀ s, (get (g.set b s)).length = valueLength j) :
    ∀ (es : List (Str × Json)) (s t : σ), decodeEntries g es s = .ok t →
      (get t).length = ((entries g.key es).getLast?.map valueLength).getD (get s).length
  | [], s, t, h => by cases h; rfl
  | (k, j) :: es, s, t, h => by
    rw [decodeEntries] at h
    split at h
    · next hk =>
      cases h1 : g.codec.dec j (g.get s) with
      | err => rw [h1] at h; cases h
      | panic => rw [h1] at h; cases h
      | ok b =>
        rw [h1, Res.bind_ok] at h
        rw [decodeEntries_length hl es _ t h, hl j s b h1]
        have : entries g.key ((k, j) :: es) = j :: entries g.key es := by simp [entries, hk]
        rw [this, List.getLast?_cons]
        cases (entries g.key es).getLast? <;> rfl
    · next hk =>
      have : entries g.key ((k, j) :: es) = entries g.key es := by simp [entries, hk]
      rw [this]
      exact decodeEntries_length hl es s t h

theorem field_length {σ β : Type} {zero : β} {c : Codec β} {pre post : List (Field σ)} {key : Str} {get : σ → List β} {set : List β → σ → σ}
    {i : List β → Bool} {es : List (Str × Json)} {s t : σ}
    (h : decodeFields es (pre ++ { β := List β, key, get, set, isEmpty := i, codec := reuseCodec r zero c } :: post) s = .ok t)
    (hg : ∀ b s, get (set b s) = b) (h1 : ∀ f ∈ pre, ∀ b s, get (f.set b s) = get s) (h2 : ∀ f ∈ post, ∀ b s, get (f.set b s) = get s)
    (hs : get s = []) : (get t).length = lengthUnder key es := by
  obtain ⟨s1, s2, h3, h4, h5⟩ := decodeFields_split h
  rw [decodeFields_keeps h2 h5, decodeEntries_length (fun j s b hb s' => by
    have hb' : (reuseCodec r zero c).dec j (get s) = .ok b := hb
    show (get (set b s')).length = _
    rw [hg, reuse_length hb']) es s1 s2 h4, decodeFields_keeps h1 h3, hs]
  rfl

/-- The other fields of a document. -/
macro "others" : tactic => `(tactic| (simp only [docFieldsR, List.take_succ_cons, List.take_zero, List.drop_succ_cons, List.drop_zero, List.forall_mem_cons, List.not_mem_nil, false_imp_iff, implies_true, and_true]; repeat' first | exact fun _ _ => rfl | refine And.intro ?_ ?_ | exact trivial))

theorem docFieldsR_length {so : Sorter} {v : Version} {es : List (Str × Json)} {t : RawDoc} (h : decodeFields es (docFieldsR r so v) {} = .ok t) :
    t.doc.externalDocumentRefs.length = lengthUnder g!"externalDocumentRefs" es ∧ t.packages.length = lengthUnder g!"packages" es ∧
    t.doc.files.length = lengthUnder g!"files" es ∧ t.doc.otherLicenses.length = lengthUnder g!"hasExtractedLicensingInfos" es ∧
    t.doc.annotations.length = lengthUnder g!"annotations" es ∧ t.doc.snippets.length = lengthUnder g!"snippets" es := by
  refine ⟨?_, ?_, ?_, ?_, ?_, ?_⟩
  · exact field_length (r := r) (pre := (docFieldsR r so v).take 5) (post := (docFieldsR r so v).drop 6) (get := fun s => s.doc.externalDocumentRefs) h (fun _ _ => rfl) (by others) (by others) rfl
  · exact field_length (r := r) (pre := (docFieldsR r so v).take 8) (post := (docFieldsR r so v).drop 9) (get := fun s => s.packages) h (fun _ _ => rfl) (by others) (by others) rfl
  · exact field_length (r := r) (pre := (docFieldsR r so v).take 9) (post := (docFieldsR r so v).drop 10) (get := fun s => s.doc.files) h (fun _ _ => rfl) (by others) (by others) rfl
  · exact field_length (r := r) (pre := (docFieldsR r so v).take 10) (post := (docFieldsR r so v).drop 11) (get := fun s => s.doc.otherLicenses) h (fun _ _ => rfl) (by others) (by others) rfl
  · exact field_length (r := r) (pre := (docFieldsR r so v).take 12) (post := (docFieldsR r so v).drop 13) (get := fun s => s.doc.annotations) h (fun _ _ => rfl) (by others) (by others) rfl
  · exact field_length (r := r) (pre := (docFieldsR r so v).take 13) (post := (docFieldsR r so v).drop 14) (get := fun s => s.doc.snippets) h (fun _ _ => rfl) (by others) (by others) rfl

theorem allSome_length {α : Type} : ∀ {l : List (Option α)} {m : List α}, allSome l = some m → m.length = l.length
  | [], m, h => by cases h; rfl
  | none :: l, m, h => by cases h
  | some a :: l, m, h => by
    rw [allSome] at h
    obtain ⟨m', h1, rfl⟩ := Option.map_eq_some_iff.1 h
    simp [allSome_length h1]

end Verif
