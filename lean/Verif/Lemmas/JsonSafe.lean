import Verif.Model.JsonDoc

/-!
# Decoding JSON does not panic
-/

namespace Verif

/-- No value makes a decoder panic. -/
def SafeCodec {β : Type} (c : Codec β) : Prop := ∀ j z, c.dec j z ≠ .panic

theorem bind_safe {α β : Type} {r : Res α} {f : α → Res β} (h1 : r ≠ .panic) (h2 : ∀ a, f a ≠ .panic) : (r >>= f) ≠ .panic := by
  cases r with
  | ok a => rw [Res.bind_ok]; exact h2 a
  | err => exact fun h => by cases h
  | panic => exact absurd rfl h1

theorem ok_safe {α : Type} {a : α} : (Res.ok a : Res α) ≠ .panic := fun h => by cases h
theorem err_safe {α : Type} : (Res.err : Res α) ≠ .panic := fun h => by cases h
theorem ofOption_safe {α : Type} (o : Option α) : Res.ofOption o ≠ .panic := by
  cases o
  · exact err_safe
  · exact ok_safe

theorem safeCodec_str : SafeCodec strCodec := by
  intro j z
  cases j <;> first | exact ofOption_safe _ | exact ok_safe | exact err_safe

theorem safeCodec_bool : SafeCodec boolCodec := by
  intro j z
  cases j <;> first | exact ok_safe | exact err_safe

theorem safeCodec_int : SafeCodec intCodec := by
  intro j z
  cases j <;> first | exact ofOption_safe _ | exact ok_safe | exact err_safe

theorem mapRes_safe {α β : Type} {f : α → Res β} (h : ∀ a, f a ≠ .panic) : ∀ l, mapRes f l ≠ .panic
  | [] => ok_safe
  | a :: l => bind_safe (h a) fun _ => bind_safe (mapRes_safe h l) fun _ => ok_safe

theorem safeCodec_list {β : Type} {zero : β} {c : Codec β} (h : SafeCodec c) : SafeCodec (listCodec zero c) := by
  intro j z
  cases j <;> first | exact ok_safe | exact err_safe | exact mapRes_safe (fun j => h j zero) _

theorem safeCodec_ptrList {β : Type} {zero : β} {c : Codec β} (h : SafeCodec c) : SafeCodec (ptrListCodec zero c) := by
  refine safeCodec_list fun j z => ?_
  cases j <;> first | exact err_safe | exact h _ _

theorem safeCodec_ptr {β : Type} {zero : β} {c : Codec β} (h : SafeCodec c) : SafeCodec (ptrCodec zero c) := by
  intro j z
  cases j <;> cases z <;> first | exact ok_safe | exact bind_safe (h _ _) fun _ => ok_safe

theorem decodeEntries_safe {σ : Type} {f : Field σ} (h : SafeCodec f.codec) : ∀ (es : List (Str × Json)) (s : σ),
    decodeEntries f es s ≠ .panic
  | [], _ => ok_safe
  | (k, j) :: es, s => by
    rw [decodeEntries]
    split
    · exact bind_safe (h _ _) fun _ => decodeEntries_safe h es _
    · exact decodeEntries_safe h es s

theorem decodeFields_safe {σ : Type} {es : List (Str × Json)} : ∀ {fs : List (Field σ)} (_ : ∀ f ∈ fs, SafeCodec f.codec) (s : σ),
    decodeFields es fs s ≠ .panic
  | [], _, _ => ok_safe
  | _ :: _, h, _ => bind_safe (decodeEntries_safe (h _ (by simp)) es _) fun _ => decodeFields_safe (fun g hg => h g (by simp [hg])) _

theorem safeCodec_struct {σ : Type} {fs : List (Field σ)} (h : ∀ f ∈ fs, SafeCodec f.codec) : SafeCodec (structCodec fs) := by
  intro j z
  cases j <;> first | exact ok_safe | exact err_safe | exact decodeFields_safe h z

theorem safeCodec_strs : SafeCodec strsCodec := safeCodec_list safeCodec_str

theorem trimIdPrefix_safe (pre id : Str) : trimIdPrefix pre id ≠ .panic := by
  unfold trimIdPrefix
  split
  · split
    · exact err_safe
    · exact ok_safe
  · exact err_safe

theorem safeCodec_elementId : SafeCodec elementIdCodec := fun _ _ => trimIdPrefix_safe _ _
theorem safeCodec_documentId : SafeCodec documentIdCodec := fun _ _ => trimIdPrefix_safe _ _

theorem safeCodec_docElementId : SafeCodec docElementIdCodec := by
  intro j z
  show docElementIdOfJson z j.text ≠ .panic
  unfold docElementIdOfJson
  dsimp only
  repeat' first | exact ok_safe | exact err_safe | exact trimIdPrefix_safe _ _ | (refine bind_safe ?_ fun _ => ?_) | split

theorem safeCodec_creator : SafeCodec creatorCodec := by
  intro j z
  show creatorOfJson j.text ≠ .panic
  unfold creatorOfJson
  split <;> first | exact ok_safe | exact err_safe

theorem safeCodec_annotator : SafeCodec annotatorCodec := by
  intro j z
  show annotatorOfJson j.text ≠ .panic
  unfold annotatorOfJson
  split <;> first | exact ok_safe | exact err_safe

theorem safeCodec_supplier : SafeCodec supplierCodec := by
  intro j z
  show supplierOfJson z j.text ≠ .panic
  unfold supplierOfJson
  dsimp only
  repeat' first | exact ok_safe | exact err_safe | split

theorem safeCodec_originator : SafeCodec originatorCodec := by
  intro j z
  show originatorOfJson z j.text ≠ .panic
  unfold originatorOfJson
  dsimp only
  repeat' first | exact ok_safe | exact err_safe | split

theorem forall_safe {σ : Type} {f : Field σ} {fs : List (Field σ)} (h1 : SafeCodec f.codec) (h2 : ∀ g ∈ fs, SafeCodec g.codec) :
    ∀ g ∈ f :: fs, SafeCodec g.codec := by
  intro g hg
  rcases List.mem_cons.1 hg with rfl | hg
  · exact h1
  · exact h2 g hg

theorem nil_safe {σ : Type} : ∀ g ∈ ([] : List (Field σ)), SafeCodec g.codec := fun _ h => by cases h

theorem append_safe {σ : Type} {fs gs : List (Field σ)} (h1 : ∀ g ∈ fs, SafeCodec g.codec) (h2 : ∀ g ∈ gs, SafeCodec g.codec) :
    ∀ g ∈ fs ++ gs, SafeCodec g.codec := by
  intro g hg
  rcases List.mem_append.1 hg with hg | hg
  · exact h1 g hg
  · exact h2 g hg

theorem only_safe {σ : Type} {b : Bool} {f : Field σ} (h : SafeCodec f.codec) : ∀ g ∈ only b f, SafeCodec g.codec := by
  unfold only
  split
  · exact forall_safe h nil_safe
  · exact nil_safe

/-- Goes through the fields of a struct. -/
macro "fields_safe" : tactic => `(tactic| repeat' first
  | exact nil_safe | exact safeCodec_str | exact safeCodec_strs | exact safeCodec_elementId | exact safeCodec_documentId | exact safeCodec_docElementId
  | exact safeCodec_int | exact safeCodec_bool | exact safeCodec_annotator
  | exact safeCodec_list safeCodec_creator | exact safeCodec_list safeCodec_docElementId | exact safeCodec_ptr safeCodec_bool
  | exact safeCodec_ptr safeCodec_supplier | exact safeCodec_ptr safeCodec_originator
  | assumption | refine forall_safe ?_ ?_ | refine append_safe ?_ ?_ | refine only_safe ?_)

theorem safeCodec_checksum : SafeCodec checksumCodec := safeCodec_struct (by unfold checksumFields; fields_safe)
theorem safeCodec_code : SafeCodec codeCodec := safeCodec_struct (by unfold codeFields; fields_safe)
theorem safeCodec_pointer : SafeCodec pointerCodec := safeCodec_struct (by unfold pointerFields; fields_safe)
theorem safeCodec_range : SafeCodec rangeCodec := by
  have := safeCodec_pointer
  exact safeCodec_struct (by unfold rangeFields; fields_safe)
theorem safeCodec_externalDoc : SafeCodec externalDocCodec := by
  have := safeCodec_checksum
  exact safeCodec_struct (by unfold externalDocFields; fields_safe)
theorem safeCodec_creationInfo : SafeCodec creationInfoCodec := safeCodec_struct (by unfold creationInfoFields; fields_safe)
theorem safeCodec_annotation : SafeCodec annotationCodec := safeCodec_struct (by unfold annotationFields; fields_safe)
theorem safeCodec_relationship : SafeCodec relationshipCodec := safeCodec_struct (by unfold relationshipFields; fields_safe)
theorem safeCodec_otherLicense : SafeCodec otherLicenseCodec := safeCodec_struct (by unfold otherLicenseFields; fields_safe)
theorem safeCodec_artifact : SafeCodec artifactCodec := safeCodec_struct (by unfold artifactFields; fields_safe)
theorem safeCodec_snippet (v : Version) : SafeCodec (snippetCodec v) := by
  have : SafeCodec (listCodec {} rangeCodec) := safeCodec_list safeCodec_range
  exact safeCodec_struct (by unfold snippetFields; fields_safe)
theorem safeCodec_file (v : Version) : SafeCodec (fileCodec v) := by
  have h1 : SafeCodec (listCodec {} checksumCodec) := safeCodec_list safeCodec_checksum
  have h2 : SafeCodec (ptrListCodec {} artifactCodec) := safeCodec_ptrList safeCodec_artifact
  have h3 : SafeCodec (listCodec {} annotationCodec) := safeCodec_list safeCodec_annotation
  exact safeCodec_struct (by unfold fileFields; fields_safe)
theorem safeCodec_externalRef (v : Version) : SafeCodec (externalRefCodec v) := by
  have h : SafeCodec (structCodec externalRefFields) := safeCodec_struct (by unfold externalRefFields; fields_safe)
  intro j z
  cases v
  · exact h j z
  · exact bind_safe (h j {}) fun _ => ok_safe
  · exact bind_safe (h j {}) fun _ => ok_safe

theorem safeCodec_package (so : Sorter) (v : Version) : SafeCodec (packageCodec so v) := by
  have h1 : SafeCodec (listCodec {} checksumCodec) := safeCodec_list safeCodec_checksum
  have h2 : SafeCodec (ptrListCodec {} (externalRefCodec v)) := safeCodec_ptrList (safeCodec_externalRef v)
  have h3 : SafeCodec (listCodec {} annotationCodec) := safeCodec_list safeCodec_annotation
  have h4 : SafeCodec (ptrListCodec {} (fileCodec v)) := safeCodec_ptrList (safeCodec_file v)
  have h5 : SafeCodec (codeField v).codec := by
    cases v
    · exact safeCodec_code
    · exact safeCodec_code
    · exact safeCodec_ptr safeCodec_code
  have h6 : SafeCodec (structCodec (packageFields v)) :=
    safeCodec_struct (by unfold packageFields packageFieldsA packageFieldsB; fields_safe)
  have h7 : SafeCodec (structCodec packageExtrasFields) := safeCodec_struct (by unfold packageExtrasFields; fields_safe)
  intro j z
  show decodePackage v j z ≠ .panic
  unfold decodePackage
  split
  · exact bind_safe (h6 j _) fun _ => ok_safe
  · exact bind_safe (h6 j _) fun _ => bind_safe (h7 j _) fun _ => ok_safe
  · exact bind_safe (h6 j _) fun _ => bind_safe (h7 j _) fun _ => ok_safe

theorem decodeDoc_safe (so : Sorter) (v : Version) (j : Json) : decodeDoc so v j ≠ .panic := by
  have h1 : SafeCodec (listCodec {} externalDocCodec) := safeCodec_list safeCodec_externalDoc
  have h2 : SafeCodec (ptrCodec {} creationInfoCodec) := safeCodec_ptr safeCodec_creationInfo
  have h3 : SafeCodec (listCodec none (ptrCodec ({}, []) (packageCodec so v))) := safeCodec_list (safeCodec_ptr (safeCodec_package so v))
  have h4 : SafeCodec (ptrListCodec {} (fileCodec v)) := safeCodec_ptrList (safeCodec_file v)
  have h5 : SafeCodec (ptrListCodec {} otherLicenseCodec) := safeCodec_ptrList safeCodec_otherLicense
  have h6 : SafeCodec (listCodec none (ptrCodec {} relationshipCodec)) := safeCodec_list (safeCodec_ptr safeCodec_relationship)
  have h7 : SafeCodec (ptrListCodec {} annotationCodec) := safeCodec_ptrList safeCodec_annotation
  have h8 : SafeCodec (listCodec {} (snippetCodec v)) := safeCodec_list (safeCodec_snippet v)
  have h : SafeCodec (structCodec (docFields so v)) := safeCodec_struct (by unfold docFields; fields_safe)
  have h' : SafeCodec (structCodec docExtrasFields) := safeCodec_struct (by unfold docExtrasFields; fields_safe)
  unfold decodeDoc
  split
  · exact bind_safe (h j _) fun _ => bind_safe (ofOption_safe _) fun _ => bind_safe (ofOption_safe _) fun _ => ok_safe
  · exact bind_safe (h j _) fun _ => bind_safe (h' j _) fun _ => bind_safe (ofOption_safe _) fun _ => ok_safe
  · exact bind_safe (h j _) fun _ => bind_safe (h' j _) fun _ => bind_safe (ofOption_safe _) fun _ => ok_safe

theorem readJsonInto_safe (so : Sorter) (copy : Version → Version → Doc → Doc) (isPtr : Bool) (target : Version) (j : Json) :
    readJsonInto so copy isPtr target j ≠ .panic := by
  unfold readJsonInto
  repeat' first
    | exact err_safe
    | (refine bind_safe (decodeDoc_safe _ _ _) fun _ => ?_)
    | (unfold convertDocument)
    | exact ok_safe
    | split

end Verif
