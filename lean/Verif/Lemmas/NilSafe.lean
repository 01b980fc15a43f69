import Verif.Lemmas.JsonSafe
import Verif.Model.NilEntries

/-!
# JSON and nil entries: neither reading nor writing panics
-/

namespace Verif

variable {β σ : Type}

/-! ## Reading -/

theorem safe_mixed {τ : Type} {fs : List (Field σ)} {g : Field σ → Field τ}
    (h : ∀ f ∈ fs, SafeCodec f.codec) (hg : ∀ f, SafeCodec f.codec → SafeCodec (g f).codec) : ∀ f ∈ fs.map g, SafeCodec f.codec := by
  intro f hf
  obtain ⟨f', hf', rfl⟩ := List.mem_map.1 hf
  exact hg f' (h f' hf')

theorem safe_ite {p : Prop} [Decidable p] {f g : Field σ} (hf : SafeCodec f.codec) (hg : SafeCodec g.codec) :
    SafeCodec (if p then f else g).codec := by
  by_cases h : p
  · rw [if_pos h]; exact hf
  · rw [if_neg h]; exact hg

theorem safeCodec_nilList {zero : β} {c : Codec β} (h : SafeCodec c) : SafeCodec (nilListCodec zero c) :=
  safeCodec_list (safeCodec_ptr h)

theorem safeCodec_nfile (v : Version) : SafeCodec (nFileCodec v) := by
  have h1 : SafeCodec (listCodec {} checksumCodec) := safeCodec_list safeCodec_checksum
  have h2 : SafeCodec (ptrListCodec {} artifactCodec) := safeCodec_ptrList safeCodec_artifact
  have h3 : SafeCodec (listCodec {} annotationCodec) := safeCodec_list safeCodec_annotation
  refine safeCodec_struct (safe_mixed (by unfold fileFields; fields_safe) fun f hf => ?_)
  refine safe_ite ?_ ?_
  · exact (safeCodec_nilList safeCodec_artifact)
  · exact hf

theorem safeCodec_npackage (so : Sorter) (v : Version) : SafeCodec (nPackageCodec so v) := by
  have h1 : SafeCodec (listCodec {} checksumCodec) := safeCodec_list safeCodec_checksum
  have h2 : SafeCodec (ptrListCodec {} (externalRefCodec v)) := safeCodec_ptrList (safeCodec_externalRef v)
  have h3 : SafeCodec (listCodec {} annotationCodec) := safeCodec_list safeCodec_annotation
  have h4 : SafeCodec (ptrListCodec {} (fileCodec v)) := safeCodec_ptrList (safeCodec_file v)
  have h5 : SafeCodec (codeField v).codec := by
    cases v
    · exact safeCodec_code
    · exact safeCodec_code
    · exact safeCodec_ptr safeCodec_code
  have h6 : SafeCodec (structCodec (nPackageFields v)) := by
    refine safeCodec_struct (safe_mixed (by unfold packageFields packageFieldsA packageFieldsB; fields_safe) fun f hf => ?_)
    refine safe_ite ?_ ?_
    · exact (safeCodec_nilList (safeCodec_externalRef v))
    · refine safe_ite ?_ ?_
      · exact (safeCodec_nilList (safeCodec_nfile v))
      · exact hf
  have h7 : SafeCodec (structCodec packageExtrasFields) := safeCodec_struct (by unfold packageExtrasFields; fields_safe)
  intro j z
  show decodeNPackage v j z ≠ .panic
  unfold decodeNPackage
  split
  · exact bind_safe (h6 j _) fun _ => ok_safe
  · exact bind_safe (h6 j _) fun _ => bind_safe (h7 j _) fun _ => ok_safe
  · exact bind_safe (h6 j _) fun _ => bind_safe (h7 j _) fun _ => ok_safe

theorem decodeNDoc_safe (so : Sorter) (v : Version) (j : Json) : decodeNDoc so v j ≠ .panic := by
  have h1 : SafeCodec (listCodec {} externalDocCodec) := safeCodec_list safeCodec_externalDoc
  have h2 : SafeCodec (ptrCodec {} creationInfoCodec) := safeCodec_ptr safeCodec_creationInfo
  have h3 : SafeCodec (listCodec none (ptrCodec ({}, []) (packageCodec so v))) := safeCodec_list (safeCodec_ptr (safeCodec_package so v))
  have h4 : SafeCodec (ptrListCodec {} (fileCodec v)) := safeCodec_ptrList (safeCodec_file v)
  have h5 : SafeCodec (ptrListCodec {} otherLicenseCodec) := safeCodec_ptrList safeCodec_otherLicense
  have h6 : SafeCodec (listCodec none (ptrCodec {} relationshipCodec)) := safeCodec_list (safeCodec_ptr safeCodec_relationship)
  have h7 : SafeCodec (ptrListCodec {} annotationCodec) := safeCodec_ptrList safeCodec_annotation
  have h8 : SafeCodec (listCodec {} (snippetCodec v)) := safeCodec_list (safeCodec_snippet v)
  have h : SafeCodec (structCodec (nDocFields so v)) := by
    refine safeCodec_struct (safe_mixed (by unfold docFields; fields_safe) fun f hf => ?_)
    refine safe_ite ?_ ?_
    · exact (safeCodec_nilList (safeCodec_npackage so v))
    · refine safe_ite ?_ ?_
      · exact (safeCodec_nilList (safeCodec_nfile v))
      · refine safe_ite ?_ ?_
        · exact (safeCodec_nilList safeCodec_otherLicense)
        · refine safe_ite ?_ ?_
          · exact (safeCodec_nilList safeCodec_annotation)
          · exact hf
  have h' : SafeCodec (structCodec docExtrasFields) := safeCodec_struct (by unfold docExtrasFields; fields_safe)
  unfold decodeNDoc
  split
  · exact bind_safe (h j _) fun _ => ok_safe
  · exact bind_safe (h j _) fun _ => bind_safe (h' j _) fun _ => ok_safe
  · exact bind_safe (h j _) fun _ => bind_safe (h' j _) fun _ => ok_safe

/-! ## Writing -/

/-- No value makes an encoder panic. -/
def SafeEnc (c : Codec β) : Prop := ∀ b, c.enc b ≠ .panic

theorem safeEnc_str : SafeEnc strCodec := fun _ => ok_safe
theorem safeEnc_bool : SafeEnc boolCodec := fun _ => ok_safe
theorem safeEnc_int : SafeEnc intCodec := fun _ => ok_safe

theorem safeEnc_list {zero : β} {c : Codec β} (h : SafeEnc c) : SafeEnc (listCodec zero c) := by
  intro l
  cases l with
  | nil => exact ok_safe
  | cons a l => exact bind_safe (mapRes_safe h _) fun _ => ok_safe

theorem safeEnc_ptrList {zero : β} {c : Codec β} (h : SafeEnc c) : SafeEnc (ptrListCodec zero c) := safeEnc_list h

theorem safeEnc_ptr {zero : β} {c : Codec β} (h : SafeEnc c) : SafeEnc (ptrCodec zero c) := by
  intro o
  cases o with
  | none => exact ok_safe
  | some a => exact h a

theorem safeEnc_nilList {zero : β} {c : Codec β} (h : SafeEnc c) : SafeEnc (nilListCodec zero c) := safeEnc_list (safeEnc_ptr h)

theorem encodeFields_safe {fs : List (Field σ)} (h : ∀ f ∈ fs, SafeEnc f.codec) (s : σ) : encodeFields s fs ≠ .panic := by
  induction fs with
  | nil => exact ok_safe
  | cons f fs ih =>
    have ih := ih fun g hg => h g (.tail _ hg)
    rw [encodeFields]
    split
    · exact ih
    · exact bind_safe (h f (.head _) _) fun _ => bind_safe ih fun _ => ok_safe

theorem safeEnc_struct {fs : List (Field σ)} (h : ∀ f ∈ fs, SafeEnc f.codec) : SafeEnc (structCodec fs) :=
  fun s => bind_safe (encodeFields_safe h s) fun _ => ok_safe

theorem ofMarshaled_safe (t : Str) : ofMarshaled t ≠ .panic := by
  unfold ofMarshaled
  split
  · exact ok_safe
  · exact err_safe

theorem safeEnc_text {toJson : β → Res Str} {ofJson : β → Str → Res β} (h : ∀ b, toJson b ≠ .panic) : SafeEnc (textCodec toJson ofJson) :=
  fun b => bind_safe (h b) fun _ => ofMarshaled_safe _

theorem safeEnc_elementId : SafeEnc elementIdCodec := safeEnc_text fun _ => ok_safe
theorem safeEnc_documentId : SafeEnc documentIdCodec := safeEnc_text fun _ => ok_safe
theorem safeEnc_creator : SafeEnc creatorCodec := safeEnc_text fun _ => ok_safe
theorem safeEnc_annotator : SafeEnc annotatorCodec := safeEnc_text fun _ => ok_safe
theorem safeEnc_docElementId : SafeEnc docElementIdCodec := safeEnc_text fun b => by
  unfold docElementIdToJson
  repeat' first | exact ok_safe | exact err_safe | split
theorem safeEnc_supplier : SafeEnc supplierCodec := safeEnc_text fun b => by
  unfold supplierToJson
  repeat' first | exact ok_safe | exact err_safe | split
theorem safeEnc_originator : SafeEnc originatorCodec := safeEnc_text fun b => by
  unfold originatorToJson
  repeat' first | exact ok_safe | exact err_safe | split

theorem safeEnc_cons {f : Field σ} {fs : List (Field σ)} (h1 : SafeEnc f.codec) (h2 : ∀ g ∈ fs, SafeEnc g.codec) :
    ∀ g ∈ f :: fs, SafeEnc g.codec := by
  intro g hg
  rcases List.mem_cons.1 hg with rfl | hg
  · exact h1
  · exact h2 g hg

theorem safeEnc_nil : ∀ g ∈ ([] : List (Field σ)), SafeEnc g.codec := fun _ h => by cases h

theorem safeEnc_append {fs gs : List (Field σ)} (h1 : ∀ g ∈ fs, SafeEnc g.codec) (h2 : ∀ g ∈ gs, SafeEnc g.codec) :
    ∀ g ∈ fs ++ gs, SafeEnc g.codec := by
  intro g hg
  rcases List.mem_append.1 hg with hg | hg
  · exact h1 g hg
  · exact h2 g hg

theorem safeEnc_only {b : Bool} {f : Field σ} (h : SafeEnc f.codec) : ∀ g ∈ only b f, SafeEnc g.codec := by
  unfold only
  split
  · exact safeEnc_cons h safeEnc_nil
  · exact safeEnc_nil

/-- Goes through the fields of a struct. -/
macro "fields_safeEnc" : tactic => `(tactic| repeat' first
  | exact safeEnc_nil | exact safeEnc_str | exact safeEnc_list safeEnc_str | exact safeEnc_elementId | exact safeEnc_documentId | exact safeEnc_docElementId
  | exact safeEnc_int | exact safeEnc_bool | exact safeEnc_annotator
  | exact safeEnc_list safeEnc_creator | exact safeEnc_list safeEnc_docElementId | exact safeEnc_ptr safeEnc_bool
  | exact safeEnc_ptr safeEnc_supplier | exact safeEnc_ptr safeEnc_originator
  | assumption | refine safeEnc_cons ?_ ?_ | refine safeEnc_append ?_ ?_ | refine safeEnc_only ?_)

theorem safeEnc_checksum : SafeEnc checksumCodec := safeEnc_struct (by unfold checksumFields; fields_safeEnc)
theorem safeEnc_code : SafeEnc codeCodec := safeEnc_struct (by unfold codeFields; fields_safeEnc)
theorem safeEnc_pointer : SafeEnc pointerCodec := safeEnc_struct (by unfold pointerFields; fields_safeEnc)
theorem safeEnc_range : SafeEnc rangeCodec := by
  have := safeEnc_pointer
  exact safeEnc_struct (by unfold rangeFields; fields_safeEnc)
theorem safeEnc_externalDoc : SafeEnc externalDocCodec := by
  have := safeEnc_checksum
  exact safeEnc_struct (by unfold externalDocFields; fields_safeEnc)
theorem safeEnc_creationInfo : SafeEnc creationInfoCodec := safeEnc_struct (by unfold creationInfoFields; fields_safeEnc)
theorem safeEnc_annotation : SafeEnc annotationCodec := safeEnc_struct (by unfold annotationFields; fields_safeEnc)
theorem safeEnc_relationship : SafeEnc relationshipCodec := safeEnc_struct (by unfold relationshipFields; fields_safeEnc)
theorem safeEnc_otherLicense : SafeEnc otherLicenseCodec := safeEnc_struct (by unfold otherLicenseFields; fields_safeEnc)
theorem safeEnc_artifact : SafeEnc artifactCodec := safeEnc_struct (by unfold artifactFields; fields_safeEnc)
theorem safeEnc_snippet (v : Version) : SafeEnc (snippetCodec v) := by
  have : SafeEnc (listCodec {} rangeCodec) := safeEnc_list safeEnc_range
  exact safeEnc_struct (by unfold snippetFields; fields_safeEnc)

theorem safeEnc_fileFields (v : Version) : ∀ f ∈ fileFields v, SafeEnc f.codec := by
  have h1 : SafeEnc (listCodec {} checksumCodec) := safeEnc_list safeEnc_checksum
  have h2 : SafeEnc (ptrListCodec {} artifactCodec) := safeEnc_ptrList safeEnc_artifact
  have h3 : SafeEnc (listCodec {} annotationCodec) := safeEnc_list safeEnc_annotation
  unfold fileFields; fields_safeEnc

theorem safeEnc_file (v : Version) : SafeEnc (fileCodec v) := safeEnc_struct (safeEnc_fileFields v)

theorem safeEnc_externalRef (v : Version) : SafeEnc (externalRefCodec v) := by
  have h : SafeEnc (structCodec externalRefFields) := safeEnc_struct (by unfold externalRefFields; fields_safeEnc)
  intro b
  cases v
  · exact h b
  · exact h _
  · exact h _

theorem safeEnc_packageFields (v : Version) : ∀ f ∈ packageFields v, SafeEnc f.codec := by
  have h1 : SafeEnc (listCodec {} checksumCodec) := safeEnc_list safeEnc_checksum
  have h2 : SafeEnc (ptrListCodec {} (externalRefCodec v)) := safeEnc_ptrList (safeEnc_externalRef v)
  have h3 : SafeEnc (listCodec {} annotationCodec) := safeEnc_list safeEnc_annotation
  have h4 : SafeEnc (ptrListCodec {} (fileCodec v)) := safeEnc_ptrList (safeEnc_file v)
  have h5 : SafeEnc (codeField v).codec := by
    cases v
    · exact safeEnc_code
    · exact safeEnc_code
    · exact safeEnc_ptr safeEnc_code
  unfold packageFields packageFieldsA packageFieldsB; fields_safeEnc

theorem safeEnc_package (so : Sorter) (v : Version) : SafeEnc (packageCodec so v) := by
  intro p
  show encodePackage so v p ≠ .panic
  unfold encodePackage
  split
  · refine bind_safe (encodeFields_safe (safeEnc_packageFields _) _) fun _ => ?_
    split <;> exact ok_safe
  · exact safeEnc_struct (safeEnc_packageFields _) _

theorem safeEnc_mixed {τ : Type} {fs : List (Field σ)} {g : Field σ → Field τ}
    (h : ∀ f ∈ fs, SafeEnc f.codec) (hg : ∀ f, SafeEnc f.codec → SafeEnc (g f).codec) : ∀ f ∈ fs.map g, SafeEnc f.codec := by
  intro f hf
  obtain ⟨f', hf', rfl⟩ := List.mem_map.1 hf
  exact hg f' (h f' hf')

theorem safeEnc_ite {p : Prop} [Decidable p] {f g : Field σ} (hf : SafeEnc f.codec) (hg : SafeEnc g.codec) :
    SafeEnc (if p then f else g).codec := by
  by_cases h : p
  · rw [if_pos h]; exact hf
  · rw [if_neg h]; exact hg

theorem safeEnc_nfile (v : Version) : SafeEnc (nFileCodec v) := by
  refine safeEnc_struct (safeEnc_mixed (safeEnc_fileFields v) fun f hf => ?_)
  refine safeEnc_ite ?_ ?_
  · exact (safeEnc_nilList safeEnc_artifact)
  · exact hf

theorem safeEnc_nPackageFields (v : Version) : ∀ f ∈ nPackageFields v, SafeEnc f.codec := by
  refine safeEnc_mixed (safeEnc_packageFields v) fun f hf => ?_
  refine safeEnc_ite ?_ ?_
  · exact (safeEnc_nilList (safeEnc_externalRef v))
  · refine safeEnc_ite ?_ ?_
    · exact (safeEnc_nilList (safeEnc_nfile v))
    · exact hf

theorem safeEnc_npackage (so : Sorter) (v : Version) : SafeEnc (nPackageCodec so v) := by
  intro p
  show encodeNPackage so v p ≠ .panic
  unfold encodeNPackage
  split
  · refine bind_safe (encodeFields_safe (safeEnc_nPackageFields _) _) fun _ => ?_
    split <;> exact ok_safe
  · exact safeEnc_struct (safeEnc_nPackageFields _) _

theorem nWriteJson_safe (so : Sorter) (v : Version) (html : Bool) (n : NDoc) : nWriteJson so v html n ≠ .panic := by
  have h1 : SafeEnc (listCodec {} externalDocCodec) := safeEnc_list safeEnc_externalDoc
  have h2 : SafeEnc (ptrCodec {} creationInfoCodec) := safeEnc_ptr safeEnc_creationInfo
  have h3 : SafeEnc (listCodec none (ptrCodec ({}, []) (packageCodec so v))) := safeEnc_list (safeEnc_ptr (safeEnc_package so v))
  have h4 : SafeEnc (ptrListCodec {} (fileCodec v)) := safeEnc_ptrList (safeEnc_file v)
  have h5 : SafeEnc (ptrListCodec {} otherLicenseCodec) := safeEnc_ptrList safeEnc_otherLicense
  have h6 : SafeEnc (listCodec none (ptrCodec {} relationshipCodec)) := safeEnc_list (safeEnc_ptr safeEnc_relationship)
  have h7 : SafeEnc (ptrListCodec {} annotationCodec) := safeEnc_ptrList safeEnc_annotation
  have h8 : SafeEnc (listCodec {} (snippetCodec v)) := safeEnc_list (safeEnc_snippet v)
  refine bind_safe (safeEnc_struct (safeEnc_mixed (by unfold docFields; fields_safeEnc) fun f hf => ?_) _) fun _ => ok_safe
  refine safeEnc_ite ?_ ?_
  · exact (safeEnc_nilList (safeEnc_npackage so v))
  · refine safeEnc_ite ?_ ?_
    · exact (safeEnc_nilList (safeEnc_nfile v))
    · refine safeEnc_ite ?_ ?_
      · exact (safeEnc_nilList safeEnc_otherLicense)
      · refine safeEnc_ite ?_ ?_
        · exact (safeEnc_nilList safeEnc_annotation)
        · exact hf

end Verif
