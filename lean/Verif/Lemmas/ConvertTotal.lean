import Verif.Lemmas.NilConvert

/-!
# Lemmas: conversions do not fail
-/

namespace Verif
open Spec
variable (lib : Copier)

/-- The value can be converted to the type. -/
def Fits (t : GoTy) (v : GoVal) : Prop := ∃ x, lib.conv t v = .ok x

theorem fits_ptr {t : GoTy} {v : GoVal} (h : Fits lib t v) : Fits lib (.ptr t) (.ptr v) := by
  obtain ⟨x, h⟩ := h
  by_cases hz : (lib.zeroPtrNil && v.isZero) = true
  · exact ⟨none, by simp only [Copier.conv, Copier.deref, hz, if_true]⟩
  · exact ⟨x.map .ptr, by
      rw [Copier.conv]
      simp only [Copier.deref, hz, Bool.false_eq_true, if_false, h, Res.bind_ok]⟩

theorem fits_ptrVal {α : Type} {t : GoTy} {f : α → GoVal} {o : Option α} (h : ∀ x, o = some x → Fits lib t (f x)) :
    Fits lib (.ptr t) (ptrVal f o) := by
  cases o with
  | none => exact ⟨none, conv_nil lib t⟩
  | some x => exact fits_ptr lib (h x rfl)

theorem fits_slice {t : GoTy} {vs : List GoVal} (h : ∀ v ∈ vs, Fits lib t v) : Fits lib (.slice t) (.slice vs) := by
  have : ∃ ws, mapRes (fun x => do let y ← lib.conv t x; .ok (y.getD t.zero)) vs = .ok ws := by
    induction vs with
    | nil => exact ⟨[], rfl⟩
    | cons v vs ih =>
      obtain ⟨x, hx⟩ := h v (by simp)
      obtain ⟨ws, hw⟩ := ih fun y hy => h y (by simp [hy])
      exact ⟨x.getD t.zero :: ws, by simp only [mapRes, hx, Res.bind_ok, hw]⟩
  obtain ⟨ws, hw⟩ := this
  exact ⟨_, by rw [conv_slice_eq, hw, Res.bind_ok]⟩

theorem fits_map {t : GoTy} {es : List (Str × GoVal)} (h : ∀ e ∈ es, Fits lib t e.2) : Fits lib (.map t) (.map es) := by
  have : ∃ ws, mapRes (fun (e : Str × GoVal) => do let y ← lib.conv t e.2; .ok (y.map fun y => (e.1, y))) es = .ok ws := by
    induction es with
    | nil => exact ⟨[], rfl⟩
    | cons v vs ih =>
      obtain ⟨x, hx⟩ := h v (by simp)
      obtain ⟨ws, hw⟩ := ih fun y hy => h y (by simp [hy])
      exact ⟨x.map (fun y => (v.1, y)) :: ws, by simp only [mapRes, hx, Res.bind_ok, hw]⟩
  obtain ⟨ws, hw⟩ := this
  exact ⟨_, by rw [conv_map_eq, hw, Res.bind_ok]⟩

theorem fits_struct {ts : GoFields} {fs : List (String × GoVal)} (h : ∃ ws, lib.convFields ts fs = .ok ws) :
    Fits lib (.struct ts) (.struct fs) := by
  obtain ⟨ws, h⟩ := h
  exact ⟨_, conv_struct lib h⟩

theorem fits_of {t : GoTy} {v w : GoVal} (h : lib.conv t v = .ok (some w)) : Fits lib t v := ⟨_, h⟩

theorem fits_ptrs {α : Type} {t : GoTy} {f : α → GoVal} (l : List (Option α)) (h : ∀ x, Fits lib t (f x)) :
    Fits lib (.slice (.ptr t)) (ptrsVal f l) := by
  refine fits_slice lib fun v hv => ?_
  obtain ⟨o, -, rfl⟩ := List.mem_map.1 hv
  exact fits_ptrVal lib fun x _ => h x

theorem fits_nFile (a b : Version) (n : NFile) : Fits lib (.struct (fileStruct b)) (nFileVal a n) := by
  have hr := conv_slice lib (xs := n.file.checksums) fun x _ => conv_checksum lib x
  have hn := conv_slice lib (xs := n.file.annotations) fun x _ => conv_annotation lib x
  obtain ⟨x1, hap⟩ := fits_ptrs lib n.artifacts fun x => fits_of lib (conv_artifact lib x)
  obtain ⟨x2, hsp⟩ := fits_map lib (t := .ptr (.struct (snippetStruct b))) (es := n.snippets.map fun e => (e.1, ptrVal (snippetVal a) e.2)) (by
    intro e he
    obtain ⟨e', -, rfl⟩ := List.mem_map.1 he
    exact fits_ptrVal lib fun x _ => fits_of lib (conv_snippet lib a b x))
  unfold nFileVal fileVal pickFields
  apply fits_struct
  cases a <;> cases b <;>
    simp [fileStruct, GoFields.of, GoFields.names, Copier.convFields, List.lookup_cons, hr, hn, hap, hsp]

theorem fits_nPackage (a b : Version) (n : NPackage) : Fits lib (.struct (packageStruct b)) (nPackageVal a n) := by
  have h1 := conv_slice lib (xs := n.pkg.checksums) fun x _ => conv_checksum lib x
  have h2 := conv_slice lib (xs := n.pkg.annotations) fun x _ => conv_annotation lib x
  obtain ⟨x3, h3⟩ := fits_ptrs lib n.externalRefs fun x => fits_of lib (conv_externalRef lib x)
  obtain ⟨x4, h4⟩ := fits_ptrs lib n.files fun x => fits_nFile lib a b x
  obtain ⟨x5, h5⟩ := fits_ptrVal lib (o := n.pkg.supplier) fun x _ => fits_of lib (conv_supplier lib x)
  obtain ⟨x6, h6⟩ := fits_ptrVal lib (o := n.pkg.originator) fun x _ => fits_of lib (conv_originator lib x)
  obtain ⟨x7, h7, -⟩ := conv_codeField lib a b n.pkg.verificationCode
  unfold nPackageVal packageVal pickFields
  apply fits_struct
  cases a <;> cases b <;> simp only [reduceCtorEq, if_true, if_false] at h7 <;>
    simp [packageStruct, GoFields.of, GoFields.names, Copier.convFields, List.lookup_cons, h1, h2, h3, h4, h5, h6, h7]

theorem fits_nDocument (a b : Version) (n : NDoc) : Fits lib (.struct (documentStruct b)) (nDocumentVal a n) := by
  have h1 := conv_slice lib (xs := n.doc.externalDocumentRefs) fun x _ => conv_edr lib x
  obtain ⟨x2, h2⟩ := fits_ptrVal lib (o := n.doc.creationInfo) fun x _ => fits_of lib (conv_creationInfo lib x)
  obtain ⟨x3, h3⟩ := fits_ptrs lib n.packages fun x => fits_nPackage lib a b x
  obtain ⟨x4, h4⟩ := fits_ptrs lib n.files fun x => fits_nFile lib a b x
  obtain ⟨x5, h5⟩ := fits_ptrs lib n.otherLicenses fun x => fits_of lib (conv_otherLicense lib x)
  obtain ⟨x6, h6⟩ := fits_ptrs lib n.relationships fun x => fits_of lib (conv_relationship lib x)
  obtain ⟨x7, h7⟩ := fits_ptrs lib n.annotations fun x => fits_of lib (conv_annotation lib x)
  have h8 := conv_slice lib (xs := n.doc.snippets) fun x _ => conv_snippet lib a b x
  obtain ⟨x9, h9⟩ := fits_ptrs lib n.reviews fun x => fits_of lib (conv_review lib x)
  unfold nDocumentVal documentVal
  apply fits_struct
  simp [documentStruct, GoFields.of, Copier.convFields, List.lookup_cons, h1, h2, h3, h4, h5, h6, h7, h8, h9]

theorem nConvertStep_total (a b : Version) (n : NDoc) : ∃ n', nConvertStep lib a b n = .ok n' := by
  obtain ⟨x, h⟩ := fits_nDocument lib a b n
  exact ⟨_, by rw [nConvertStep, nStructCopy, h, Res.bind_ok, Res.bind_ok]⟩

theorem convertStep_total (a b : Version) (d : Doc) : ∃ d', convertStep lib a b d = .ok d' := by
  obtain ⟨x, h⟩ := fits_nDocument lib a b (ofDoc d)
  rw [nDocumentVal_of] at h
  exact ⟨_, by rw [convertStep, structCopy, h, Res.bind_ok, Res.bind_ok]⟩

theorem nConvertWith_total (a b : Version) (n : NDoc) : ∃ n', nConvertWith lib true a b n = .ok n' := by
  have two : ∀ a b c, ∃ n', (nConvertStep lib a b n >>= fun m => nConvertStep lib b c m) = .ok n' := by
    intro a b c
    obtain ⟨m, h⟩ := nConvertStep_total lib a b n
    rw [h, Res.bind_ok]
    exact nConvertStep_total lib b c m
  cases a <;> cases b
  case v21.v23 => exact two .v21 .v22 .v23
  case v23.v21 => exact two .v23 .v22 .v21
  case v21.v22 => exact nConvertStep_total lib .v21 .v22 n
  case v22.v23 => exact nConvertStep_total lib .v22 .v23 n
  case v22.v21 => exact nConvertStep_total lib .v22 .v21 n
  case v23.v22 => exact nConvertStep_total lib .v23 .v22 n
  all_goals exact ⟨n, rfl⟩

theorem convertWith_total (a b : Version) (d : Doc) : ∃ d', convertWith lib true a b d = .ok d' := by
  have two : ∀ a b c, ∃ d', (convertStep lib a b d >>= fun m => convertStep lib b c m) = .ok d' := by
    intro a b c
    obtain ⟨m, h⟩ := convertStep_total lib a b d
    rw [h, Res.bind_ok]
    exact convertStep_total lib b c m
  cases a <;> cases b
  case v21.v23 => exact two .v21 .v22 .v23
  case v23.v21 => exact two .v23 .v22 .v21
  case v21.v22 => exact convertStep_total lib .v21 .v22 d
  case v22.v23 => exact convertStep_total lib .v22 .v23 d
  case v22.v21 => exact convertStep_total lib .v22 .v21 d
  case v23.v22 => exact convertStep_total lib .v23 .v22 d
  all_goals exact ⟨d, rfl⟩

end Verif
