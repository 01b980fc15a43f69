import Verif.Model.Convert
import Verif.Spec.Converted

/-!
# Lemmas: copying structs
-/

namespace Verif

theorem mapRes_all {α β : Type} {f : α → Res β} {g : α → β} : ∀ {xs : List α}, (∀ x ∈ xs, f x = .ok (g x)) →
    mapRes f xs = .ok (xs.map g)
  | [], _ => rfl
  | x :: xs, h => by
    simp only [mapRes, h x (by simp), mapRes_all (xs := xs) (fun y hy => h y (by simp [hy])), Res.bind_ok, List.map_cons]

variable (lib : Copier)

theorem conv_ptr {t : GoTy} {w y : GoVal} (hz : w.isZero = false) (h : lib.conv t w = .ok (some y)) :
    lib.conv (.ptr t) (.ptr w) = .ok (some (.ptr y)) := by
  simp [Copier.conv, Copier.deref, hz, h]

theorem conv_slice {α : Type} {t : GoTy} {f g : α → GoVal} {xs : List α} (h : ∀ x ∈ xs, lib.conv t (f x) = .ok (some (g x))) :
    lib.conv (.slice t) (.slice (xs.map f)) = .ok (some (.slice (xs.map g))) := by
  have : mapRes (fun x => do let y ← lib.conv t x; .ok (y.getD t.zero)) (xs.map f) = .ok (xs.map g) := by
    rw [mapRes_all (g := fun x => (match lib.conv t x with | .ok y => y | _ => none).getD t.zero)]
    · congr 1
      rw [List.map_map]
      exact List.map_congr_left fun x hx => by simp [h x hx]
    · intro x hx
      obtain ⟨a, ha, rfl⟩ := List.mem_map.1 hx
      simp [h a ha]
  simp [Copier.conv, Copier.deref, this]

theorem conv_map {α : Type} {t : GoTy} {f g : α → GoVal} {xs : List (Str × α)}
    (h : ∀ x ∈ xs, lib.conv t (f x.2) = .ok (some (g x.2))) :
    lib.conv (.map t) (.map (xs.map fun e => (e.1, f e.2))) = .ok (some (.map (xs.map fun e => (e.1, g e.2)))) := by
  have : mapRes (fun (e : Str × GoVal) => do let y ← lib.conv t e.2; .ok (y.map fun y => (e.1, y)))
      (xs.map fun e => (e.1, f e.2)) = .ok (xs.map fun e => some (e.1, g e.2)) := by
    induction xs with
    | nil => rfl
    | cons x xs ih =>
      simp only [List.map_cons, mapRes, h x (by simp), Res.bind_ok, ih (fun y hy => h y (by simp [hy])), Option.map_some]
  simp [Copier.conv, Copier.deref, this]

@[simp] theorem conv_str (s : Str) : lib.conv .str (.str s) = .ok (some (.str s)) := by simp [Copier.conv, Copier.deref]
@[simp] theorem conv_bool (b : Bool) : lib.conv .bool (.bool b) = .ok (some (.bool b)) := by simp [Copier.conv, Copier.deref]
@[simp] theorem conv_int (i : Int) : lib.conv .int (.int i) = .ok (some (.int i)) := by simp [Copier.conv, Copier.deref]

theorem conv_struct {ts : GoFields} {fs gs : List (String × GoVal)} (h : lib.convFields ts fs = .ok gs) :
    lib.conv (.struct ts) (.struct fs) = .ok (some (.struct gs)) := by
  simp [Copier.conv, Copier.deref, h]

@[simp] theorem conv_strs (l : List Str) : lib.conv (.slice .str) (strsVal l) = .ok (some (strsVal l)) :=
  conv_slice lib fun _ _ => conv_str lib _

@[simp] theorem strsVal_nil : strsVal [] = .slice [] := rfl

macro "conv_tac" : tactic => `(tactic| (
  apply conv_struct
  simp [GoFields.of, Copier.convFields, List.lookup_cons]))

@[simp] theorem conv_checksum (c : Checksum) : lib.conv checksumTy (checksumVal c) = .ok (some (checksumVal c)) := by conv_tac
@[simp] theorem conv_docElement (c : DocElementID) : lib.conv docElementTy (docElementVal c) = .ok (some (docElementVal c)) := by
  conv_tac
@[simp] theorem conv_creator (c : Creator) : lib.conv creatorTy (creatorVal c) = .ok (some (creatorVal c)) := by conv_tac
@[simp] theorem conv_annotator (c : Annotator) : lib.conv annotatorTy (annotatorVal c) = .ok (some (annotatorVal c)) := by conv_tac
@[simp] theorem conv_supplier (c : Supplier) : lib.conv supplierTy (supplierVal c) = .ok (some (supplierVal c)) := by conv_tac
@[simp] theorem conv_originator (c : Originator) : lib.conv originatorTy (originatorVal c) = .ok (some (originatorVal c)) := by
  conv_tac
@[simp] theorem conv_code (c : VerificationCode) : lib.conv codeTy (codeVal c) = .ok (some (codeVal c)) := by conv_tac
@[simp] theorem conv_rangePointer (c : RangePointer) : lib.conv rangePointerTy (rangePointerVal c) = .ok (some (rangePointerVal c)) := by
  conv_tac
@[simp] theorem conv_range (c : SnippetRange) : lib.conv rangeTy (rangeVal c) = .ok (some (rangeVal c)) := by conv_tac
@[simp] theorem conv_edr (c : ExternalDocumentRef) :
    lib.conv externalDocumentRefTy (externalDocumentRefVal c) = .ok (some (externalDocumentRefVal c)) := by conv_tac
@[simp] theorem conv_creationInfo (c : CreationInfo) :
    lib.conv creationInfoTy (creationInfoVal c) = .ok (some (creationInfoVal c)) := by
  apply conv_struct
  simp [GoFields.of, Copier.convFields, List.lookup_cons, conv_slice lib fun _ _ => conv_creator lib _]
@[simp] theorem conv_externalRef (c : PackageExternalRef) :
    lib.conv externalRefTy (externalRefVal c) = .ok (some (externalRefVal c)) := by conv_tac
@[simp] theorem conv_annotation (c : Annotation) : lib.conv annotationTy (annotationVal c) = .ok (some (annotationVal c)) := by
  conv_tac
@[simp] theorem conv_relationship (c : Relationship) :
    lib.conv relationshipTy (relationshipVal c) = .ok (some (relationshipVal c)) := by conv_tac
@[simp] theorem conv_review (c : Review) : lib.conv reviewTy (reviewVal c) = .ok (some (reviewVal c)) := by conv_tac
@[simp] theorem conv_otherLicense (c : OtherLicense) :
    lib.conv otherLicenseTy (otherLicenseVal c) = .ok (some (otherLicenseVal c)) := by conv_tac
@[simp] theorem conv_artifact (c : ArtifactOfProject) : lib.conv artifactTy (artifactVal c) = .ok (some (artifactVal c)) := by
  conv_tac

macro "zero_tac" c:ident : tactic => `(tactic| (
  intro h; apply Bool.eq_false_iff.2; intro hz; apply h; cases $c:ident
  simp_all [GoVal.isZero, fieldsZero, strsVal]))

theorem supplier_zero (c : Supplier) : c ≠ {} → (supplierVal c).isZero = false := by
  unfold supplierVal; zero_tac c
theorem originator_zero (c : Originator) : c ≠ {} → (originatorVal c).isZero = false := by
  unfold originatorVal; zero_tac c
theorem code_zero (c : VerificationCode) : c ≠ {} → (codeVal c).isZero = false := by
  unfold codeVal; zero_tac c
theorem creationInfo_zero (c : CreationInfo) : c ≠ {} → (creationInfoVal c).isZero = false := by
  unfold creationInfoVal; zero_tac c
theorem externalRef_zero (c : PackageExternalRef) : c ≠ {} → (externalRefVal c).isZero = false := by
  unfold externalRefVal; zero_tac c
theorem review_zero (c : Review) : c ≠ {} → (reviewVal c).isZero = false := by
  unfold reviewVal; zero_tac c
theorem otherLicense_zero (c : OtherLicense) : c ≠ {} → (otherLicenseVal c).isZero = false := by
  unfold otherLicenseVal; zero_tac c
theorem artifact_zero (c : ArtifactOfProject) : c ≠ {} → (artifactVal c).isZero = false := by
  unfold artifactVal; zero_tac c
theorem docElement_zero (c : DocElementID) : (docElementVal c).isZero = true → c = {} := by
  cases c; simp [docElementVal, GoVal.isZero, fieldsZero]
theorem annotator_zero (c : Annotator) : (annotatorVal c).isZero = true → c = {} := by
  cases c; simp [annotatorVal, GoVal.isZero, fieldsZero]
theorem relationship_zero (c : Relationship) : c ≠ {} → (relationshipVal c).isZero = false := by
  intro h; apply Bool.eq_false_iff.2; intro hz; apply h
  simp only [relationshipVal, GoVal.isZero, fieldsZero, Bool.and_eq_true, List.isEmpty_iff] at hz
  have h1 := docElement_zero _ hz.1
  have h2 := docElement_zero _ hz.2.1
  cases c; simp_all
theorem annotation_zero (c : Annotation) : c ≠ {} → (annotationVal c).isZero = false := by
  intro h; apply Bool.eq_false_iff.2; intro hz; apply h
  simp only [annotationVal, GoVal.isZero, fieldsZero, Bool.and_eq_true, List.isEmpty_iff] at hz
  have h1 := annotator_zero _ hz.1
  have h2 := docElement_zero _ hz.2.2.2.1
  cases c; simp_all

theorem snippet_zero (v : Version) (s : Snippet) (h : s.spdxId ≠ []) : (snippetVal v s).isZero = false := by
  cases v <;> simp [snippetVal, pickFields, snippetStruct, GoFields.of, GoFields.names, GoVal.isZero, fieldsZero, h]
theorem file_zero (v : Version) (f : FileV) (h : f.spdxId ≠ []) : (fileVal v f).isZero = false := by
  cases v <;> simp [fileVal, pickFields, fileStruct, GoFields.of, GoFields.names, GoVal.isZero, fieldsZero, h]
theorem package_zero (v : Version) (p : PackageV) (h : p.spdxId ≠ []) : (packageVal v p).isZero = false := by
  cases v <;> simp [packageVal, pickFields, packageStruct, GoFields.of, GoFields.names, GoVal.isZero, fieldsZero, h]

/-! ## Snippets, files, packages -/

theorem conv_snippet (a b : Version) (s : Snippet) :
    lib.conv (.struct (snippetStruct b)) (snippetVal a s) = .ok (some (snippetVal b (snippetIn a s))) := by
  have hr := conv_slice lib (xs := s.ranges) fun x _ => conv_range lib x
  unfold snippetVal pickFields
  apply conv_struct
  cases a <;> cases b <;>
    simp [snippetStruct, GoFields.of, GoFields.names, Copier.convFields, List.lookup_cons, snippetIn, hr, GoTy.zero]

theorem conv_file (a b : Version) (f : FileV) (ha : ∀ x ∈ f.artifactOfProjects, x ≠ {})
    (hs : ∀ e ∈ f.snippets, e.2.spdxId ≠ []) :
    lib.conv (.struct (fileStruct b)) (fileVal a f) = .ok (some (fileVal b (fileIn a f))) := by
  have hr := conv_slice lib (xs := f.checksums) fun x _ => conv_checksum lib x
  have hn := conv_slice lib (xs := f.annotations) fun x _ => conv_annotation lib x
  have hap := conv_slice lib (xs := f.artifactOfProjects) fun x hx => conv_ptr lib (artifact_zero x (ha x hx)) (conv_artifact lib x)
  have hsp := conv_map lib (f := fun s => .ptr (snippetVal a s)) (g := fun s => .ptr (snippetVal b (snippetIn a s))) (xs := f.snippets) fun x hx => conv_ptr lib (snippet_zero a x.2 (hs x hx)) (conv_snippet lib a b x.2)
  unfold fileVal pickFields
  apply conv_struct
  cases a <;> cases b <;>
    simp [fileStruct, GoFields.of, GoFields.names, Copier.convFields, List.lookup_cons, fileIn, hr, hn, hap, hsp, GoTy.zero,
      Function.comp_def]

/-- The verification code after copying. -/
def codeTo (a b : Version) (c : Option VerificationCode) : Option VerificationCode :=
  if a = .v23 ∨ b ≠ .v23 then (if lib.zeroPtrNil ∧ c = some {} then none else c)
  else if lib.zeroValueNil ∧ c.getD {} = {} then none else some (c.getD {})

theorem conv_option {α : Type} [DecidableEq α] {t : GoTy} {f : α → GoVal} {z : α} {o : Option α} (hz : ∀ c, c ≠ z → (f c).isZero = false) (ho : o ≠ some z)
    (h : ∀ c, lib.conv t (f c) = .ok (some (f c))) : ∃ x, lib.conv (.ptr t) (ptrVal f o) = .ok x ∧ x.getD .nil = ptrVal f o := by
  cases o with
  | none => exact ⟨none, by simp [Copier.conv, Copier.deref, ptrVal], rfl⟩
  | some c => exact ⟨_, conv_ptr lib (hz c (fun e => ho (by rw [e]))) (h c), rfl⟩

theorem code_isZero (c : VerificationCode) : (codeVal c).isZero = decide (c = {}) := by
  by_cases h : c = {}
  · subst h; decide
  · rw [code_zero c h, decide_eq_false h]

theorem conv_codeField (a b : Version) (c : Option VerificationCode) :
    ∃ x, lib.conv (if b = .v23 then .ptr codeTy else codeTy)
        (if a = .v23 then ptrVal codeVal c else codeVal (c.getD {})) = .ok x ∧
      x.getD (if b = .v23 then GoTy.ptr codeTy else codeTy).zero =
        if b = .v23 then ptrVal codeVal (codeTo lib a b c) else codeVal ((codeTo lib a b c).getD {}) := by
  by_cases hb : b = .v23 <;> by_cases ha : a = .v23
  · simp only [hb, ha, if_true, codeTo, true_or]
    cases c with
    | none => exact ⟨none, by simp [Copier.conv, Copier.deref, ptrVal], by simp [GoTy.zero, ptrVal]⟩
    | some c =>
      by_cases hz : lib.zeroPtrNil = true ∧ c = {}
      · refine ⟨none, ?_, by simp [GoTy.zero, ptrVal, hz]⟩
        simp [Copier.conv, Copier.deref, ptrVal, hz.1, code_isZero, hz.2]
      · refine ⟨some (.ptr (codeVal c)), ?_, by simp [ptrVal, hz]⟩
        have : (lib.zeroPtrNil && (codeVal c).isZero) = false := by
          rw [code_isZero]; simpa using hz
        simp [Copier.conv, Copier.deref, ptrVal, this]
  · simp only [hb, ha, if_true, if_false, codeTo, false_or, ne_eq, not_true_eq_false]
    by_cases hz : lib.zeroValueNil = true ∧ c.getD {} = {}
    · refine ⟨none, ?_, by simp [GoTy.zero, ptrVal, hz]⟩
      simp [Copier.conv, Copier.deref, codeVal, hz.1, hz.2, GoVal.isZero, fieldsZero]
    · refine ⟨some (.ptr (codeVal (c.getD {}))), ?_, by simp [ptrVal, hz]⟩
      have : (lib.zeroValueNil && (codeVal (c.getD {})).isZero) = false := by
        rw [code_isZero]; simpa using hz
      simp only [codeVal] at this ⊢
      simp only [Copier.conv, Copier.deref, this]
      have := conv_code lib (c.getD {})
      simp only [codeVal] at this
      simp [this]
  · simp only [hb, ha, if_true, if_false, codeTo, true_or]
    cases c with
    | none => exact ⟨none, by simp [codeTy, Copier.conv, Copier.deref, ptrVal], by simp [codeTy, GoFields.of, GoTy.zero, GoFields.zero, codeVal]⟩
    | some c =>
      by_cases hz : lib.zeroPtrNil = true ∧ c = {}
      · refine ⟨none, ?_, by simp [codeTy, GoFields.of, GoTy.zero, GoFields.zero, codeVal, hz]⟩
        simp [codeTy, Copier.conv, Copier.deref, ptrVal, hz.1, code_isZero, hz.2]
      · refine ⟨some (codeVal c), ?_, by simp [hz]⟩
        have : (lib.zeroPtrNil && (codeVal c).isZero) = false := by
          rw [code_isZero]; simpa using hz
        have hc := conv_code lib c
        simp only [codeTy, Copier.conv, Copier.deref, ptrVal, this] at hc ⊢
        simpa [codeVal] using hc
  · simp only [hb, ha, if_false, codeTo, ne_eq, not_false_eq_true, or_true, if_true]
    refine ⟨_, conv_code lib _, ?_⟩
    by_cases hz : lib.zeroPtrNil = true ∧ c = some {} <;> simp [hz]

/-- The package after copying. -/
def packageTo (a b : Version) (p : PackageV) : PackageV :=
  { packageIn a p with verificationCode := codeTo lib a b p.verificationCode }

/-- What packages have to satisfy. -/
def SolidFile (f : FileV) : Prop :=
  f.spdxId ≠ [] ∧ (∀ a ∈ f.artifactOfProjects, a ≠ {}) ∧ (∀ e ∈ f.snippets, e.2.spdxId ≠ [])

theorem conv_filePtr (a b : Version) (f : FileV) (h : SolidFile f) :
    lib.conv (.ptr (.struct (fileStruct b))) (.ptr (fileVal a f)) = .ok (some (.ptr (fileVal b (fileIn a f)))) :=
  conv_ptr lib (file_zero a f h.1) (conv_file lib a b f h.2.1 h.2.2)

theorem conv_package (a b : Version) (p : PackageV) (hs : p.supplier ≠ some {}) (ho : p.originator ≠ some {})
    (hr : ∀ r ∈ p.externalRefs, r ≠ {}) (hf : ∀ f ∈ p.files, SolidFile f) :
    lib.conv (.struct (packageStruct b)) (packageVal a p) = .ok (some (packageVal b (packageTo lib a b p))) := by
  have h1 := conv_slice lib (xs := p.checksums) fun x _ => conv_checksum lib x
  have h2 := conv_slice lib (xs := p.annotations) fun x _ => conv_annotation lib x
  have h3 := conv_slice lib (xs := p.externalRefs) fun x hx => conv_ptr lib (externalRef_zero x (hr x hx)) (conv_externalRef lib x)
  have h4 := conv_slice lib (xs := p.files) fun x hx => conv_filePtr lib a b x (hf x hx)
  obtain ⟨x5, h5, h5'⟩ := conv_option lib supplier_zero hs (conv_supplier lib)
  obtain ⟨x6, h6, h6'⟩ := conv_option lib originator_zero ho (conv_originator lib)
  obtain ⟨x7, h7, h7'⟩ := conv_codeField lib a b p.verificationCode
  unfold packageVal pickFields
  apply conv_struct
  cases a <;> cases b <;>
    (simp only [reduceCtorEq, if_true, if_false] at h7 h7'; try simp only [GoTy.zero] at h7') <;>
    simp [packageStruct, GoFields.of, GoFields.names, Copier.convFields, List.lookup_cons, packageTo, packageIn, h1, h2, h3, h4, h5, h5',
      h6, h6', h7, h7', GoTy.zero, Function.comp_def]

/-- The document after copying. -/
def documentTo (a b : Version) (d : Doc) : Doc :=
  { documentIn a d with packages := d.packages.map (packageTo lib a b) }

theorem conv_document (a b : Version) (d : Doc) (h : Solid d) :
    lib.conv (.struct (documentStruct b)) (documentVal a d) = .ok (some (documentVal b (documentTo lib a b d))) := by
  have h1 := conv_slice lib (xs := d.externalDocumentRefs) fun x _ => conv_edr lib x
  obtain ⟨x2, h2, h2'⟩ := conv_option lib creationInfo_zero h.creationInfo (conv_creationInfo lib)
  have h3 := conv_slice lib (xs := d.packages) fun x hx => conv_ptr lib (package_zero a x (h.packages x hx).1)
    (conv_package lib a b x (h.packages x hx).2.1 (h.packages x hx).2.2.1 (h.packages x hx).2.2.2
      fun f hf => h.files f (.inr ⟨x, hx, hf⟩))
  have h4 := conv_slice lib (xs := d.files) fun x hx => conv_filePtr lib a b x (h.files x (.inl hx))
  have h5 := conv_slice lib (xs := d.otherLicenses) fun x hx =>
    conv_ptr lib (otherLicense_zero x (h.otherLicenses x hx)) (conv_otherLicense lib x)
  have h6 := conv_slice lib (xs := d.relationships) fun x hx =>
    conv_ptr lib (relationship_zero x (h.relationships x hx)) (conv_relationship lib x)
  have h7 := conv_slice lib (xs := d.annotations) fun x hx =>
    conv_ptr lib (annotation_zero x (h.annotations x hx)) (conv_annotation lib x)
  have h8 := conv_slice lib (xs := d.snippets) fun x _ => conv_snippet lib a b x
  have h9 := conv_slice lib (xs := d.reviews) fun x hx => conv_ptr lib (review_zero x (h.reviews x hx)) (conv_review lib x)
  unfold documentVal
  apply conv_struct
  simp [documentStruct, GoFields.of, Copier.convFields, List.lookup_cons, documentTo, documentIn, h1, h2, h2', h3, h4, h5, h6, h7,
    h8, h9, GoTy.zero, Function.comp_def]

/-! ## And back -/

theorem map_same {α : Type} {f : α → α} {xs : List α} (h : ∀ x, f x = x) : xs.map f = xs := by
  induction xs with
  | nil => rfl
  | cons x xs ih => simp [h, ih]

theorem asStrs_strsVal (l : List Str) : (strsVal l).asStrs = l := by
  simp only [strsVal, GoVal.asStrs, GoVal.asList, List.map_map]
  exact map_same fun _ => rfl

theorem nil_asStrs : GoVal.nil.asStrs = [] := rfl

theorem target_ptr (v : GoVal) : (GoVal.ptr v).target = some v := rfl

theorem list_back {α : Type} {f : α → GoVal} {g : GoVal → α} {k : α → α} (h : ∀ x, g (f x) = k x) (xs : List α) :
    (GoVal.slice (xs.map f)).asList.map g = xs.map k := by
  simp [GoVal.asList, Function.comp_def, h]

theorem ptrs_back {α : Type} {f : α → GoVal} {g : GoVal → α} {k : α → α} (h : ∀ x, g (f x) = k x) (xs : List α) :
    (GoVal.slice (xs.map fun x => .ptr (f x))).targets.map g = xs.map k := by
  simp only [GoVal.targets, GoVal.asList]
  induction xs with
  | nil => rfl
  | cons x xs ih => simp only [List.map_cons, GoVal.target, List.filterMap_cons, h, ih]

theorem opt_back {α : Type} {f : α → GoVal} {g : GoVal → α} (h : ∀ x, g (f x) = x) (o : Option α) :
    (ptrVal f o).target.map g = o := by
  cases o <;> simp [ptrVal, GoVal.target, h]

macro "back_tac" : tactic => `(tactic| (
  simp [GoVal.fld, List.lookup_cons, GoVal.asStr, GoVal.asInt, asStrs_strsVal]))

theorem checksum_back (x : Checksum) : checksumOfVal (checksumVal x) = x := by unfold checksumVal checksumOfVal; back_tac
theorem docElement_back (x : DocElementID) : docElementOfVal (docElementVal x) = x := by unfold docElementVal docElementOfVal; back_tac
theorem creator_back (x : Creator) : creatorOfVal (creatorVal x) = x := by unfold creatorVal creatorOfVal; back_tac
theorem annotator_back (x : Annotator) : annotatorOfVal (annotatorVal x) = x := by unfold annotatorVal annotatorOfVal; back_tac
theorem supplier_back (x : Supplier) : supplierOfVal (supplierVal x) = x := by unfold supplierVal supplierOfVal; back_tac
theorem originator_back (x : Originator) : originatorOfVal (originatorVal x) = x := by unfold originatorVal originatorOfVal; back_tac
theorem code_back (x : VerificationCode) : codeOfVal (codeVal x) = x := by unfold codeVal codeOfVal; back_tac
theorem rangePointer_back (x : RangePointer) : rangePointerOfVal (rangePointerVal x) = x := by
  unfold rangePointerVal rangePointerOfVal; back_tac
theorem range_back (x : SnippetRange) : rangeOfVal (rangeVal x) = x := by
  unfold rangeVal rangeOfVal; simp [GoVal.fld, List.lookup_cons, rangePointer_back]
theorem edr_back (x : ExternalDocumentRef) : externalDocumentRefOfVal (externalDocumentRefVal x) = x := by
  unfold externalDocumentRefVal externalDocumentRefOfVal; simp [GoVal.fld, List.lookup_cons, GoVal.asStr, checksum_back]
theorem creationInfo_back (x : CreationInfo) : creationInfoOfVal (creationInfoVal x) = x := by
  have := list_back (k := id) creator_back x.creators
  unfold creationInfoVal creationInfoOfVal; simp [GoVal.fld, List.lookup_cons, GoVal.asStr, this]
theorem externalRef_back (x : PackageExternalRef) : externalRefOfVal (externalRefVal x) = x := by
  unfold externalRefVal externalRefOfVal; back_tac
theorem annotation_back (x : Annotation) : annotationOfVal (annotationVal x) = x := by
  unfold annotationVal annotationOfVal; simp [GoVal.fld, List.lookup_cons, GoVal.asStr, annotator_back, docElement_back]
theorem relationship_back (x : Relationship) : relationshipOfVal (relationshipVal x) = x := by
  unfold relationshipVal relationshipOfVal; simp [GoVal.fld, List.lookup_cons, GoVal.asStr, docElement_back]
theorem review_back (x : Review) : reviewOfVal (reviewVal x) = x := by unfold reviewVal reviewOfVal; back_tac
theorem otherLicense_back (x : OtherLicense) : otherLicenseOfVal (otherLicenseVal x) = x := by
  unfold otherLicenseVal otherLicenseOfVal; back_tac
theorem artifact_back (x : ArtifactOfProject) : artifactOfVal (artifactVal x) = x := by unfold artifactVal artifactOfVal; back_tac

theorem snippet_back (v : Version) (s : Snippet) : snippetOfVal (snippetVal v s) = snippetIn v s := by
  have := list_back (k := id) range_back s.ranges
  unfold snippetVal snippetOfVal pickFields snippetIn
  cases v <;> simp [snippetStruct, GoFields.of, GoFields.names, GoVal.fld, List.lookup_cons, GoVal.asStr, asStrs_strsVal, nil_asStrs, this]

theorem file_back (v : Version) (f : FileV) : fileOfVal (fileVal v f) = fileIn v f := by
  have h1 := list_back (k := id) checksum_back f.checksums
  have h2 := list_back (k := id) annotation_back f.annotations
  have h3 := ptrs_back (k := id) artifact_back f.artifactOfProjects
  have h4 : (f.snippets.map fun e => (e.1, GoVal.ptr (snippetVal v e.2))).filterMap (fun e => e.2.target.map fun s => (e.1, snippetOfVal s))
      = f.snippets.map fun e => (e.1, snippetIn v e.2) := by
    induction f.snippets with
    | nil => rfl
    | cons e es ih => simp only [List.map_cons, List.filterMap_cons, target_ptr, Option.map_some, ih, snippet_back]
  unfold fileVal fileOfVal pickFields fileIn
  cases v <;> simp [fileStruct, GoFields.of, GoFields.names, GoVal.fld, List.lookup_cons, GoVal.asStr, asStrs_strsVal, h1, h2, h3,
    GoVal.asMap, h4, nil_asStrs]

theorem package_back (v : Version) (p : PackageV) :
    packageOfVal v (packageVal v p) = if v = .v23 then packageIn v p else plainCode (packageIn v p) := by
  have h1 := list_back (k := id) checksum_back p.checksums
  have h2 := list_back (k := id) annotation_back p.annotations
  have h3 := ptrs_back (k := id) externalRef_back p.externalRefs
  have h4 := ptrs_back (file_back v) p.files
  have h5 := opt_back supplier_back p.supplier
  have h6 := opt_back originator_back p.originator
  have h7 := opt_back code_back p.verificationCode
  have h8 := code_back (p.verificationCode.getD {})
  unfold packageVal packageOfVal pickFields packageIn plainCode
  cases v <;> simp [packageStruct, GoFields.of, GoFields.names, GoVal.fld, List.lookup_cons, GoVal.asStr, GoVal.asBool, asStrs_strsVal,
    nil_asStrs, h1, h2, h3, h4, h5, h6, h7, h8] <;>
    cases p.verificationCode <;> simp

theorem document_back (v : Version) (d : Doc) :
    documentOfVal v (documentVal v d) =
      { documentIn v d with packages := d.packages.map fun p => if v = .v23 then packageIn v p else plainCode (packageIn v p) } := by
  have h1 := list_back (k := id) edr_back d.externalDocumentRefs
  have h2 := opt_back creationInfo_back d.creationInfo
  have h3 := ptrs_back (package_back v) d.packages
  have h4 := ptrs_back (file_back v) d.files
  have h5 := ptrs_back (k := id) otherLicense_back d.otherLicenses
  have h6 := ptrs_back (k := id) relationship_back d.relationships
  have h7 := ptrs_back (k := id) annotation_back d.annotations
  have h8 := list_back (snippet_back v) d.snippets
  have h9 := ptrs_back (k := id) review_back d.reviews
  unfold documentVal documentOfVal documentIn
  simp [GoVal.fld, List.lookup_cons, GoVal.asStr, h1, h2, h3, h4, h5, h6, h7, h8, h9]

end Verif
