import Verif.Spec.EmptyParts
import Verif.Lemmas.ConvertTotal

/-!
# Lemmas: conversion of documents with empty parts
-/

namespace Verif
open Spec
variable (lib : Copier)

/-! ## Which values are empty -/

theorem isZero_of {α : Type} [DecidableEq α] {f : α → GoVal} {z : α} (h0 : (f z).isZero = true) (h : ∀ c, c ≠ z → (f c).isZero = false)
    (c : α) : (f c).isZero = decide (c = z) := by
  by_cases hc : c = z
  · rw [hc, h0]; simp
  · rw [h c hc]; simp [hc]

theorem snippet_isZero (v : Version) (s : Snippet) : (snippetVal v s).isZero = emptySnippet v s := by
  rw [Bool.eq_iff_iff]
  cases s
  cases v <;> simp [snippetVal, pickFields, snippetStruct, GoFields.of, GoFields.names, GoVal.isZero, fieldsZero, emptySnippet, snippetIn,
    strsVal]

theorem ptrVal_isZero {α : Type} (f : α → GoVal) (o : Option α) : (ptrVal f o).isZero = o.isNone := by
  cases o <;> simp [ptrVal, GoVal.isZero]

theorem nFile_isZero (v : Version) (n : NFile) (hp : ProperFile n) : (nFileVal v n).isZero = emptyFile v n := by
  rw [Bool.eq_iff_iff]
  obtain ⟨f, as, ss⟩ := n
  obtain ⟨h1, h2⟩ := hp
  cases f
  simp only at h1 h2
  subst h1 h2
  cases v <;> simp [nFileVal, GoVal.put, fileVal, pickFields, fileStruct, GoFields.of, GoFields.names, GoVal.isZero, fieldsZero,
    emptyFile, fileIn, strsVal, ptrsVal] <;> constructor <;> intro h <;> simp_all

theorem code_getD (o : Option VerificationCode) : o.getD {} = {} ↔ o = some {} ∨ o = none := by
  cases o <;> simp

theorem nPackage_isZero (v : Version) (n : NPackage) (hp : ProperPackage n) : (nPackageVal v n).isZero = emptyPackage v n := by
  rw [Bool.eq_iff_iff]
  obtain ⟨p, rs, fs⟩ := n
  obtain ⟨h1, h2, -⟩ := hp
  cases p
  simp only at h1 h2
  subst h1 h2
  cases v <;> simp [nPackageVal, GoVal.put, packageVal, pickFields, packageStruct, GoFields.of, GoFields.names, GoVal.isZero, fieldsZero,
    emptyPackage, packageIn, plainCode, strsVal, ptrsVal, ptrVal_isZero, code_isZero, code_getD] <;> constructor <;> intro h <;> simp_all

/-! ## Copying -/

theorem conv_ptr_any {t : GoTy} {w y : GoVal} (h : lib.conv t w = .ok (some y)) :
    lib.conv (.ptr t) (.ptr w) = .ok (if lib.zeroPtrNil && w.isZero then none else some (.ptr y)) := by
  by_cases hz : (lib.zeroPtrNil && w.isZero) = true
  · rw [if_pos hz]; simp only [Copier.conv, Copier.deref, hz, if_true]
  · rw [if_neg hz, Copier.conv]
    simp only [Copier.deref, hz, Bool.false_eq_true, if_false, h, Res.bind_ok, Option.map_some]

theorem unless_some {α : Type} (e : Bool) (em : α → Bool) (x : α) :
    unlessEmpty e em (some x) = if (e && em x) = true then none else some x := by
  by_cases hc : (e && em x) = true
  · simp only [unlessEmpty, Option.filter, hc]; rfl
  · simp only [unlessEmpty, Option.filter, hc]; rfl

theorem conv_ptrVal_any {α : Type} {t : GoTy} {f : α → GoVal} {k : α → α} {g : α → GoVal} {em : α → Bool} {o : Option α}
    (hz : ∀ x, o = some x → (f x).isZero = em x) (h : ∀ x, o = some x → lib.conv t (f x) = .ok (some (g (k x)))) :
    ∃ x, lib.conv (.ptr t) (ptrVal f o) = .ok x ∧ x.getD .nil = ptrVal g ((unlessEmpty lib.zeroPtrNil em o).map k) := by
  cases o with
  | none => exact ⟨none, conv_nil lib t, rfl⟩
  | some x =>
    refine ⟨_, conv_ptr_any lib (h x rfl), ?_⟩
    rw [hz x rfl]
    by_cases hc : (lib.zeroPtrNil && em x) = true <;> simp [hc, unlessEmpty, ptrVal, Option.filter]

theorem conv_ptrs_any {α : Type} {t : GoTy} {f : α → GoVal} {k : α → α} {g : α → GoVal} {em : α → Bool} (xs : List (Option α))
    (hz : ∀ x, some x ∈ xs → (f x).isZero = em x) (h : ∀ x, some x ∈ xs → lib.conv t (f x) = .ok (some (g (k x)))) :
    lib.conv (.slice (.ptr t)) (ptrsVal f xs) =
      .ok (some (ptrsVal g (xs.map fun o => (unlessEmpty lib.zeroPtrNil em o).map k))) := by
  have : mapRes (fun x => do let y ← lib.conv (.ptr t) x; .ok (y.getD (GoTy.ptr t).zero)) (xs.map (ptrVal f)) =
      .ok ((xs.map fun o => (unlessEmpty lib.zeroPtrNil em o).map k).map (ptrVal g)) := by
    induction xs with
    | nil => rfl
    | cons x xs ih =>
      have ih := ih (fun y hy => hz y (by simp [hy])) (fun y hy => h y (by simp [hy]))
      obtain ⟨y, h1, h2⟩ := conv_ptrVal_any lib (o := x) (em := em) (k := k) (g := g) (t := t) (f := f)
        (fun y hy => hz y (by simp [hy])) (fun y hy => h y (by simp [hy]))
      simp only [List.map_cons, mapRes, h1, Res.bind_ok, ih]
      rw [← h2]; rfl
  unfold ptrsVal
  rw [conv_slice_eq, this, Res.bind_ok]

theorem conv_ptrMap_any {α : Type} {t : GoTy} {f : α → GoVal} {k : α → α} {g : α → GoVal} {em : α → Bool} (xs : List (Str × Option α))
    (hz : ∀ x, (f x).isZero = em x) (h : ∀ x, lib.conv t (f x) = .ok (some (g (k x)))) :
    lib.conv (.map (.ptr t)) (.map (xs.map fun e => (e.1, ptrVal f e.2))) =
      .ok (some (.map ((((xs.map fun e => (e.1, unlessEmpty lib.zeroPtrNil em e.2)).filter fun e => e.2.isSome).map fun e => (e.1, e.2.map k)).map
        fun e => (e.1, ptrVal g e.2)))) := by
  have : ∃ ws, mapRes (fun (e : Str × GoVal) => do let y ← lib.conv (.ptr t) e.2; .ok (y.map fun y => (e.1, y)))
      (xs.map fun e => (e.1, ptrVal f e.2)) = .ok ws ∧
      ws.filterMap id = (((xs.map fun e => (e.1, unlessEmpty lib.zeroPtrNil em e.2)).filter fun e => e.2.isSome).map fun e => (e.1, e.2.map k)).map
        fun e => (e.1, ptrVal g e.2) := by
    induction xs with
    | nil => exact ⟨[], rfl, rfl⟩
    | cons x xs ih =>
      obtain ⟨ws, h1, h2⟩ := ih
      obtain ⟨key, x⟩ := x
      cases x with
      | none =>
        refine ⟨none :: ws, ?_, ?_⟩
        · simp only [List.map_cons, mapRes, ptrVal_none, conv_nil, Res.bind_ok, h1, Option.map_none]
        · simp [h2, unlessEmpty]
      | some x =>
        refine ⟨(if lib.zeroPtrNil && (f x).isZero then none else some (.ptr (g (k x)))).map (fun y => (key, y)) :: ws,
          by simp only [List.map_cons, mapRes, ptrVal_some, conv_ptr_any lib (h x), Res.bind_ok, h1], ?_⟩
        rw [hz x]
        rw [List.map_cons, unless_some]
        by_cases hc : (lib.zeroPtrNil && em x) = true
        · simp only [hc, if_true, Option.map_none, List.filterMap_cons, id_eq, h2, List.filter_cons, Option.isSome_none,
            Bool.false_eq_true, if_false]
        · simp only [hc, if_false, Bool.false_eq_true, Option.map_some, List.filterMap_cons, id_eq, h2, List.filter_cons,
            Option.isSome_some, if_true, List.map_cons, ptrVal_some]
  obtain ⟨ws, h1, h2⟩ := this
  rw [conv_map_eq, h1, Res.bind_ok, h2]

theorem conv_nFile_any (a b : Version) (n : NFile) :
    lib.conv (.struct (fileStruct b)) (nFileVal a n) = .ok (some (nFileVal b (nFileIn a (fileParts lib.zeroPtrNil a n)))) := by
  have hr := conv_slice lib (xs := n.file.checksums) fun x _ => conv_checksum lib x
  have hn := conv_slice lib (xs := n.file.annotations) fun x _ => conv_annotation lib x
  have hap := conv_ptrs_any lib n.artifacts (k := id) (g := artifactVal) (t := artifactTy)
    (fun x _ => isZero_of (by decide +kernel) artifact_zero x) (fun x _ => conv_artifact lib x)
  simp only [Option.map_id, id_eq] at hap
  have hsp := conv_ptrMap_any lib (f := snippetVal a) (g := snippetVal b) (k := snippetIn a) n.snippets
    (t := .struct (snippetStruct b)) (snippet_isZero a) (conv_snippet lib a b)
  unfold nFileVal fileVal pickFields
  apply conv_struct
  cases a <;> cases b <;>
    simp [fileStruct, GoFields.of, GoFields.names, Copier.convFields, List.lookup_cons, fileIn, nFileIn, fileParts, hr, hn, hap, hsp,
      GoTy.zero, Function.comp_def]

theorem conv_nPackage_any (a b : Version) (n : NPackage) (hp : ProperPackage n) :
    lib.conv (.struct (packageStruct b)) (nPackageVal a n) =
      .ok (some (nPackageVal b (nPackageTo lib a b (packageParts lib.zeroPtrNil a n)))) := by
  have h1 := conv_slice lib (xs := n.pkg.checksums) fun x _ => conv_checksum lib x
  have h2 := conv_slice lib (xs := n.pkg.annotations) fun x _ => conv_annotation lib x
  have h3 := conv_ptrs_any lib n.externalRefs (k := id) (g := externalRefVal) (t := externalRefTy)
    (fun x _ => isZero_of (by decide +kernel) externalRef_zero x) (fun x _ => conv_externalRef lib x)
  simp only [Option.map_id, id_eq] at h3
  have h4 := conv_ptrs_any lib n.files (k := fun f => nFileIn a (fileParts lib.zeroPtrNil a f)) (f := nFileVal a) (g := nFileVal b)
    (t := .struct (fileStruct b)) (fun x hx => nFile_isZero a x (hp.2.2 x hx)) (fun x _ => conv_nFile_any lib a b x)
  obtain ⟨x5, h5, h5'⟩ := conv_ptrVal_any lib (o := n.pkg.supplier) (k := id) (g := supplierVal)
    (fun x _ => isZero_of (by decide +kernel) supplier_zero x) (fun x _ => conv_supplier lib x)
  obtain ⟨x6, h6, h6'⟩ := conv_ptrVal_any lib (o := n.pkg.originator) (k := id) (g := originatorVal)
    (fun x _ => isZero_of (by decide +kernel) originator_zero x) (fun x _ => conv_originator lib x)
  simp only [Option.map_id, id_eq] at h5' h6'
  obtain ⟨x7, h7, h7'⟩ := conv_codeField lib a b n.pkg.verificationCode
  unfold nPackageVal packageVal pickFields
  apply conv_struct
  cases a <;> cases b <;>
    (simp only [reduceCtorEq, if_true, if_false] at h7 h7'; try simp only [GoTy.zero] at h7') <;>
    simp [packageStruct, GoFields.of, GoFields.names, Copier.convFields, List.lookup_cons, nPackageTo, nPackageIn, packageTo, packageIn,
      packageParts, h1, h2, h3, h4, h5, h5', h6, h6', h7, h7', GoTy.zero, Function.comp_def]

theorem conv_nDocument_any (a b : Version) (n : NDoc) (hp : Proper n) :
    lib.conv (.struct (documentStruct b)) (nDocumentVal a n) =
      .ok (some (nDocumentVal b (nDocumentTo lib a b (documentParts lib.zeroPtrNil a n)))) := by
  have h1 := conv_slice lib (xs := n.doc.externalDocumentRefs) fun x _ => conv_edr lib x
  obtain ⟨x2, h2, h2'⟩ := conv_ptrVal_any lib (o := n.doc.creationInfo) (k := id) (g := creationInfoVal)
    (fun x _ => isZero_of (by decide +kernel) creationInfo_zero x) (fun x _ => conv_creationInfo lib x)
  have h3 := conv_ptrs_any lib n.packages (k := fun p => nPackageTo lib a b (packageParts lib.zeroPtrNil a p)) (f := nPackageVal a)
    (g := nPackageVal b) (t := .struct (packageStruct b)) (fun x hx => nPackage_isZero a x (hp.packages x hx))
    (fun x hx => conv_nPackage_any lib a b x (hp.packages x hx))
  have h4 := conv_ptrs_any lib n.files (k := fun f => nFileIn a (fileParts lib.zeroPtrNil a f)) (f := nFileVal a) (g := nFileVal b)
    (t := .struct (fileStruct b)) (fun x hx => nFile_isZero a x (hp.files x hx)) (fun x _ => conv_nFile_any lib a b x)
  have h5 := conv_ptrs_any lib n.otherLicenses (k := id) (g := otherLicenseVal) (t := otherLicenseTy)
    (fun x _ => isZero_of (by decide +kernel) otherLicense_zero x) (fun x _ => conv_otherLicense lib x)
  have h6 := conv_ptrs_any lib n.relationships (k := id) (g := relationshipVal) (t := relationshipTy)
    (fun x _ => isZero_of (by decide +kernel) relationship_zero x) (fun x _ => conv_relationship lib x)
  have h7 := conv_ptrs_any lib n.annotations (k := id) (g := annotationVal) (t := annotationTy)
    (fun x _ => isZero_of (by decide +kernel) annotation_zero x) (fun x _ => conv_annotation lib x)
  have h9 := conv_ptrs_any lib n.reviews (k := id) (g := reviewVal) (t := reviewTy)
    (fun x _ => isZero_of (by decide +kernel) review_zero x) (fun x _ => conv_review lib x)
  simp only [Option.map_id, id_eq] at h2' h5 h6 h7 h9
  have h8 := conv_slice lib (xs := n.doc.snippets) fun x _ => conv_snippet lib a b x
  unfold nDocumentVal documentVal
  apply conv_struct
  simp [documentStruct, GoFields.of, Copier.convFields, List.lookup_cons, nDocumentTo, nDocumentIn, documentIn, documentParts, h1, h2,
    h2', h3, h4, h5, h6, h7, h8, h9, GoTy.zero, Function.comp_def]

/-! ## The parts that stay -/

theorem mem_unless {α : Type} {e : Bool} {em : α → Bool} {k : α → α} {l : List (Option α)} {y : α}
    (h : some y ∈ l.map fun o => (unlessEmpty e em o).map k) : ∃ x, some x ∈ l ∧ k x = y := by
  obtain ⟨o, ho, h⟩ := List.mem_map.1 h
  obtain ⟨x, hx, rfl⟩ := Option.map_eq_some_iff.1 h
  have := (Option.filter_eq_some_iff.1 hx).1
  exact ⟨x, this ▸ ho, rfl⟩

theorem properFile_parts {e : Bool} {v : Version} {n : NFile} (h : ProperFile n) : ProperFile (fileParts e v n) := h

theorem properPackage_parts {e : Bool} {v : Version} {n : NPackage} (h : ProperPackage n) : ProperPackage (packageParts e v n) := by
  refine ⟨h.1, h.2.1, ?_⟩
  intro f hf
  obtain ⟨g, hg, rfl⟩ := mem_unless hf
  exact properFile_parts (h.2.2 g hg)

theorem proper_parts {e : Bool} {v : Version} {n : NDoc} (h : Proper n) : Proper (documentParts e v n) := by
  refine ⟨h.empty, ?_, ?_⟩
  · intro p hp
    obtain ⟨q, hq, rfl⟩ := mem_unless hp
    exact properPackage_parts (h.packages q hq)
  · intro f hf
    obtain ⟨g, hg, rfl⟩ := mem_unless hf
    exact properFile_parts (h.files g hg)

theorem proper_in (v : Version) {n : NDoc} (hp : Proper n) : Proper (nDocumentIn v n) := by
  refine ⟨?_, ?_, ?_⟩
  · simpa [nDocumentIn, documentIn] using hp.empty
  · intro p hq
    obtain ⟨q, hq1, rfl⟩ := mem_map_opt.1 hq
    obtain ⟨e1, e2, e3⟩ := hp.packages q hq1
    refine ⟨by simp [nPackageIn, packageIn, e1], by simp [nPackageIn, packageIn, e2], ?_⟩
    intro f hf
    obtain ⟨g, hg, rfl⟩ := mem_map_opt.1 hf
    exact properFile_in v (e3 g hg)
  · intro f hf
    obtain ⟨g, hg, rfl⟩ := mem_map_opt.1 hf
    exact properFile_in v (hp.files g hg)

theorem proper_to (a b : Version) {n : NDoc} (hp : Proper n) : Proper (nDocumentTo lib a b n) := by
  refine ⟨?_, ?_, ?_⟩
  · simpa [nDocumentTo, nDocumentIn, documentIn] using hp.empty
  · intro p hq
    obtain ⟨q, hq1, rfl⟩ := mem_map_opt.1 hq
    obtain ⟨e1, e2, e3⟩ := hp.packages q hq1
    refine ⟨by simp [nPackageTo, packageTo, packageIn, e1], by simp [nPackageTo, packageTo, packageIn, e2], ?_⟩
    intro f hf
    obtain ⟨g, hg, rfl⟩ := mem_map_opt.1 hf
    exact properFile_in a (e3 g hg)
  · intro f hf
    obtain ⟨g, hg, rfl⟩ := mem_map_opt.1 hf
    exact properFile_in a (hp.files g hg)

/-- What one copy gives. -/
theorem nStructCopy_any (a b : Version) (n : NDoc) (hn : Proper n) :
    ∃ n', nStructCopy lib a b n = .ok n' ∧ Proper n' ∧
      nPlainCodes n' = nPlainCodes (nDocumentIn (older a b) (documentParts lib.zeroPtrNil a n)) ∧
      (b ≠ .v23 → nPlainCodes n' = n') := by
  refine ⟨_, by rw [nStructCopy, conv_nDocument_any lib a b n hn, Res.bind_ok], ?_⟩
  have hp := proper_parts (e := lib.zeroPtrNil) (v := a) hn
  generalize documentParts lib.zeroPtrNil a n = m at hp
  have hto := proper_to lib a b hp
  have hb := nDocument_back b (nDocumentTo lib a b m) hto
    (fun f hf => by obtain ⟨g, -, rfl⟩ := mem_map_opt.1 hf; exact there_in a g)
    (fun p hq f hf => by
      obtain ⟨q, -, rfl⟩ := mem_map_opt.1 hq
      obtain ⟨g, -, rfl⟩ := mem_map_opt.1 hf
      exact there_in a g)
  have hpc : ∀ p, plainCode (if b = .v23 then packageIn b (packageTo lib a b p) else plainCode (packageIn b (packageTo lib a b p)))
      = plainCode (packageIn (older a b) p) := by
    intro p
    split
    · exact plainCode_to lib a b p
    · rw [plainCode_idem, plainCode_to]
  simp only [Option.getD_some, hb]
  refine ⟨?_, ?_, ?_⟩
  · refine ⟨?_, ?_, ?_⟩
    · simpa [nDocumentIn, documentIn] using hto.empty
    · intro p hq
      obtain ⟨q, hq1, rfl⟩ := mem_map_opt.1 hq
      obtain ⟨e1, e2, e3⟩ := hto.packages q hq1
      refine ⟨?_, ?_, ?_⟩
      · show (if b = .v23 then _ else _ : PackageV).externalRefs = []; split <;> exact e1
      · show (if b = .v23 then _ else _ : PackageV).files = []
        split <;> simp [packageIn, plainCode, e2]
      · intro f hf
        obtain ⟨g, hg, rfl⟩ := mem_map_opt.1 hf
        exact properFile_in b (e3 g hg)
    · intro f hf
      obtain ⟨g, hg, rfl⟩ := mem_map_opt.1 hf
      exact properFile_in b (hto.files g hg)
  · have e := nDocumentIn_in a b m
    have e1 := congrArg NDoc.doc e
    have e2 := congrArg NDoc.files e
    simp only [nDocumentIn] at e1 e2
    simp only [nPlainCodes, nDocumentTo, nDocumentIn, List.map_map, NDoc.mk.injEq, and_true] at e1 e2 ⊢
    refine ⟨e1, ?_, e2⟩
    refine List.map_congr_left fun o _ => ?_
    cases o with
    | none => rfl
    | some p =>
      have e3 := congrArg NPackage.files (nPackageIn_in a b p)
      simp only [Function.comp_apply, Option.map_some, nPackageTo, Option.some.injEq, NPackage.mk.injEq]
      exact ⟨hpc p.pkg, rfl, e3⟩
  · intro hv
    simp only [nPlainCodes, hv, if_false, List.map_map, nDocumentIn]
    congr 1
    refine List.map_congr_left fun o _ => ?_
    cases o with
    | none => rfl
    | some p => simp [plainCode_idem]

/-- What one step of the chain gives. -/
theorem nConvertStep_any (a b : Version) (n : NDoc) (hp : Proper n) :
    ∃ n', nConvertStep lib a b n = .ok n' ∧ Proper n' ∧ nPlainCodes n' = stepped lib.zeroPtrNil a b (versionName b) n ∧
      (b ≠ .v23 → nPlainCodes n' = n') := by
  obtain ⟨n', h1, h2, h3, h4⟩ := nStructCopy_any lib a b n hp
  refine ⟨nRestated (versionName b) n', by rw [nConvertStep, h1, Res.bind_ok]; rfl, ?_, ?_, ?_⟩
  · exact ⟨h2.empty, h2.packages, h2.files⟩
  · rw [stepped, ← h3]; rfl
  · intro hb
    exact congrArg (nRestated (versionName b)) (h4 hb)

end Verif
