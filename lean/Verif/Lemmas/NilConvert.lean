import Verif.Spec.NilConvert
import Verif.Model.NilConvert
import Verif.Lemmas.ConvertSteps

/-!
# Lemmas: conversion of documents with nil entries
-/

namespace Verif
open Spec
variable (lib : Copier)

theorem conv_slice_eq (t : GoTy) (vs : List GoVal) :
    lib.conv (.slice t) (.slice vs) = (do
      let ws ← mapRes (fun x => do let y ← lib.conv t x; .ok (y.getD t.zero)) vs
      .ok (some (.slice ws))) := by
  rw [Copier.conv]
  simp only [Copier.deref]

theorem conv_map_eq (t : GoTy) (es : List (Str × GoVal)) :
    lib.conv (.map t) (.map es) = (do
      let ws ← mapRes (fun (e : Str × GoVal) => do let y ← lib.conv t e.2; .ok (y.map fun y => (e.1, y))) es
      .ok (some (.map (ws.filterMap id)))) := by
  rw [Copier.conv]
  simp only [Copier.deref]

theorem ptrVal_none {α : Type} (f : α → GoVal) : ptrVal f none = .nil := rfl
theorem ptrVal_some {α : Type} (f : α → GoVal) (x : α) : ptrVal f (some x) = .ptr (f x) := rfl

theorem conv_nil (t : GoTy) : lib.conv (.ptr t) .nil = .ok none := by
  simp [Copier.conv, Copier.deref]

/-- A slice of pointers is copied pointer by pointer. -/
theorem conv_ptrs {α : Type} {t : GoTy} {f : α → GoVal} {k : α → α} {g : α → GoVal} {xs : List (Option α)}
    (hz : ∀ x, some x ∈ xs → (f x).isZero = false) (h : ∀ x, some x ∈ xs → lib.conv t (f x) = .ok (some (g (k x)))) :
    lib.conv (.slice (.ptr t)) (ptrsVal f xs) = .ok (some (ptrsVal g (xs.map (Option.map k)))) := by
  have : mapRes (fun x => do let y ← lib.conv (.ptr t) x; .ok (y.getD (GoTy.ptr t).zero)) (xs.map (ptrVal f)) =
      .ok ((xs.map (Option.map k)).map (ptrVal g)) := by
    induction xs with
    | nil => rfl
    | cons x xs ih =>
      have ih := ih (fun y hy => hz y (by simp [hy])) (fun y hy => h y (by simp [hy]))
      cases x with
      | none => simp only [List.map_cons, mapRes, ptrVal_none, conv_nil, Res.bind_ok, ih, Option.map_none, Option.getD_none]; rfl
      | some x =>
        simp only [List.map_cons, mapRes, ptrVal_some, conv_ptr lib (hz x (by simp)) (h x (by simp)), Res.bind_ok, ih,
          Option.map_some, Option.getD_some]
  unfold ptrsVal
  rw [conv_slice_eq, this, Res.bind_ok]

/-- A map of pointers is copied without its nil pointers. -/
theorem conv_ptrMap {α : Type} {t : GoTy} {f : α → GoVal} {k : α → α} {g : α → GoVal} {xs : List (Str × Option α)}
    (hz : ∀ e ∈ xs, ∀ x, e.2 = some x → (f x).isZero = false)
    (h : ∀ e ∈ xs, ∀ x, e.2 = some x → lib.conv t (f x) = .ok (some (g (k x)))) :
    lib.conv (.map (.ptr t)) (.map (xs.map fun e => (e.1, ptrVal f e.2))) =
      .ok (some (.map (((xs.filter fun e => e.2.isSome).map fun e => (e.1, e.2.map k)).map fun e => (e.1, ptrVal g e.2)))) := by
  have : ∃ ws, mapRes (fun (e : Str × GoVal) => do let y ← lib.conv (.ptr t) e.2; .ok (y.map fun y => (e.1, y)))
      (xs.map fun e => (e.1, ptrVal f e.2)) = .ok ws ∧
      ws.filterMap id = ((xs.filter fun e => e.2.isSome).map fun e => (e.1, e.2.map k)).map fun e => (e.1, ptrVal g e.2) := by
    induction xs with
    | nil => exact ⟨[], rfl, rfl⟩
    | cons x xs ih =>
      obtain ⟨ws, h1, h2⟩ := ih (fun y hy => hz y (by simp [hy])) (fun y hy => h y (by simp [hy]))
      obtain ⟨key, x⟩ := x
      cases x with
      | none =>
        refine ⟨none :: ws, ?_, ?_⟩
        · simp only [List.map_cons, mapRes, ptrVal_none, conv_nil, Res.bind_ok, h1, Option.map_none]
        · simp [h2]
      | some x =>
        refine ⟨some (key, .ptr (g (k x))) :: ws, ?_, ?_⟩
        · simp only [List.map_cons, mapRes, ptrVal_some, conv_ptr lib (hz (key, some x) (by simp) x rfl) (h (key, some x) (by simp) x rfl),
            Res.bind_ok, h1, Option.map_some]
        · simp [h2, ptrVal]
  obtain ⟨ws, h1, h2⟩ := this
  rw [conv_map_eq, h1, Res.bind_ok, h2]

theorem nFile_zero (v : Version) (n : NFile) (h : n.file.spdxId ≠ []) : (nFileVal v n).isZero = false := by
  cases v <;> simp [nFileVal, GoVal.put, fileVal, pickFields, fileStruct, GoFields.of, GoFields.names, GoVal.isZero, fieldsZero, h]

theorem nPackage_zero (v : Version) (n : NPackage) (h : n.pkg.spdxId ≠ []) : (nPackageVal v n).isZero = false := by
  cases v <;> simp [nPackageVal, GoVal.put, packageVal, pickFields, packageStruct, GoFields.of, GoFields.names, GoVal.isZero,
    fieldsZero, h]

theorem map_opt_id {α : Type} (l : List (Option α)) : l.map (Option.map id) = l := by simp

theorem conv_nFile (a b : Version) (n : NFile) (h : NSolidFile n) :
    lib.conv (.struct (fileStruct b)) (nFileVal a n) = .ok (some (nFileVal b (nFileIn a n))) := by
  have hr := conv_slice lib (xs := n.file.checksums) fun x _ => conv_checksum lib x
  have hn := conv_slice lib (xs := n.file.annotations) fun x _ => conv_annotation lib x
  have hap := conv_ptrs lib (xs := n.artifacts) (k := id) (g := artifactVal) (t := artifactTy)
    (fun x hx => artifact_zero x fun e => h.2.1 (e ▸ hx)) (fun x _ => conv_artifact lib x)
  rw [map_opt_id] at hap
  have hsp := conv_ptrMap lib (f := snippetVal a) (g := snippetVal b) (k := snippetIn a) (xs := n.snippets)
    (t := .struct (snippetStruct b)) (fun e he x hx => snippet_zero a x (h.2.2 e he x hx)) (fun e _ x _ => conv_snippet lib a b x)
  unfold nFileVal fileVal pickFields
  apply conv_struct
  cases a <;> cases b <;>
    simp [fileStruct, GoFields.of, GoFields.names, Copier.convFields, List.lookup_cons, fileIn, nFileIn, hr, hn, hap, hsp, GoTy.zero,
      Function.comp_def]

/-- The package after copying. -/
def nPackageTo (a b : Version) (n : NPackage) : NPackage :=
  { nPackageIn a n with pkg := packageTo lib a b n.pkg }

theorem conv_nPackage (a b : Version) (n : NPackage) (h : NSolidPackage n) :
    lib.conv (.struct (packageStruct b)) (nPackageVal a n) = .ok (some (nPackageVal b (nPackageTo lib a b n))) := by
  obtain ⟨-, hs, ho, hr, hf⟩ := h
  have h1 := conv_slice lib (xs := n.pkg.checksums) fun x _ => conv_checksum lib x
  have h2 := conv_slice lib (xs := n.pkg.annotations) fun x _ => conv_annotation lib x
  have h3 := conv_ptrs lib (xs := n.externalRefs) (k := id) (g := externalRefVal) (t := externalRefTy)
    (fun x hx => externalRef_zero x fun e => hr (e ▸ hx)) (fun x _ => conv_externalRef lib x)
  rw [map_opt_id] at h3
  have h4 := conv_ptrs lib (xs := n.files) (k := nFileIn a) (f := nFileVal a) (g := nFileVal b) (t := .struct (fileStruct b))
    (fun x hx => nFile_zero a x (hf x hx).1) (fun x hx => conv_nFile lib a b x (hf x hx))
  obtain ⟨x5, h5, h5'⟩ := conv_option lib supplier_zero hs (conv_supplier lib)
  obtain ⟨x6, h6, h6'⟩ := conv_option lib originator_zero ho (conv_originator lib)
  obtain ⟨x7, h7, h7'⟩ := conv_codeField lib a b n.pkg.verificationCode
  unfold nPackageVal packageVal pickFields
  apply conv_struct
  cases a <;> cases b <;>
    (simp only [reduceCtorEq, if_true, if_false] at h7 h7'; try simp only [GoTy.zero] at h7') <;>
    simp [packageStruct, GoFields.of, GoFields.names, Copier.convFields, List.lookup_cons, nPackageTo, nPackageIn, packageTo, packageIn,
      h1, h2, h3, h4, h5, h5', h6, h6', h7, h7', GoTy.zero, Function.comp_def]

/-- The document after copying. -/
def nDocumentTo (a b : Version) (n : NDoc) : NDoc :=
  { nDocumentIn a n with packages := n.packages.map (Option.map (nPackageTo lib a b)) }

theorem conv_nDocument (a b : Version) (n : NDoc) (h : NSolid n) :
    lib.conv (.struct (documentStruct b)) (nDocumentVal a n) = .ok (some (nDocumentVal b (nDocumentTo lib a b n))) := by
  have h1 := conv_slice lib (xs := n.doc.externalDocumentRefs) fun x _ => conv_edr lib x
  obtain ⟨x2, h2, h2'⟩ := conv_option lib creationInfo_zero h.creationInfo (conv_creationInfo lib)
  have h3 := conv_ptrs lib (xs := n.packages) (k := nPackageTo lib a b) (f := nPackageVal a) (g := nPackageVal b)
    (t := .struct (packageStruct b)) (fun x hx => nPackage_zero a x (h.packages x hx).1)
    (fun x hx => conv_nPackage lib a b x (h.packages x hx))
  have h4 := conv_ptrs lib (xs := n.files) (k := nFileIn a) (f := nFileVal a) (g := nFileVal b) (t := .struct (fileStruct b))
    (fun x hx => nFile_zero a x (h.files x hx).1) (fun x hx => conv_nFile lib a b x (h.files x hx))
  have h5 := conv_ptrs lib (xs := n.otherLicenses) (k := id) (g := otherLicenseVal) (t := otherLicenseTy)
    (fun x hx => otherLicense_zero x fun e => h.otherLicenses (e ▸ hx)) (fun x _ => conv_otherLicense lib x)
  have h6 := conv_ptrs lib (xs := n.relationships) (k := id) (g := relationshipVal) (t := relationshipTy)
    (fun x hx => relationship_zero x fun e => h.relationships (e ▸ hx)) (fun x _ => conv_relationship lib x)
  have h7 := conv_ptrs lib (xs := n.annotations) (k := id) (g := annotationVal) (t := annotationTy)
    (fun x hx => annotation_zero x fun e => h.annotations (e ▸ hx)) (fun x _ => conv_annotation lib x)
  have h9 := conv_ptrs lib (xs := n.reviews) (k := id) (g := reviewVal) (t := reviewTy)
    (fun x hx => review_zero x fun e => h.reviews (e ▸ hx)) (fun x _ => conv_review lib x)
  rw [map_opt_id] at h5 h6 h7 h9
  have h8 := conv_slice lib (xs := n.doc.snippets) fun x _ => conv_snippet lib a b x
  unfold nDocumentVal documentVal
  apply conv_struct
  simp [documentStruct, GoFields.of, Copier.convFields, List.lookup_cons, nDocumentTo, nDocumentIn, documentIn, h1, h2, h2', h3, h4,
    h5, h6, h7, h8, h9, GoTy.zero, Function.comp_def]

/-! ## And back -/

theorem opts_back {α : Type} {f : α → GoVal} {g : GoVal → α} {k : α → α} (xs : List (Option α))
    (h : ∀ x, some x ∈ xs → g (f x) = k x) : optsOfVal g (ptrsVal f xs) = xs.map (Option.map k) := by
  simp only [optsOfVal, ptrsVal, GoVal.asList, List.map_map]
  refine List.map_congr_left fun x hx => ?_
  cases x with
  | none => rfl
  | some x => simp [ptrVal, GoVal.target, h x hx]

theorem nFile_back (v : Version) (n : NFile) (hp : ProperFile n) (hs : ∀ e ∈ n.snippets, e.2 ≠ none) :
    nFileOfVal (nFileVal v n) = nFileIn v n := by
  have h1 := list_back (k := id) checksum_back n.file.checksums
  have h2 := list_back (k := id) annotation_back n.file.annotations
  have h3 := opts_back (k := id) n.artifacts fun x _ => artifact_back x
  have h4 : (n.snippets.map fun e => (e.1, (ptrVal (snippetVal v) e.2).target.map snippetOfVal)) =
      (n.snippets.filter fun e => e.2.isSome).map fun e => (e.1, e.2.map (snippetIn v)) := by
    rw [List.filter_eq_self.2 (fun e he => by simpa [Option.isSome_iff_ne_none] using hs e he)]
    refine List.map_congr_left fun e _ => ?_
    cases e.2 <;> simp [ptrVal, GoVal.target, snippet_back]
  unfold nFileVal nFileOfVal fileVal fileOfVal pickFields nFileIn fileIn
  cases v <;> simp [GoVal.put, fileStruct, GoFields.of, GoFields.names, GoVal.fld, List.lookup_cons, GoVal.asStr, asStrs_strsVal, h1, h2, h3,
    GoVal.asMap, h4, nil_asStrs, hp.1, hp.2, Function.comp_def]

/-- No snippet is missing. -/
def SnippetsThere (n : NFile) : Prop := ∀ e ∈ n.snippets, e.2 ≠ none

theorem nPackage_back (v : Version) (n : NPackage) (hp : ProperPackage n) (hs : ∀ f, some f ∈ n.files → SnippetsThere f) :
    nPackageOfVal v (nPackageVal v n) =
      { nPackageIn v n with pkg := if v = .v23 then packageIn v n.pkg else plainCode (packageIn v n.pkg) } := by
  have h1 := list_back (k := id) checksum_back n.pkg.checksums
  have h2 := list_back (k := id) annotation_back n.pkg.annotations
  have h3 := opts_back (k := id) n.externalRefs fun x _ => externalRef_back x
  have h4 := opts_back n.files fun x hx => nFile_back v x (hp.2.2 x hx) (hs x hx)
  have h5 := opt_back supplier_back n.pkg.supplier
  have h6 := opt_back originator_back n.pkg.originator
  have h7 := opt_back code_back n.pkg.verificationCode
  have h8 := code_back (n.pkg.verificationCode.getD {})
  unfold nPackageVal nPackageOfVal packageVal packageOfVal pickFields nPackageIn packageIn plainCode
  cases v <;> simp [GoVal.put, packageStruct, GoFields.of, GoFields.names, GoVal.fld, List.lookup_cons, GoVal.asStr, GoVal.asBool,
    asStrs_strsVal, nil_asStrs, h1, h2, h3, h4, h5, h6, h7, h8, hp.1, hp.2.1] <;>
    cases n.pkg.verificationCode <;> simp

theorem nDocument_back (v : Version) (n : NDoc) (hp : Proper n) (h1 : ∀ f, some f ∈ n.files → SnippetsThere f)
    (h2 : ∀ p, some p ∈ n.packages → ∀ f, some f ∈ p.files → SnippetsThere f) :
    nDocumentOfVal v (nDocumentVal v n) =
      { nDocumentIn v n with
        packages := n.packages.map (Option.map fun p =>
          { nPackageIn v p with pkg := if v = .v23 then packageIn v p.pkg else plainCode (packageIn v p.pkg) }) } := by
  have g1 := list_back (k := id) edr_back n.doc.externalDocumentRefs
  have g2 := opt_back creationInfo_back n.doc.creationInfo
  have g3 := opts_back n.packages fun x hx => nPackage_back v x (hp.packages x hx) (h2 x hx)
  have g4 := opts_back n.files fun x hx => nFile_back v x (hp.files x hx) (h1 x hx)
  have g5 := opts_back (k := id) n.otherLicenses fun x _ => otherLicense_back x
  have g6 := opts_back (k := id) n.relationships fun x _ => relationship_back x
  have g7 := opts_back (k := id) n.annotations fun x _ => annotation_back x
  have g8 := list_back (snippet_back v) n.doc.snippets
  have g9 := opts_back (k := id) n.reviews fun x _ => review_back x
  obtain ⟨e1, e2, e3, e4, e5, e6⟩ := hp.empty
  unfold nDocumentVal documentVal nDocumentOfVal documentOfVal nDocumentIn documentIn
  simp [GoVal.put, GoVal.fld, List.lookup_cons, GoVal.asStr, g1, g2, g3, g4, g5, g6, g7, g8, g9, e1, e2, e3, e4, e5, e6]

/-! ## What the parts keep -/

theorem nFileIn_in (a b : Version) (n : NFile) : nFileIn b (nFileIn a n) = nFileIn (older a b) n := by
  have : ∀ o : Option Snippet, (o.map (snippetIn a)).map (snippetIn b) = o.map (snippetIn (older a b)) := by
    intro o; cases o <;> simp [snippetIn_in]
  simp [nFileIn, fileIn_in, List.filter_map, Function.comp_def, this]

theorem nPackageIn_in (a b : Version) (n : NPackage) : nPackageIn b (nPackageIn a n) = nPackageIn (older a b) n := by
  simp [nPackageIn, packageIn_in, nFileIn_in, Function.comp_def]

theorem nDocumentIn_in (a b : Version) (n : NDoc) : nDocumentIn b (nDocumentIn a n) = nDocumentIn (older a b) n := by
  simp [nDocumentIn, documentIn_in, nPackageIn_in, nFileIn_in, Function.comp_def]

theorem there_in (v : Version) (n : NFile) : SnippetsThere (nFileIn v n) := by
  intro e he
  simp only [nFileIn, List.mem_map, List.mem_filter] at he
  obtain ⟨x, ⟨-, h⟩, rfl⟩ := he
  obtain ⟨s, hs⟩ := Option.isSome_iff_exists.1 h
  simp [hs]

theorem properFile_in (v : Version) {n : NFile} (h : ProperFile n) : ProperFile (nFileIn v n) := by
  simp [ProperFile, nFileIn, fileIn, h.1, h.2]

theorem solidFile_in (v : Version) {n : NFile} (h : NSolidFile n) : NSolidFile (nFileIn v n) := by
  refine ⟨h.1, h.2.1, ?_⟩
  intro e he s hs
  simp only [nFileIn, List.mem_map, List.mem_filter] at he
  obtain ⟨x, ⟨hx, -⟩, rfl⟩ := he
  obtain ⟨t, ht, rfl⟩ := Option.map_eq_some_iff.1 hs
  have := h.2.2 x hx t ht
  simp only [snippetIn]
  split <;> exact this

theorem mem_map_opt {α β : Type} {f : α → β} {l : List (Option α)} {y : β} :
    some y ∈ l.map (Option.map f) ↔ ∃ x, some x ∈ l ∧ f x = y := by
  simp only [List.mem_map, Option.map_eq_some_iff]
  constructor
  · rintro ⟨o, ho, x, rfl, rfl⟩; exact ⟨x, ho, rfl⟩
  · rintro ⟨x, hx, rfl⟩; exact ⟨some x, hx, x, rfl, rfl⟩

/-! ## The chain -/

/-- What one copy gives. -/
theorem nStructCopy_ok (a b : Version) (n : NDoc) (h : NSolid n) (hp : Proper n) :
    ∃ n', nStructCopy lib a b n = .ok n' ∧ NSolid n' ∧ Proper n' ∧ nPlainCodes n' = nPlainCodes (nDocumentIn (older a b) n) ∧
      (b ≠ .v23 → nPlainCodes n' = n') := by
  have hto : Proper (nDocumentTo lib a b n) := by
    refine ⟨?_, ?_, ?_⟩
    · simpa [nDocumentTo, nDocumentIn, documentIn] using hp.empty
    · intro p hq
      obtain ⟨q, hq1, rfl⟩ := mem_map_opt.1 hq
      obtain ⟨e1, e2, e3⟩ := hp.packages q hq1
      refine ⟨by simp [nPackageTo, packageTo, packageIn, e1], by simp [nPackageTo, packageTo, packageIn, e2], ?_⟩
      intro f hf
      obtain ⟨g, hg, rfl⟩ := mem_map_opt.1 hf
      exact properFile_in a (e3 g hg)
    · intro f hf
      obtain ⟨g, hg, rfl⟩ := mem_map_opt.1 hf
      exact properFile_in a (hp.files g hg)
  have hb := nDocument_back b (nDocumentTo lib a b n) hto
    (fun f hf => by obtain ⟨g, -, rfl⟩ := mem_map_opt.1 hf; exact there_in a g)
    (fun p hq f hf => by
      obtain ⟨q, -, rfl⟩ := mem_map_opt.1 hq
      obtain ⟨g, -, rfl⟩ := mem_map_opt.1 hf
      exact there_in a g)
  have hpc : ∀ p, plainCode (if b = .v23 then packageIn b (packageTo lib a b p) else plainCode (packageIn b (packageTo lib a b p)))
      = plainCode (packageIn (older a b) p) := by
    intro p
    split
    · exact plainCode_to lib a b p
    · rw [plainCode_idem, plainCode_to]
  refine ⟨_, by rw [nStructCopy, conv_nDocument lib a b n h, Res.bind_ok], ?_⟩
  simp only [Option.getD_some, hb]
  refine ⟨?_, ?_, ?_, ?_⟩
  · refine ⟨h.creationInfo, ?_, ?_, h.otherLicenses, h.relationships, h.annotations, h.reviews⟩
    · intro p hq
      obtain ⟨p', hq1, rfl⟩ := mem_map_opt.1 hq
      obtain ⟨q, hq2, rfl⟩ := mem_map_opt.1 hq1
      obtain ⟨e1, e2, e3, e4, e5⟩ := h.packages q hq2
      refine ⟨?_, ?_, ?_, e4, ?_⟩
      · show (if b = .v23 then _ else _ : PackageV).spdxId ≠ []; split <;> exact e1
      · show (if b = .v23 then _ else _ : PackageV).supplier ≠ some {}; split <;> exact e2
      · show (if b = .v23 then _ else _ : PackageV).originator ≠ some {}; split <;> exact e3
      · intro f hf
        obtain ⟨f', hf1, rfl⟩ := mem_map_opt.1 hf
        obtain ⟨g, hg, rfl⟩ := mem_map_opt.1 hf1
        exact solidFile_in b (solidFile_in a (e5 g hg))
    · intro f hf
      obtain ⟨f', hf1, rfl⟩ := mem_map_opt.1 hf
      obtain ⟨g, hg, rfl⟩ := mem_map_opt.1 hf1
      exact solidFile_in b (solidFile_in a (h.files g hg))
  · refine ⟨?_, ?_, ?_⟩
    · simpa [nDocumentIn, documentIn] using hto.empty
    · intro p hq
      obtain ⟨q, hq1, rfl⟩ := mem_map_opt.1 hq
      obtain ⟨e1, e2, e3⟩ := hto.packages q hq1
      refine ⟨?_, ?_, ?_⟩
      · show (if b = .v23 then _ else _ : PackageV).externalRefs = []; split <;> exact e1
      · show (if b = .v23 then _ else _ : PackageV).files = []
        split <;> simp [packageIn, plainCode, e2]
      · intro f hf
        obtain ⟨g, hg, rfl⟩ := mem_map_opt.1 hf
        exact properFile_in b (e3 g hg)
    · intro f hf
      obtain ⟨g, hg, rfl⟩ := mem_map_opt.1 hf
      exact properFile_in b (hto.files g hg)
  · have e := nDocumentIn_in a b n
    have e1 := congrArg NDoc.doc e
    have e2 := congrArg NDoc.files e
    simp only [nDocumentIn] at e1 e2
    simp only [nPlainCodes, nDocumentTo, nDocumentIn, List.map_map, NDoc.mk.injEq, and_true] at e1 e2 ⊢
    refine ⟨e1, ?_, e2⟩
    refine List.map_congr_left fun o _ => ?_
    cases o with
    | none => rfl
    | some p =>
      have e3 := congrArg NPackage.files (nPackageIn_in a b p)
      simp only [Function.comp_apply, Option.map_some, nPackageTo, Option.some.injEq, NPackage.mk.injEq]
      exact ⟨hpc p.pkg, rfl, e3⟩
  · intro hv
    simp only [nPlainCodes, hv, if_false, List.map_map, nDocumentIn]
    congr 1
    refine List.map_congr_left fun o _ => ?_
    cases o with
    | none => rfl
    | some p => simp [plainCode_idem]

theorem nConvertStep_ok (a b : Version) (n : NDoc) (h : NSolid n) (hp : Proper n) :
    ∃ n', nConvertStep lib a b n = .ok n' ∧ NSolid n' ∧ Proper n' ∧
      nPlainCodes n' = nRestated (versionName b) (nPlainCodes (nDocumentIn (older a b) n)) ∧
      (b ≠ .v23 → nPlainCodes n' = n') := by
  obtain ⟨n', h1, h2, h3, h4, h5⟩ := nStructCopy_ok lib a b n h hp
  refine ⟨nRestated (versionName b) n', by rw [nConvertStep, h1, Res.bind_ok]; rfl, ?_, ?_, ?_, ?_⟩
  · exact ⟨h2.creationInfo, h2.packages, h2.files, h2.otherLicenses, h2.relationships, h2.annotations, h2.reviews⟩
  · exact ⟨h3.empty, h3.packages, h3.files⟩
  · rw [← h4]; rfl
  · intro hb
    exact congrArg (nRestated (versionName b)) (h5 hb)

theorem nPlain_in (v : Version) (n : NDoc) : nPlainCodes (nDocumentIn v n) = nDocumentIn v (nPlainCodes n) := by
  simp only [nPlainCodes, nDocumentIn, List.map_map, NDoc.mk.injEq, and_true, true_and]
  refine List.map_congr_left fun o _ => ?_
  cases o <;> rfl

/-- What the chain gives. -/
theorem nConvertWith_ok (a b : Version) (n : NDoc) (h : NSolid n) (hp : Proper n) :
    ∃ n', nConvertWith lib true a b n = .ok n' ∧ NSolid n' ∧ Proper n' ∧ (a = b → n' = n) ∧
      (a ≠ b → n'.doc.spdxVersion = versionName b ∧
        nPlainCodes n' = nRestated (versionName b) (nPlainCodes (nDocumentIn (older a b) n)) ∧
        (b ≠ .v23 → nPlainCodes n' = n')) := by
  have one : ∀ a b, ∃ n', nConvertStep lib a b n = .ok n' ∧ NSolid n' ∧ Proper n' ∧
      (n'.doc.spdxVersion = versionName b ∧
        nPlainCodes n' = nRestated (versionName b) (nPlainCodes (nDocumentIn (older a b) n)) ∧
        (b ≠ .v23 → nPlainCodes n' = n')) := by
    intro a b
    obtain ⟨n', h1, h2, h3, h4, h5⟩ := nConvertStep_ok lib a b n h hp
    exact ⟨n', h1, h2, h3, congrArg (fun m => m.doc.spdxVersion) h4, h4, h5⟩
  have two : ∀ a b c, older (older a b) (older b c) = older a c →
      ∃ n', (nConvertStep lib a b n >>= fun m => nConvertStep lib b c m) = .ok n' ∧ NSolid n' ∧ Proper n' ∧
      (n'.doc.spdxVersion = versionName c ∧
        nPlainCodes n' = nRestated (versionName c) (nPlainCodes (nDocumentIn (older a c) n)) ∧
        (c ≠ .v23 → nPlainCodes n' = n')) := by
    intro a b c ho
    obtain ⟨n1, h1, h2, h3, h4, -⟩ := nConvertStep_ok lib a b n h hp
    obtain ⟨n2, g1, g2, g3, g4, g5⟩ := nConvertStep_ok lib b c n1 h2 h3
    refine ⟨n2, by rw [h1, Res.bind_ok, g1], g2, g3, congrArg (fun m => m.doc.spdxVersion) g4, ?_, g5⟩
    have e : nPlainCodes (nDocumentIn (older a c) n) = nDocumentIn (older b c) (nPlainCodes (nDocumentIn (older a b) n)) := by
      rw [← ho, ← nDocumentIn_in (older a b) (older b c) n, nPlain_in]
    rw [g4, nPlain_in, h4, e]
    rfl
  cases a <;> cases b <;> simp only [nConvertWith, Bool.not_true, Bool.false_eq_true, if_false]
  case v21.v21 => exact ⟨n, rfl, h, hp, fun _ => rfl, by simp⟩
  case v22.v22 => exact ⟨n, rfl, h, hp, fun _ => rfl, by simp⟩
  case v23.v23 => exact ⟨n, rfl, h, hp, fun _ => rfl, by simp⟩
  case v21.v22 => obtain ⟨m, h1, h2, h3, h4⟩ := one .v21 .v22; exact ⟨m, h1, h2, h3, by simp, fun _ => h4⟩
  case v22.v23 => obtain ⟨m, h1, h2, h3, h4⟩ := one .v22 .v23; exact ⟨m, h1, h2, h3, by simp, fun _ => h4⟩
  case v22.v21 => obtain ⟨m, h1, h2, h3, h4⟩ := one .v22 .v21; exact ⟨m, h1, h2, h3, by simp, fun _ => h4⟩
  case v23.v22 => obtain ⟨m, h1, h2, h3, h4⟩ := one .v23 .v22; exact ⟨m, h1, h2, h3, by simp, fun _ => h4⟩
  case v21.v23 => obtain ⟨m, h1, h2, h3, h4⟩ := two .v21 .v22 .v23 rfl; exact ⟨m, h1, h2, h3, by simp, fun _ => h4⟩
  case v23.v21 => obtain ⟨m, h1, h2, h3, h4⟩ := two .v23 .v22 .v21 rfl; exact ⟨m, h1, h2, h3, by simp, fun _ => h4⟩

/-! ## Documents in which nothing is missing -/

theorem ptrsVal_some {α : Type} (f : α → GoVal) (l : List α) : ptrsVal f (l.map some) = .slice (l.map fun x => .ptr (f x)) := by
  simp [ptrsVal, ptrVal_some, Function.comp_def]

theorem nFileVal_of (v : Version) (f : FileV) : nFileVal v (ofFile f) = fileVal v f := by
  have h1 := ptrsVal_some artifactVal f.artifactOfProjects
  unfold nFileVal fileVal ofFile pickFields
  cases v <;> simp [GoVal.put, fileStruct, GoFields.of, GoFields.names, h1, ptrVal_some, Function.comp_def]

theorem nPackageVal_of (v : Version) (p : PackageV) : nPackageVal v (ofPackage p) = packageVal v p := by
  have h1 := ptrsVal_some externalRefVal p.externalRefs
  have h2 : ptrsVal (nFileVal v) (p.files.map fun f => some (ofFile f)) = .slice (p.files.map fun f => .ptr (fileVal v f)) := by
    simp [ptrsVal, ptrVal_some, Function.comp_def, nFileVal_of]
  unfold nPackageVal packageVal ofPackage pickFields
  cases v <;> simp [GoVal.put, packageStruct, GoFields.of, GoFields.names, h1, h2]

theorem nDocumentVal_of (v : Version) (d : Doc) : nDocumentVal v (ofDoc d) = documentVal v d := by
  have h1 : ptrsVal (nPackageVal v) (d.packages.map fun p => some (ofPackage p)) = .slice (d.packages.map fun p => .ptr (packageVal v p)) := by
    simp [ptrsVal, ptrVal_some, Function.comp_def, nPackageVal_of]
  have h2 : ptrsVal (nFileVal v) (d.files.map fun f => some (ofFile f)) = .slice (d.files.map fun f => .ptr (fileVal v f)) := by
    simp [ptrsVal, ptrVal_some, Function.comp_def, nFileVal_of]
  unfold nDocumentVal documentVal ofDoc
  simp [GoVal.put, h1, h2, ptrsVal_some]

theorem nFileIn_of (v : Version) (f : FileV) : nFileIn v (ofFile f) = ofFile (fileIn v f) := by
  have : f.snippets.filter (fun _ => true) = f.snippets := List.filter_eq_self.2 fun _ _ => rfl
  simp [nFileIn, ofFile, fileIn, List.filter_map, Function.comp_def, this]

theorem nPackageIn_of (v : Version) (p : PackageV) : nPackageIn v (ofPackage p) = ofPackage (packageIn v p) := by
  simp [nPackageIn, ofPackage, packageIn, Function.comp_def, nFileIn_of]

theorem nDocumentIn_of (v : Version) (d : Doc) : nDocumentIn v (ofDoc d) = ofDoc (documentIn v d) := by
  simp [nDocumentIn, ofDoc, documentIn, Function.comp_def, nFileIn_of, nPackageIn_of]

theorem properFile_of (f : FileV) : ProperFile (ofFile f) := ⟨rfl, rfl⟩

theorem proper_of (d : Doc) : Proper (ofDoc d) := by
  refine ⟨by simp [ofDoc], ?_, ?_⟩
  · intro p hp
    obtain ⟨q, -, hq⟩ := List.mem_map.1 hp
    obtain rfl := Option.some.inj hq
    refine ⟨rfl, rfl, ?_⟩
    intro f hf
    obtain ⟨g, -, hg⟩ := List.mem_map.1 hf
    obtain rfl := Option.some.inj hg
    exact properFile_of g
  · intro f hf
    obtain ⟨g, -, hg⟩ := List.mem_map.1 hf
    obtain rfl := Option.some.inj hg
    exact properFile_of g

theorem there_of (f : FileV) : SnippetsThere (ofFile f) := by
  intro e he
  obtain ⟨x, -, rfl⟩ := List.mem_map.1 he
  simp

theorem documentOfVal_of (v : Version) (d : Doc) :
    nDocumentOfVal v (documentVal v d) = ofDoc (documentOfVal v (documentVal v d)) := by
  have hb := nDocument_back v (ofDoc d) (proper_of d)
    (fun f hf => by
      obtain ⟨g, -, hg⟩ := List.mem_map.1 hf
      obtain rfl := Option.some.inj hg
      exact there_of g)
    (fun p hp f hf => by
      obtain ⟨q, -, hq⟩ := List.mem_map.1 hp
      obtain rfl := Option.some.inj hq
      obtain ⟨g, -, hg⟩ := List.mem_map.1 hf
      obtain rfl := Option.some.inj hg
      exact there_of g)
  rw [nDocumentVal_of] at hb
  rw [hb, document_back, nDocumentIn_of]
  simp only [ofDoc, List.map_map, NDoc.mk.injEq, and_true, true_and]
  refine List.map_congr_left fun p _ => ?_
  simp only [Function.comp_apply, Option.map_some, nPackageIn_of, Option.some.injEq]
  by_cases hv : v = .v23 <;> simp [hv, ofPackage, packageIn, plainCode]

/-- A document in which nothing is missing is converted as by `convertWith`. -/
theorem nConvertWith_of (isPtr : Bool) (a b : Version) (d : Doc) (h : Solid d) :
    nConvertWith lib isPtr a b (ofDoc d) = (do let d' ← convertWith lib isPtr a b d; .ok (ofDoc d')) := by
  have step : ∀ (a b : Version) (d : Doc), Solid d → nConvertStep lib a b (ofDoc d) = (do let d' ← convertStep lib a b d; .ok (ofDoc d')) := by
    intro a b d h
    rw [nConvertStep, convertStep, nStructCopy, structCopy, nDocumentVal_of, conv_document lib a b d h]
    simp only [Res.bind_ok, Option.getD_some, documentOfVal_of]
    rfl
  have two : ∀ a b c, (nConvertStep lib a b (ofDoc d) >>= fun m => nConvertStep lib b c m) =
      (do let d' ← (convertStep lib a b d >>= fun m => convertStep lib b c m); .ok (ofDoc d')) := by
    intro a b c
    obtain ⟨d1, h1, h2, -⟩ := convertStep_ok lib a b d h
    rw [step a b d h, h1, Res.bind_ok, Res.bind_ok, Res.bind_ok, step b c d1 h2]
  cases isPtr with
  | false => rfl
  | true =>
    cases a <;> cases b
    case v21.v23 => exact two .v21 .v22 .v23
    case v23.v21 => exact two .v23 .v22 .v21
    case v21.v22 => exact step .v21 .v22 d h
    case v22.v23 => exact step .v22 .v23 d h
    case v22.v21 => exact step .v22 .v21 d h
    case v23.v22 => exact step .v23 .v22 d h
    all_goals rfl

end Verif
