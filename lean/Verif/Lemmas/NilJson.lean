import Verif.Lemmas.JsonDoc
import Verif.Lemmas.NilFields
import Verif.Spec.NilEntries

/-!
# Writing JSON with nil entries
-/

namespace Verif
open Spec

variable {σ τ : Type} {html : Bool}

/-! ## Documents without nil entries -/

theorem enc_somes {β : Type} (zero : β) (c : Codec β) (l : List β) :
    (nilListCodec zero c).enc (l.map some) = (ptrListCodec zero c).enc l := by
  have key : ∀ l : List β, mapRes (ptrCodec zero c).enc (l.map some) = mapRes c.enc l := by
    intro l
    induction l with
    | nil => rfl
    | cons a l ih => simp only [List.map_cons, mapRes, ih]; rfl
  cases l with
  | nil => rfl
  | cons a l => show (mapRes (ptrCodec zero c).enc ((a :: l).map some) >>= fun js => Res.ok (Json.arr js)) = _; rw [key]; rfl

theorem enc_somes' {β γ : Type} {zero : β} {zero' : γ} {c : Codec β} {c' : Codec γ} {f : γ → β} (h : ∀ a, c.enc (f a) = c'.enc a) (l : List γ) :
    (nilListCodec zero c).enc (l.map fun a => some (f a)) = (ptrListCodec zero' c').enc l := by
  have e : (l.map fun a => some (f a)) = (l.map f).map some := by rw [List.map_map]; rfl
  rw [e, enc_somes]
  have key : ∀ l : List γ, mapRes c.enc (l.map f) = mapRes c'.enc l := by
    intro l
    induction l with
    | nil => rfl
    | cons a l ih => simp only [List.map_cons, mapRes, ih, h]
  cases l with
  | nil => rfl
  | cons a l => show (mapRes c.enc ((a :: l).map f) >>= fun js => Res.ok (Json.arr js)) = _; rw [key]; rfl

/-- Two fields write the same. -/
structure SameOut (s : τ) (t : σ) (f : Field σ) (g : Field τ) : Prop where
  key : g.key = f.key
  empty : g.isEmpty (g.get s) = f.isEmpty (f.get t)
  enc : g.codec.enc (g.get s) = f.codec.enc (f.get t)

theorem encode_mixed {s : τ} {t : σ} {g : Field σ → Field τ} {fs : List (Field σ)} (h : ∀ f ∈ fs, SameOut s t f (g f)) :
    encodeFields s (fs.map g) = encodeFields t fs := by
  induction fs with
  | nil => rfl
  | cons f fs ih =>
    have ih := ih fun g hg => h g (.tail _ hg)
    have hf := h f (.head _)
    simp only [List.map_cons, encodeFields, hf.key, hf.empty, hf.enc, ih]

theorem sameOut_cons {s : τ} {t : σ} {g : Field σ → Field τ} {f : Field σ} {fs : List (Field σ)} (h : SameOut s t f (g f))
    (hs : ∀ f ∈ fs, SameOut s t f (g f)) : ∀ x ∈ f :: fs, SameOut s t x (g x) := by
  intro x hx
  rcases List.mem_cons.1 hx with rfl | hx
  · exact h
  · exact hs x hx

theorem sameOut_nil {s : τ} {t : σ} {g : Field σ → Field τ} : ∀ f ∈ ([] : List (Field σ)), SameOut s t f (g f) := fun _ h => by cases h

theorem sameOut_append {s : τ} {t : σ} {g : Field σ → Field τ} {fs gs : List (Field σ)} (h1 : ∀ f ∈ fs, SameOut s t f (g f))
    (h2 : ∀ f ∈ gs, SameOut s t f (g f)) : ∀ f ∈ fs ++ gs, SameOut s t f (g f) :=
  fun f hf => (List.mem_append.1 hf).elim (h1 f) (h2 f)

theorem sameOut_only {s : τ} {t : σ} {g : Field σ → Field τ} {b : Bool} {f : Field σ} (h : SameOut s t f (g f)) :
    ∀ x ∈ only b f, SameOut s t x (g x) := by
  cases b
  · exact sameOut_nil
  · exact sameOut_cons h sameOut_nil

macro "fields_sameOut" : tactic => `(tactic| repeat' first
  | exact sameOut_nil | refine sameOut_cons ?_ ?_ | refine sameOut_append ?_ ?_ | refine sameOut_only ?_ | exact ⟨rfl, rfl, rfl⟩ | assumption)

theorem encode_ofFile (v : Version) (f : FileV) : (nFileCodec v).enc (ofFile f) = (fileCodec v).enc f := by
  have ha : SameOut (ofFile f) f (listOptF (ptrListCodec {} artifactCodec) g!"artifactOfs" (·.artifactOfProjects) (fun b s => { s with artifactOfProjects := b }))
      artifactsField := ⟨rfl, by simp [artifactsField, listOptF, ofFile], enc_somes _ _ _⟩
  have : encodeFields (ofFile f) (nFileFields v) = encodeFields f (fileFields v) := by
    refine encode_mixed ?_
    unfold fileFields
    fields_sameOut
  simp only [nFileCodec, fileCodec, structCodec, this]

theorem fields_ofPackage (v : Version) (p : PackageV) : encodeFields (ofPackage p) (nPackageFields v) = encodeFields p (packageFields v) := by
  have hr : SameOut (ofPackage p) p (listOptF (ptrListCodec {} (externalRefCodec v)) g!"externalRefs" (·.externalRefs) (fun b s => { s with externalRefs := b }))
      (externalRefsField v) := ⟨rfl, by simp [externalRefsField, listOptF, ofPackage], enc_somes _ _ _⟩
  have hf : SameOut (ofPackage p) p (listOptF (ptrListCodec {} (fileCodec v)) g!"files" (·.files) (fun b s => { s with files := b }))
      (packageFilesField v) := ⟨rfl, by simp [packageFilesField, listOptF, ofPackage], enc_somes' (encode_ofFile v) _⟩
  refine encode_mixed ?_
  unfold packageFields packageFieldsA packageFieldsB
  fields_sameOut
  cases v <;> exact ⟨rfl, rfl, rfl⟩

theorem encode_ofPackage (so : Sorter) (v : Version) (p : PackageV) : encodeNPackage so v (ofPackage p, []) = encodePackage so v (p, []) := by
  cases v <;> simp only [encodeNPackage, encodePackage, structCodec, fields_ofPackage] <;> rfl

theorem write_ofDoc (so : Sorter) (v : Version) (d : Doc) :
    nWriteJson so v html (ofDoc d) = writeJson so v html d := by
  have hp : SameOut (nRawOf (ofDoc d)) (rawDoc d) (listOptF (listCodec none (ptrCodec ({}, []) (packageCodec so v))) g!"packages" (·.packages) (fun b s => { s with packages := b }))
      (nPackagesField so v) := by
    have e : (nRawOf (ofDoc d)).packages = d.packages.map fun p => some (ofPackage p, []) := by
      simp only [nRawOf, ofDoc, List.map_map]; rfl
    have e' : (rawDoc d).packages = d.packages.map fun p => some (p, []) := rfl
    refine ⟨rfl, by simp [nPackagesField, listOptF, e, e'], ?_⟩
    show (nilListCodec _ _).enc (nRawOf (ofDoc d)).packages = (listCodec none (ptrCodec ({}, []) (packageCodec so v))).enc (rawDoc d).packages
    have h1 := enc_somes' (zero := ({}, [])) (zero' := {}) (c := nPackageCodec so v) (c' := { packageCodec so v with enc := fun p => encodePackage so v (p, []), dec := fun _ _ => .err })
      (f := fun p => (ofPackage p, [])) (encode_ofPackage so v) d.packages
    have h2 := enc_somes' (zero := ({}, [])) (zero' := {}) (c := packageCodec so v) (c' := { packageCodec so v with enc := fun p => encodePackage so v (p, []), dec := fun _ _ => .err })
      (f := fun p => (p, [])) (fun _ => rfl) d.packages
    rw [e, e', h1]
    exact h2.symm
  have hf : SameOut (nRawOf (ofDoc d)) (rawDoc d) (listOptF (ptrListCodec {} (fileCodec v)) g!"files" (·.doc.files) (fun b s => { s with doc := { s.doc with files := b } }))
      (docFilesField v) := ⟨rfl, by simp [docFilesField, listOptF, nRawOf, ofDoc, rawDoc], enc_somes' (encode_ofFile v) _⟩
  have hl : SameOut (nRawOf (ofDoc d)) (rawDoc d) (listOptF (ptrListCodec {} otherLicenseCodec) g!"hasExtractedLicensingInfos" (·.doc.otherLicenses) (fun b s => { s with doc := { s.doc with otherLicenses := b } }))
      otherLicensesField := ⟨rfl, by simp [otherLicensesField, listOptF, nRawOf, ofDoc, rawDoc], enc_somes _ _ _⟩
  have ha : SameOut (nRawOf (ofDoc d)) (rawDoc d) (listOptF (ptrListCodec {} annotationCodec) g!"annotations" (·.doc.annotations) (fun b s => { s with doc := { s.doc with annotations := b } }))
      annotationsField := ⟨rfl, by simp [annotationsField, listOptF, nRawOf, ofDoc, rawDoc], enc_somes _ _ _⟩
  have : encodeFields (nRawOf (ofDoc d)) (nDocFields so v) = encodeFields (rawDoc d) (docFields so v) := by
    refine encode_mixed ?_
    unfold docFields
    fields_sameOut
  have e : writeJson so v html d = (structCodec (docFields so v)).enc (rawDoc d) >>= fun j => .ok (if html then j.escapeHtml else j) := rfl
  rw [e]
  simp only [nWriteJson, structCodec, this]

end Verif
