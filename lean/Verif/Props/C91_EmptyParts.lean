import Verif.Lemmas.EmptyParts
import Verif.Props.C90_NilConvert

/-!
# C91: converting documents with empty parts
-/

namespace Verif
open Spec

theorem unless_false {α : Type} (em : α → Bool) (o : Option α) : unlessEmpty false em o = o := by
  cases o <;> rfl

theorem unless_not {α : Type} {e : Bool} {em : α → Bool} {o : Option α} (h : ∀ x, o = some x → em x = false) : unlessEmpty e em o = o := by
  cases o with
  | none => rfl
  | some x => rw [unless_some, h x rfl]; simp

theorem map_opt_same {α : Type} {f : Option α → Option α} {l : List (Option α)} (h : ∀ o ∈ l, f o = o) : l.map f = l := by
  conv => rhs; rw [← List.map_id l]
  exact List.map_congr_left h

theorem map_unless_false {α : Type} (em : α → Bool) (l : List (Option α)) : l.map (unlessEmpty false em) = l :=
  map_opt_same fun o _ => unless_false em o

theorem fileParts_false (v : Version) (n : NFile) : fileParts false v n = n := by
  simp only [fileParts, unless_false, map_unless_false]
  simp

theorem packageParts_false (v : Version) (n : NPackage) : packageParts false v n = n := by
  have h := map_opt_same (f := fun o => (unlessEmpty false (emptyFile v) o).map (fileParts false v)) (l := n.files) (fun o _ => by
    rw [unless_false]; cases o <;> simp [fileParts_false])
  rw [packageParts, h, unless_false, unless_false, map_unless_false]

/-- **C91.** If the library does not treat empty structs as nil, all parts stay. -/
theorem C91_kept (v : Version) (n : NDoc) : documentParts false v n = n := by
  have h1 := map_opt_same (f := fun o => (unlessEmpty false (emptyPackage v) o).map (packageParts false v)) (l := n.packages) (fun o _ => by
    rw [unless_false]; cases o <;> simp [packageParts_false])
  have h2 := map_opt_same (f := fun o => (unlessEmpty false (emptyFile v) o).map (fileParts false v)) (l := n.files) (fun o _ => by
    rw [unless_false]; cases o <;> simp [fileParts_false])
  rw [documentParts, h1, h2, unless_false, map_unless_false, map_unless_false, map_unless_false, map_unless_false]

theorem fileParts_solid {e : Bool} {v : Version} {n : NFile} (h : NSolidFile n) : fileParts e v n = n := by
  have h1 := map_opt_same (f := unlessEmpty e (fun x : ArtifactOfProject => decide (x = {}))) (l := n.artifacts) (fun o ho =>
    unless_not fun x hx => by subst hx; simp only [decide_eq_false_iff_not]; rintro rfl; exact h.2.1 ho)
  have h2 : (n.snippets.map fun x => (x.1, unlessEmpty e (emptySnippet v) x.2)) = n.snippets := by
    conv => rhs; rw [← List.map_id n.snippets]
    refine List.map_congr_left fun x hx => ?_
    rw [unless_not (fun s hs => ?_)]; rfl
    have := h.2.2 x hx s hs
    simp only [emptySnippet, decide_eq_false_iff_not]
    intro he
    apply this
    have := congrArg Snippet.spdxId he
    simp only [snippetIn] at this
    split at this <;> exact this
  simp only [fileParts, h1, h2]

theorem filesParts_solid {e : Bool} {v : Version} {l : List (Option NFile)} (h : ∀ f, some f ∈ l → NSolidFile f) :
    (l.map fun o => (unlessEmpty e (emptyFile v) o).map (fileParts e v)) = l := by
  refine map_opt_same fun o ho => ?_
  rw [unless_not]
  · cases o with
    | none => rfl
    | some f => simp [fileParts_solid (h f ho)]
  · intro f hf
    subst hf
    have := (h f ho).1
    simp only [emptyFile, decide_eq_false_iff_not]
    rintro ⟨he, -⟩
    exact this (congrArg (fun x : FileV => x.spdxId) he)

/-- **C91.** Nor does anything go from a document whose packages, files and snippets have identifiers, and in which
nothing else is empty: C90 is a special case. -/
theorem C91_solid (e : Bool) (v : Version) (n : NDoc) (h : NSolid n) : documentParts e v n = n := by
  have same : ∀ {α : Type} [DecidableEq α] {z : α} {l : List (Option α)}, some z ∉ l →
      l.map (unlessEmpty e (fun x => decide (x = z))) = l := fun hz =>
    map_opt_same fun o ho => unless_not fun x hx => by subst hx; simp only [decide_eq_false_iff_not]; rintro rfl; exact hz ho
  have one : ∀ {α : Type} [DecidableEq α] {z : α} {o : Option α}, o ≠ some z → unlessEmpty e (fun x => decide (x = z)) o = o := fun hz =>
    unless_not fun x hx => by subst hx; simp only [decide_eq_false_iff_not]; rintro rfl; exact hz rfl
  have hp : (n.packages.map fun o => (unlessEmpty e (emptyPackage v) o).map (packageParts e v)) = n.packages := by
    refine map_opt_same fun o ho => ?_
    rw [unless_not]
    · cases o with
      | none => rfl
      | some p =>
        obtain ⟨-, h2, h3, h4, h5⟩ := h.packages p ho
        simp only [Option.map_some, packageParts, one h2, one h3, same h4, filesParts_solid h5]
    · intro p hp
      subst hp
      have := (h.packages p ho).1
      simp only [emptyPackage, decide_eq_false_iff_not]
      rintro ⟨he, -⟩
      apply this
      have := congrArg (fun x : PackageV => x.spdxId) he
      split at this <;> exact this
  simp only [documentParts, hp, filesParts_solid h.files, same h.otherLicenses, same h.relationships, same h.annotations, same h.reviews,
    one h.creationInfo]

/-- **C91.** What a conversion to the next or the previous version gives, whatever the document: what is not missing, not
empty in the sense of the library, and not without a field in one of the versions. -/
theorem C91_next (lib : Copier) (a b : Version) (n : NDoc) (hp : Proper n) (hab : a ≠ b) (near : a = .v22 ∨ b = .v22) :
    ∃ n', nConvertWith lib true a b n = .ok n' ∧ VersionNamed n'.doc.spdxVersion b ∧
      nPlainCodes n' = stepped lib.zeroPtrNil a b n'.doc.spdxVersion n := by
  obtain ⟨n', h1, h2, h3, -⟩ := nConvertStep_any lib a b n hp
  have hv : n'.doc.spdxVersion = versionName b := congrArg (fun m => m.doc.spdxVersion) h3
  refine ⟨n', ?_, by rw [hv]; exact versionName_names b, by rw [hv]; exact h3⟩
  rw [← h1]
  cases a <;> cases b <;> first | rfl | exact absurd rfl hab | simp at near

/-- **C91.** Between 2.1 and 2.3 the same happens twice. -/
theorem C91_far (lib : Copier) (a b : Version) (n : NDoc) (hp : Proper n) (far : (a = .v21 ∧ b = .v23) ∨ (a = .v23 ∧ b = .v21)) :
    ∃ n' name, nConvertWith lib true a b n = .ok n' ∧ VersionNamed name .v22 ∧ VersionNamed n'.doc.spdxVersion b ∧
      nPlainCodes n' = stepped lib.zeroPtrNil .v22 b n'.doc.spdxVersion (stepped lib.zeroPtrNil a .v22 name n) := by
  obtain ⟨n1, h1, h2, h3, h4⟩ := nConvertStep_any lib a .v22 n hp
  obtain ⟨n', g1, -, g3, -⟩ := nConvertStep_any lib .v22 b n1 h2
  have hv : n'.doc.spdxVersion = versionName b := congrArg (fun m => m.doc.spdxVersion) g3
  refine ⟨n', versionName .v22, ?_, versionName_names .v22, by rw [hv]; exact versionName_names b, ?_⟩
  · rcases far with ⟨rfl, rfl⟩ | ⟨rfl, rfl⟩ <;>
    · simp only [nConvertWith, Bool.not_true, Bool.false_eq_true, if_false, h1, Res.bind_ok, g1]
  · rw [hv, g3, ← h4 (by simp), h3]

/-- **C91.** With a library that does not treat empty structs as nil, nothing is lost but what one of the versions has no
field for and the entries of missing snippets, whatever the document. -/
theorem C91_faithful (lib : Copier) (keeps : lib.zeroPtrNil = false) (a b : Version) (n : NDoc) (hp : Proper n) :
    ∃ n', nConvertWith lib true a b n = .ok n' ∧ ConvertedNDoc a b n n' := by
  have near : ∀ a b, a ≠ b → (a = .v22 ∨ b = .v22) → ∃ n', nConvertWith lib true a b n = .ok n' ∧ ConvertedNDoc a b n n' := by
    intro a b hab h
    obtain ⟨n', h1, h2, h3⟩ := C91_next lib a b n hp hab h
    refine ⟨n', h1, fun h => absurd h hab, fun _ => ⟨h2, ?_⟩⟩
    rw [h3, stepped, keeps, C91_kept]
  have far : ∀ a b, (a = .v21 ∧ b = .v23) ∨ (a = .v23 ∧ b = .v21) → ∃ n', nConvertWith lib true a b n = .ok n' ∧ ConvertedNDoc a b n n' := by
    intro a b h
    obtain ⟨n', name, h1, -, h2, h3⟩ := C91_far lib a b n hp h
    refine ⟨n', h1, fun hab => ?_, fun _ => ⟨h2, ?_⟩⟩
    · subst hab
      rcases h with ⟨rfl, h⟩ | ⟨rfl, h⟩ <;> cases h
    · rw [h3, stepped, keeps, C91_kept, stepped, C91_kept]
      have e : nDocumentIn (older .v22 b) (nRestated name (nPlainCodes (nDocumentIn (older a .v22) n))) =
          nRestated name (nPlainCodes (nDocumentIn (older a b) n)) := by
        have ho : older (older a .v22) (older .v22 b) = older a b := by rcases h with ⟨rfl, rfl⟩ | ⟨rfl, rfl⟩ <;> rfl
        rw [← ho, ← nDocumentIn_in (older a .v22) (older .v22 b), nPlain_in (older .v22 b)]
        rfl
      rw [e]
      have idem : nPlainCodes (nPlainCodes (nDocumentIn (older a b) n)) = nPlainCodes (nDocumentIn (older a b) n) := by
        simp only [nPlainCodes, List.map_map]
        congr 1
        refine List.map_congr_left fun o _ => ?_
        cases o <;> simp [plainCode_idem]
      have := congrArg (nRestated n'.doc.spdxVersion) idem
      exact this
  cases a <;> cases b
  case v21.v22 => exact near _ _ (by simp) (by simp)
  case v22.v23 => exact near _ _ (by simp) (by simp)
  case v22.v21 => exact near _ _ (by simp) (by simp)
  case v23.v22 => exact near _ _ (by simp) (by simp)
  case v21.v23 => exact far _ _ (by simp)
  case v23.v21 => exact far _ _ (by simp)
  all_goals exact ⟨n, rfl, fun _ => rfl, fun h => absurd rfl h⟩

/-! ## Documents in which nothing is missing -/

theorem ofDoc_inj {d e : Doc} (h : ofDoc d = ofDoc e) : d = e := by
  have := congrArg NDoc.whole h
  rw [whole_ofDoc, whole_ofDoc] at this
  exact Option.some.inj this

theorem nDocumentTo_of (lib : Copier) (a b : Version) (d : Doc) : nDocumentTo lib a b (ofDoc d) = ofDoc (documentTo lib a b d) := by
  have : ∀ p, nPackageTo lib a b (ofPackage p) = ofPackage (packageTo lib a b p) := by
    intro p
    simp [nPackageTo, ofPackage, packageTo, nPackageIn, packageIn, Function.comp_def, nFileIn_of]
  simp [nDocumentTo, nDocumentIn, ofDoc, documentTo, documentIn, Function.comp_def, this, nFileIn_of]

theorem nConvertWith_keeps (lib : Copier) (keeps : lib.zeroPtrNil = false) (a b : Version) (d : Doc) :
    nConvertWith lib true a b (ofDoc d) = (do let d' ← convertWith lib true a b d; .ok (ofDoc d')) := by
  have step : ∀ (a b : Version) (d : Doc), nConvertStep lib a b (ofDoc d) = (do let d' ← convertStep lib a b d; .ok (ofDoc d')) := by
    intro a b d
    have h := conv_nDocument_any lib a b (ofDoc d) (proper_of d)
    rw [keeps, C91_kept, nDocumentTo_of, nDocumentVal_of] at h
    rw [nConvertStep, convertStep, nStructCopy, structCopy, nDocumentVal_of, h, nDocumentVal_of]
    simp only [Res.bind_ok, Option.getD_some, documentOfVal_of]
    rfl
  have two : ∀ a b c, (nConvertStep lib a b (ofDoc d) >>= fun m => nConvertStep lib b c m) =
      (do let d' ← (convertStep lib a b d >>= fun m => convertStep lib b c m); .ok (ofDoc d')) := by
    intro a b c
    obtain ⟨d1, h1⟩ := convertStep_total lib a b d
    rw [step a b d, h1, Res.bind_ok, Res.bind_ok, Res.bind_ok, step b c d1]
  cases a <;> cases b
  case v21.v23 => exact two .v21 .v22 .v23
  case v23.v21 => exact two .v23 .v22 .v21
  case v21.v22 => exact step .v21 .v22 d
  case v22.v23 => exact step .v22 .v23 d
  case v22.v21 => exact step .v22 .v21 d
  case v23.v22 => exact step .v23 .v22 d
  all_goals rfl

/-- **C91.** With such a library C62 holds for every document, even with empty structs in it. -/
theorem C91_documents (lib : Copier) (keeps : lib.zeroPtrNil = false) (a b : Version) (d : Doc) :
    ∃ d', convertWith lib true a b d = .ok d' ∧ ConvertedDoc a b d d' := by
  obtain ⟨d', h⟩ := convertWith_total lib a b d
  refine ⟨d', h, ?_⟩
  obtain ⟨n', h1, h2, h3⟩ := C91_faithful lib keeps a b (ofDoc d) (proper_of d)
  rw [nConvertWith_keeps lib keeps, h, Res.bind_ok] at h1
  obtain rfl := Res.ok.inj h1
  refine ⟨fun hab => ofDoc_inj (h2 hab), fun hab => ?_⟩
  obtain ⟨g1, g2⟩ := h3 hab
  refine ⟨g1, ofDoc_inj ?_⟩
  have plain : ∀ d, nPlainCodes (ofDoc d) = ofDoc (plainCodes d) := by
    intro d
    simp only [nPlainCodes, ofDoc, plainCodes, List.map_map]
    rfl
  rw [nDocumentIn_of, plain, plain] at g2
  exact g2

/-! ## Samples -/

/-- A document with an empty package, a package with an empty supplier and an empty reference, and a file of which only
a snippet is known, which is missing. -/
def doc91 : NDoc :=
  { doc := { spdxId := g!"DOCUMENT" }
    packages := [some {}, some { pkg := { name := g!"p", supplier := some {}, originator := some { originator := g!"o" } },
                                 externalRefs := [some {}, none, some { category := g!"OTHER" }] }]
    files := [some { snippets := [(g!"s", none)] }]
    annotations := [some {}] }

theorem doc91_proper : Proper doc91 := by
  constructor <;> simp [doc91, ProperPackage, ProperFile]

/-- The empty parts are missing after a conversion with a library that treats them as nil; the file is empty after one
step, and missing after two. -/
theorem C91_sample : Proper doc91 ∧ ∀ keep, nConvertWith ⟨true, keep⟩ true .v23 .v22 doc91 = .ok
    { doc := { spdxVersion := g!"SPDX-2.2", spdxId := g!"DOCUMENT" }
      packages := [none, some { pkg := { name := g!"p", originator := some { originator := g!"o" } },
                                externalRefs := [none, none, some { category := g!"OTHER" }] }]
      files := [some {}]
      annotations := [none] } ∧
    nConvertWith ⟨true, keep⟩ true .v23 .v21 doc91 = .ok
    { doc := { spdxVersion := g!"SPDX-2.1", spdxId := g!"DOCUMENT" }
      packages := [none, some { pkg := { name := g!"p", originator := some { originator := g!"o" } },
                                externalRefs := [none, none, some { category := g!"OTHER" }] }]
      files := [none]
      annotations := [none] } := by
  refine ⟨doc91_proper, fun keep => ?_⟩
  cases keep <;> exact ⟨by decide +kernel, by decide +kernel⟩

/-- A library that keeps empty structs exists, and keeps the empty package. -/
example : (⟨false, true⟩ : Copier).zeroPtrNil = false ∧
    (match nConvertWith ⟨false, true⟩ true .v23 .v21 doc91 with | .ok n => n.packages.map Option.isSome | _ => []) = [true, true] :=
  ⟨rfl, by decide +kernel⟩

/-- A file that is not empty is there after every conversion: false, see `C91_sample`. -/
theorem C91_file_false : ¬ ∀ (lib : Copier) (a b : Version) (n n' : NDoc), Proper n → (∀ f, some f ∈ n.files → emptyFile a f = false) →
    nConvertWith lib true a b n = .ok n' → none ∉ n.files → none ∉ n'.files := by
  intro h
  refine h ⟨true, true⟩ .v23 .v21 doc91 _ doc91_proper ?_ (C91_sample.2 true).2 (by simp [doc91]) (by simp)
  intro f hf
  simp only [doc91, List.mem_cons, List.not_mem_nil, or_false, Option.some.injEq] at hf
  subst hf
  decide +kernel

end Verif
