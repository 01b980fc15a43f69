import Verif.Lemmas.JsonDoc
import Verif.Lemmas.JsonSpelling
import Verif.Lemmas.Sort

/-!
# C47: a document survives writing and reading JSON
-/

namespace Verif
open Spec

/-- Writing a document of any version as JSON succeeds, and reading the result, or any JSON that says the same
with the entries of objects in another order, yields what `keptDoc` says; with or without HTML escaping. -/
theorem C47_round_trip (so so' : Sorter) (copy : Version → Version → Doc → Doc) (v : Version) (html : Bool) (d : Doc)
    (hd : JsonDocument html d) (hv : d.spdxVersion = versionName v) :
    ∃ j, writeJson so v html d = .ok j ∧ ∀ k, Like false j k → readJsonInto so' copy true v k = .ok (keptDoc v d) :=
  json_round_trip so so' copy v html d hd hv

theorem map_eq_self {α : Type} {f : α → α} {l : List α} (h : ∀ a ∈ l, f a = a) : l.map f = l := by
  induction l with
  | nil => rfl
  | cons a l ih => rw [List.map_cons, h a (by simp), ih fun b hb => h b (by simp [hb])]

theorem keptAnnotations_whole {l : List Annotation} (h : ∀ a ∈ l, a.spdxId = {}) : l.map keptAnnotation = l :=
  map_eq_self fun a ha => by
    have := h a ha
    cases a
    simp only at this
    subst this
    rfl

theorem keptFile_whole {v : Version} {f : FileV} (h : WholeFile v f) : keptFile v f = f := by
  obtain ⟨h1, h2, h3, h4⟩ := h
  unfold keptFile
  rw [keptAnnotations_whole h2]
  cases f
  simp only at h1 h3 h4
  cases v <;> simp_all

theorem keptRef_whole {v : Version} {r : PackageExternalRef} (h : v ≠ .v21 → '_' ∉ r.category) : keptRef v r = r := by
  unfold keptRef
  by_cases hv : v = .v21
  · simp [hv]
  · have : replaceChar '_' '-' r.category = r.category := by
      unfold replaceChar
      exact map_eq_self fun c hc => if_neg fun (e : c = '_') => h hv (e ▸ hc)
    simp [hv, this]

theorem keptPackage_whole {v : Version} {p : PackageV} (h : WholePackage v p) : keptPackage v p = p := by
  obtain ⟨h1, h2, h3, h4, h5, h6, h7, h8⟩ := h
  unfold keptPackage
  rw [keptAnnotations_whole h6, map_eq_self fun f hf => keptFile_whole (h5 f hf),
    map_eq_self fun r hr => keptRef_whole fun hv => h4 hv r hr]
  clear h4 h5 h6
  cases p
  simp only at h1 h2 h3 h7 h8
  cases v <;> simp_all

theorem keptDoc_whole {v : Version} {d : Doc} (hw : WholeDoc v d) : keptDoc v d = d := by
  obtain ⟨w1, w2, w3, w4, w5⟩ := hw
  unfold keptDoc
  rw [keptAnnotations_whole w4, map_eq_self fun p hp => keptPackage_whole (w2 p hp),
    map_eq_self fun f hf => keptFile_whole (w3 f hf), map_eq_self fun s hs => ?_]
  · cases d; simp only at w1; subst w1; rfl
  · have := w5 s hs
    cases s
    simp only at this
    subst this
    rfl

/-- A document of which JSON leaves out nothing comes back unchanged. -/
theorem C47_unchanged (so so' : Sorter) (copy : Version → Version → Doc → Doc) (v : Version) (html : Bool) (d : Doc)
    (hd : JsonDocument html d) (hv : d.spdxVersion = versionName v) (hw : WholeDoc v d) :
    ∃ j, writeJson so v html d = .ok j ∧ readJsonInto so' copy true v j = .ok d := by
  obtain ⟨j, h1, h2⟩ := C47_round_trip so so' copy v html d hd hv
  refine ⟨j, h1, ?_⟩
  rw [h2 j (like_refl j), keptDoc_whole hw]

/-- A document with a package that has a supplier, a verification code, a file with an annotation and an
external reference, and with a snippet, a relationship, a creator and an external document. -/
def doc47 : Doc :=
  { spdxVersion := g!"SPDX-2.2", dataLicense := g!"CC0-1.0", spdxId := g!"DOCUMENT", name := g!"a \"b\" <c>\n& d",
    namespace_ := g!"https://example.com",
    externalDocumentRefs := [{ documentRefID := g!"ext", uri := g!"u", checksum := { algorithm := g!"SHA1", value := g!"00" } }],
    creationInfo := some { creators := [{ creator := g!"Jane", creatorType := g!"Person" }], created := g!"2020" },
    packages := [{ name := g!"p", spdxId := g!"p", supplier := some { supplierType := g!"Organization", supplier := g!"Acme" },
                   filesAnalyzed := true, filesAnalyzedTagPresent := true,
                   verificationCode := some { value := g!"abc", excludedFiles := [g!"x"] },
                   externalRefs := [{ category := g!"PACKAGE-MANAGER", refType := g!"purl", locator := g!"l" }],
                   files := [{ name := g!"f", spdxId := g!"f",
                               annotations := [{ annotator := { annotator := g!"Joe", annotatorType := g!"Person" }, date := g!"d", type := g!"REVIEW", comment := g!"<&>" }] }] },
                 { name := g!"q", spdxId := g!"q", filesAnalyzedTagPresent := true }],
    relationships := [{ refA := { elementRefID := g!"DOCUMENT" }, refB := { elementRefID := g!"p" }, relationship := g!"DESCRIBES" }],
    snippets := [{ spdxId := g!"s", fromFile := g!"f", ranges := [{ startPointer := { offset := 1, fileSpdxId := g!"f" }, endPointer := { offset := 5, fileSpdxId := g!"f" } }] }] }

theorem jsonId_of {html : Bool} {pre id : Str} (h1 : Plain id ∧ id ≠ [] ∧ hasPrefix pre id = false)
    (h2 : ∀ c ∈ id, c ≠ '<' ∧ c ≠ '>' ∧ c ≠ '&') : JsonId html pre id := ⟨h1.1, fun _ => h2, h1.2.1, h1.2.2⟩

/-- It meets the hypotheses of both theorems. -/
theorem doc47_ok : JsonDocument true doc47 ∧ doc47.spdxVersion = versionName .v22 ∧ WholeDoc .v22 doc47 := by
  refine ⟨⟨jsonId_of (by decide) (by decide), ?_, ?_, ?_, by simp [doc47], ?_, by simp [doc47], ?_⟩, rfl,
    ⟨rfl, ?_, by simp [doc47], by simp [doc47], by simp [doc47]⟩⟩
  · simp only [doc47, List.mem_singleton, forall_eq]
    exact jsonId_of (by decide) (by decide)
  · intro i hi c hc
    cases hi
    simp only [List.mem_singleton] at hc
    subst hc
    exact ⟨by decide, ⟨by decide, by decide, by decide, by decide, by decide⟩, fun _ => by decide, fun _ => by decide⟩
  · simp only [doc47, List.mem_cons, List.not_mem_nil, or_false]
    rintro p (rfl | rfl)
    · refine ⟨jsonId_of (by decide) (by decide), ?_, by simp, ?_, by simp⟩
      · intro s hs
        cases hs
        exact ⟨.inr ⟨by decide, by decide, by decide, ⟨by decide, by decide, by decide, by decide, by decide⟩⟩, fun _ => by decide, fun _ => by decide⟩
      · simp only [List.mem_singleton, forall_eq]
        refine ⟨jsonId_of (by decide) (by decide), ?_⟩
        simp only [List.mem_singleton, forall_eq]
        exact ⟨by decide, ⟨by decide, by decide, by decide, by decide, by decide⟩, fun _ => by decide, fun _ => by decide⟩
    · exact ⟨jsonId_of (by decide) (by decide), by simp, by simp, by simp, by simp⟩
  · simp only [doc47, List.mem_singleton, forall_eq]
    exact ⟨⟨.element _ (by decide) (by decide) (by decide), fun _ => by decide, fun _ => by decide⟩,
      ⟨.element _ (by decide) (by decide) (by decide), fun _ => by decide, fun _ => by decide⟩⟩
  · simp only [doc47, List.mem_singleton, forall_eq]
    refine ⟨jsonId_of (by decide) (by decide), jsonId_of (by decide) (by decide), ?_⟩
    simp only [List.mem_singleton, forall_eq]
    exact ⟨⟨jsonId_of (by decide) (by decide), ⟨by decide, by decide⟩, ⟨by decide, by decide⟩⟩, ⟨jsonId_of (by decide) (by decide), ⟨by decide, by decide⟩, ⟨by decide, by decide⟩⟩⟩
  · simp only [doc47, List.mem_cons, List.not_mem_nil, or_false]
    rintro p (rfl | rfl)
    · refine ⟨rfl, rfl, by decide, ?_, ?_, by simp, by simp, by simp⟩
      · intro _
        simp only [List.mem_singleton, forall_eq]
        decide
      · simp only [List.mem_singleton, forall_eq]
        exact ⟨rfl, by simp, by simp, by simp⟩
    · exact ⟨rfl, rfl, by simp, by simp, by simp, by simp, by simp, by simp⟩

/-- With HTML escaping, which is the default, a supplier with an ampersand is read back as another one. -/
theorem C47_ampersand_false : ∃ (d e : Doc) (j : Json),
    d.spdxVersion = versionName .v23 ∧ writeJson insertionSorter .v23 true d = .ok j ∧
    readJsonInto insertionSorter (fun _ _ d => d) true .v23 j = .ok e ∧
    d.packages.map (·.supplier) = [some { supplierType := g!"Organization", supplier := g!"Tom & Jerry" }] ∧
    e.packages.map (·.supplier) = [some { supplierType := g!"Organization", supplier := g!"Tom \\u0026 Jerry" }] := by
  let d : Doc := { spdxVersion := g!"SPDX-2.3", spdxId := g!"DOCUMENT",
                   packages := [{ name := g!"p", spdxId := g!"p", supplier := some { supplierType := g!"Organization", supplier := g!"Tom & Jerry" } }] }
  have h : (match writeJson insertionSorter .v23 true d with
      | .ok j => match readJsonInto insertionSorter (fun _ _ d => d) true .v23 j with
        | .ok e => decide (e.packages.map (·.supplier) = [some { supplierType := g!"Organization", supplier := g!"Tom \\u0026 Jerry" }])
        | _ => false
      | _ => false) = true := by decide +kernel
  split at h
  · next j hj =>
    split at h
    · next e he => exact ⟨d, e, j, rfl, hj, he, rfl, of_decide_eq_true h⟩
    · cases h
  · cases h

/-- Reviews are lost. -/
theorem C47_review_false : ∃ (d e : Doc) (j : Json), JsonDocument true d ∧ d.spdxVersion = versionName .v23 ∧
    writeJson insertionSorter .v23 true d = .ok j ∧ readJsonInto insertionSorter (fun _ _ d => d) true .v23 j = .ok e ∧ e ≠ d := by
  let d : Doc := { spdxVersion := g!"SPDX-2.3", spdxId := g!"DOCUMENT", reviews := [{}] }
  have hd : JsonDocument true d :=
    ⟨jsonId_of (by decide) (by decide), by simp [d], by simp [d], by simp [d], by simp [d], by simp [d], by simp [d], by simp [d]⟩
  obtain ⟨j, h1, h2⟩ := C47_round_trip insertionSorter insertionSorter (fun _ _ d => d) .v23 true d hd rfl
  exact ⟨d, _, j, hd, rfl, h1, h2 j (like_refl j), fun e => by cases congrArg (fun d : Doc => d.reviews.length) e⟩

/-- However a text is written as a JSON string, with characters as they are, as short escapes, as codes in hexadecimal
digits of either case or as pairs of surrogates, a text field that is read from it holds the text. -/
theorem C47_spellings (s raw old : Str) (h : Spelled s raw) : strCodec.dec (.str raw) old = .ok s := by
  obtain ⟨us, h1, h2⟩ := units_spelled h
  simp only [strCodec, unescape, h1, Option.map_some, combine_units h2, Res.ofOption_some]

/-- A text, and a spelling with a short escape, a code and surrogates: for instance of the character 0x1F600. -/
example : Spelled ['a', '/', 'Ä', Char.ofNat 0x1F600] (g!"a\\/\\u00C4\\ud83d\\uDE00") := by
  refine .cons (t := ['a']) (.plain (by decide) (by decide)) (.cons (t := g!"\\/") .slash (.cons (t := g!"\\u00C4") ?_ (.cons (t := g!"\\ud83d\\uDE00") (r := []) ?_ .nil)))
  · exact .code (.mk (k := 0) (l := 0) (m := 12) (n := 4) (.inl rfl) (.inl rfl) (.inr rfl) (.inl rfl))
  · exact .surrogates (t := g!"d83d") (u := g!"DE00") (by decide)
      (.mk (k := 13) (l := 8) (m := 3) (n := 13) (.inl rfl) (.inl rfl) (.inl rfl) (.inl rfl))
      (.mk (k := 13) (l := 14) (m := 0) (n := 0) (.inr rfl) (.inr rfl) (.inl rfl) (.inl rfl))

end Verif
