import Verif.Lemmas.Transfer
import Verif.Props.C64_WriteSays
import Verif.Props.C58_JsonText
import Verif.Props.C60_Yaml

/-!
# C65: passing a document on in several formats
-/

namespace Verif
open Spec

theorem versionNamed_versionName (v : Version) : VersionNamed (versionName v) v := by
  cases v
  · exact .inl ⟨rfl, rfl⟩
  · exact .inr (.inl ⟨rfl, rfl⟩)
  · exact .inr (.inr ⟨rfl, rfl⟩)

theorem sameDoc_refl (d : Doc) : SameDoc d d :=
  ⟨rfl, .refl _, ⟨_, .refl _, pointwise_refl (fun _ => ⟨rfl, .refl _⟩) _⟩,
    ⟨_, .refl _, pointwise_refl (fun _ => ⟨rfl, _, .refl _, pointwise_refl (fun _ => ⟨rfl, .refl _⟩) _⟩) _⟩⟩

/-- **C65.** Tag-value: a representable document is written, and read as the same document. -/
theorem C65_tagvalue (copy : Version → Version → Doc → Doc) (so : Sorter) (v : Version) (d : Doc) (hd : Representable v d)
    (hv : d.spdxVersion = versionName v) (fit : ∀ text, writeTagValue v so d = .ok text → LinesFit text) :
    ∃ text e, writeTagValue v so d = .ok text ∧ readTagValueInto copy true v text = .ok e ∧ SameDoc d e := by
  obtain ⟨text, hw⟩ := C12_representable_is_written v so d hd
  obtain ⟨e, h1, h2, -⟩ := C12_write_then_read v so d text hd hw (fit text hw)
  have hfit := fit text hw
  obtain ⟨ci, hc, hci⟩ := hd.creationInfo
  have hw' := hw
  simp only [writeTagValue, renderDocument, hc, Res.bind_ok, Res.ok.injEq] at hw'
  subst hw'
  have hr := read_items _ (fun i hi => ⟨shaped_body v so d ci i hi, clean_body so hd hci i hi⟩) hfit
  rw [hr, Res.bind_ok] at h1
  obtain ⟨r, hp⟩ := pairs_begin v so d ci (by rw [hv]; cases v <;> simp [versionName])
  have hf : FirstVersion (pairsOf (renderBody v so d ci)) (versionName v) := ⟨[], r, by rw [hp, hv]; rfl, by simp⟩
  obtain ⟨e', g1, g2⟩ := (C38_dispatch copy v _).2 _ _ v e hr hf (versionNamed_versionName v) h1
  unfold ConvertedTo at g2
  rw [if_pos rfl] at g2
  subst g2
  exact ⟨_, e', hw, g1, h2⟩

/-- **C65.** From tag-value to JSON: a document that was written as tag-value, read, written as JSON and read again is the
document without what JSON has no place for. -/
theorem C65_tagvalue_to_json (w : Surroundings) (hf : ∀ n, IsInt64 n → w.float (itoa n) = true) (v : Version) (html : Bool)
    (indent : Str) (hi : Blank indent) (d : Doc) (hd : Representable v d) (hj : JsonDocument html d)
    (hv : d.spdxVersion = versionName v) (fit : ∀ text, writeTagValue v w.so d = .ok text → LinesFit text) :
    ∃ e, SameDoc d e ∧ passAlong w v d [.tagValue, .json html indent] = .ok (keptDoc v e) := by
  obtain ⟨text, e, h1, h2, h3⟩ := C65_tagvalue w.copy w.so v d hd hv fit
  have hv' : e.spdxVersion = versionName v := by rw [h3.rest]; exact hv
  obtain ⟨s, h4, h5⟩ := C58_round_trip w.so w.so w.copy w.float hf w.odd v html indent hi e (jsonDocument_same h3 hj) hv'
  refine ⟨e, h3, ?_⟩
  simp only [passAlong, passOn, h1, h2, h4, h5, Res.bind_ok]

/-- One step: a document that is the same as one that both formats can carry in full is passed on in one format. -/
theorem pass_step (w : Surroundings) (hf : ∀ n, IsInt64 n → w.float (itoa n) = true) {v : Version} {d : Doc}
    (hd : Portable v d) (hy : ∀ e j, writeJson w.so v true e = .ok j → YamlKeeps w.y j) {e : Doc} (he : SameDoc d e) (f : Format)
    (hi : ∀ html indent, f = .json html indent → Blank indent) : ∃ e', passOn w v e f = .ok e' ∧ SameDoc d e' := by
  have hv : e.spdxVersion = versionName v := by rw [he.rest]; exact hd.version
  cases f with
  | tagValue =>
    obtain ⟨text, e', h1, h2, h3⟩ := C65_tagvalue w.copy w.so v e (representable_same he hd.tagValue) hv fun text ht =>
      hd.fit w.so text (by rw [C13_output_independent_of_order v w.so w.so d e he hd.distinct]; exact ht)
    exact ⟨e', by simp only [passOn, h1, h2, Res.bind_ok], sameDoc_trans he h3⟩
  | json html indent =>
    obtain ⟨s, h1, h2⟩ := C58_unchanged w.so w.so w.copy w.float hf w.odd v html indent (hi html indent rfl) e
      (jsonDocument_weaken (jsonDocument_same he hd.json)) hv (wholeDoc_same he hd.whole)
    exact ⟨e, by simp only [passOn, h1, h2, Res.bind_ok], he⟩
  | yaml =>
    obtain ⟨s, h1, h2⟩ := C60_round_trip w.y w.so w.so w.copy v e (jsonDocument_same he hd.json) hv (hy e)
    rw [keptDoc_whole (wholeDoc_same he hd.whole)] at h2
    exact ⟨e, by simp only [passOn, h1, h2, Res.bind_ok], he⟩

/-- **C65.** A document that both formats can carry in full survives being passed on in any number of formats in any
order: what arrives is the same document, and it is written as the same tag-value text. -/
theorem C65_pass_along (w : Surroundings) (hf : ∀ n, IsInt64 n → w.float (itoa n) = true) (v : Version) (d : Doc)
    (hd : Portable v d) (hy : ∀ e j, writeJson w.so v true e = .ok j → YamlKeeps w.y j) (fs : List Format)
    (hi : ∀ html indent, .json html indent ∈ fs → Blank indent) :
    ∃ e, passAlong w v d fs = .ok e ∧ SameDoc d e ∧ ∀ so so', writeTagValue v so e = writeTagValue v so' d := by
  have key : ∀ (fs : List Format), (∀ html indent, .json html indent ∈ fs → Blank indent) → ∀ e, SameDoc d e →
      ∃ e', passAlong w v e fs = .ok e' ∧ SameDoc d e' := by
    intro fs
    induction fs with
    | nil => intro _ e he; exact ⟨e, rfl, he⟩
    | cons f fs ih =>
      intro hi e he
      obtain ⟨e', h1, h2⟩ := pass_step w hf hd hy he f fun html indent h => hi html indent (by simp [h])
      obtain ⟨e'', h3, h4⟩ := ih (fun html indent h => hi html indent (by simp [h])) e' h2
      exact ⟨e'', by simp only [passAlong, h1, h3, Res.bind_ok], h4⟩
  obtain ⟨e, h1, h2⟩ := key fs hi d (sameDoc_refl d)
  exact ⟨e, h1, h2, fun so so' => (C13_output_independent_of_order v so' so d e h2 hd.distinct).symm⟩

/-- A document with packages out of order, a supplier, a verification code, a file with a checksum and an external reference. -/
def doc65 : Doc :=
  { spdxVersion := g!"SPDX-2.2", dataLicense := g!"CC0-1.0", spdxId := g!"DOCUMENT", name := g!"a \"b\" <c> & d",
    namespace_ := g!"https://example.com", comment := g!"two\nlines",
    externalDocumentRefs := [{ documentRefID := g!"ext", uri := g!"u", checksum := { algorithm := g!"SHA1", value := g!"00" } }],
    creationInfo := some { creators := [{ creator := g!"Jane", creatorType := g!"Person" }], created := g!"2020" },
    packages := [{ name := g!"q", spdxId := g!"q", filesAnalyzedTagPresent := true },
                 { name := g!"p", spdxId := g!"p", supplier := some { supplierType := g!"Organization", supplier := g!"Acme" },
                   filesAnalyzed := true, filesAnalyzedTagPresent := true,
                   verificationCode := some { value := g!"abc", excludedFiles := [g!"x"] },
                   externalRefs := [{ category := g!"PACKAGE-MANAGER", refType := g!"purl", locator := g!"l" }],
                   files := [{ name := g!"f", spdxId := g!"f", checksums := [{ algorithm := g!"SHA1", value := g!"01" }] }] }],
    relationships := [{ refA := { elementRefID := g!"DOCUMENT" }, refB := { elementRefID := g!"p" }, relationship := g!"DESCRIBES" }] }

theorem doc65_representable : Representable .v22 doc65 where
  spdxVersion := by decide
  dataLicense := by decide
  spdxId := by decide
  name := by decide
  namespace_ := by decide +kernel
  externalDocumentRefs := by
    intro e he
    simp only [doc65, List.mem_cons, List.not_mem_nil, or_false] at he
    subst he
    exact ⟨by decide, by decide, by decide, by decide⟩
  comment := by decide
  creationInfo := ⟨_, rfl, by decide, by decide, by decide, by decide, by decide⟩
  packages := by
    intro p hp
    simp only [doc65, List.mem_cons, List.not_mem_nil, or_false] at hp
    rcases hp with rfl | rfl
    · constructor <;> first | decide | rfl | (intro x hx; exact absurd hx (by simp))
    · constructor <;> first
        | decide +kernel
        | rfl
        | skip
      · intro c hc
        simp only [Option.mem_some_iff] at hc
        subst hc
        exact ⟨rfl, by decide +kernel, by decide +kernel, .inr ⟨_, rfl, by decide, by decide⟩⟩
      · intro r hr
        simp only [List.mem_cons, List.not_mem_nil, or_false] at hr
        subst hr
        exact ⟨by decide, by decide, by decide, by decide⟩
      · intro f hf
        simp only [List.mem_cons, List.not_mem_nil, or_false] at hf
        subst hf
        constructor <;> first | decide | rfl | (intro x hx; exact absurd hx (by simp))
  files := by simp [doc65]
  otherLicenses := by simp [doc65]
  relationships := by
    intro r hr
    simp only [doc65, List.mem_cons, List.not_mem_nil, or_false] at hr
    subst hr
    exact ⟨by decide, .inl (by decide), by decide, by decide⟩
  annotations := by simp [doc65]
  noSnippets := rfl
  reviews := by simp [doc65]

theorem doc65_json : JsonDocument true doc65 := by
  refine ⟨jsonId_of (by decide) (by decide), ?_, ?_, ?_, by simp [doc65], ?_, by simp [doc65], by simp [doc65]⟩
  · simp only [doc65, List.mem_singleton, forall_eq]
    exact jsonId_of (by decide) (by decide)
  · intro i hi c hc
    cases hi
    simp only [List.mem_singleton] at hc
    subst hc
    exact ⟨by decide, ⟨by decide, by decide, by decide, by decide, by decide⟩, fun _ => by decide, fun _ => by decide⟩
  · simp only [doc65, List.mem_cons, List.not_mem_nil, or_false]
    rintro p (rfl | rfl)
    · exact ⟨jsonId_of (by decide) (by decide), by simp, by simp, by simp, by simp⟩
    · refine ⟨jsonId_of (by decide) (by decide), ?_, by simp, ?_, by simp⟩
      · intro s hs
        cases hs
        exact ⟨.inr ⟨by decide, by decide, by decide, ⟨by decide, by decide, by decide, by decide, by decide⟩⟩, fun _ => by decide, fun _ => by decide⟩
      · simp only [List.mem_singleton, forall_eq]
        exact ⟨jsonId_of (by decide) (by decide), by simp⟩
  · simp only [doc65, List.mem_singleton, forall_eq]
    exact ⟨⟨.element _ (by decide) (by decide) (by decide), fun _ => by decide, fun _ => by decide⟩,
      ⟨.element _ (by decide) (by decide) (by decide), fun _ => by decide, fun _ => by decide⟩⟩

theorem doc65_whole : WholeDoc .v22 doc65 := by
  refine ⟨rfl, ?_, by simp [doc65], by simp [doc65], by simp [doc65]⟩
  simp only [doc65, List.mem_cons, List.not_mem_nil, or_false]
  rintro p (rfl | rfl)
  · exact ⟨rfl, rfl, by simp, by simp, by simp, by simp, by simp, by simp⟩
  · refine ⟨rfl, rfl, by decide, ?_, ?_, by simp, by simp, by simp⟩
    · intro _
      simp only [List.mem_singleton, forall_eq]
      decide
    · simp only [List.mem_singleton, forall_eq]
      exact ⟨rfl, by simp, by simp, by simp⟩

/-- It can be passed on, and is not in order. -/
theorem C65_sample : Portable .v22 doc65 ∧ ¬ InOrder doc65 := by
  have hd : DistinctIds doc65 := by constructor <;> decide
  refine ⟨⟨rfl, doc65_representable, doc65_json, doc65_whole, hd, fun so text h => ?_⟩, fun h => absurd h.packages (by unfold SortedBy; decide)⟩
  rw [C13_output_independent_of_order .v22 so insertionSorter doc65 doc65 (sameDoc_refl _) hd] at h
  have fits : (match writeTagValue .v22 insertionSorter doc65 with
    | .ok t => decide (LinesFit t)
    | _ => true) = true := by decide +kernel
  rw [h] at fits
  exact of_decide_eq_true fits

/-- There are surroundings that meet the hypotheses for every document. -/
example : ∃ w : Surroundings, (∀ n, IsInt64 n → w.float (itoa n) = true) ∧
    ∀ v e j, writeJson w.so v true e = .ok j → YamlKeeps w.y j := by
  refine ⟨⟨insertionSorter, fun _ _ d => d, jsonYaml, fun _ => true, fun _ => .err⟩, fun _ _ => rfl,
    fun v e j hj => ⟨j.text, rfl, fun _ => ⟨j, ?_, like_refl j⟩⟩⟩
  have hf := writeJson_fine (float := fun _ => true) (fun s _ r _ => ⟨⟨rfl, rfl⟩, ⟨rfl, rfl⟩⟩) hj
  exact scanJson_iff.2 ⟨[], j.text, [], by simp, blank_nil, blank_nil, text_spelt j hf.spelt, Nat.le_trans hf.flat (by decide)⟩

/-- A document of version 2.3 with a snippet. -/
def snippetDoc : Doc :=
  { spdxVersion := g!"SPDX-2.3", spdxId := g!"DOCUMENT", creationInfo := some { created := g!"2020" },
    packages := [{ name := g!"p", spdxId := g!"p", filesAnalyzed := true, filesAnalyzedTagPresent := true,
                   files := [{ name := g!"f", spdxId := g!"f", snippets := [(g!"s", { spdxId := g!"s", fromFile := g!"f" })] }] }] }

/-- **JSON loses the snippets of tag-value**: there they belong to files, and files are written without them. -/
theorem C65_snippets_false :
    (writeTagValue .v23 insertionSorter snippetDoc >>= readTagValueInto (fun _ _ d => d) true .v23) = .ok snippetDoc ∧
    (writeJson insertionSorter .v23 true snippetDoc >>= readJsonInto insertionSorter (fun _ _ d => d) true .v23) =
      .ok { snippetDoc with packages := [{ name := g!"p", spdxId := g!"p", filesAnalyzed := true, filesAnalyzedTagPresent := true,
                                           files := [{ name := g!"f", spdxId := g!"f" }] }] } := by
  decide +kernel

/-- **Tag-value loses the snippets of JSON**: there they belong to the document. -/
theorem C65_document_snippets_false :
    (writeJson insertionSorter .v23 true { snippetDoc with packages := [], snippets := [{ spdxId := g!"s", fromFile := g!"f" }] }
      >>= readJsonInto insertionSorter (fun _ _ d => d) true .v23) =
      .ok { snippetDoc with packages := [], snippets := [{ spdxId := g!"s", fromFile := g!"f" }] } ∧
    (writeTagValue .v23 insertionSorter { snippetDoc with packages := [], snippets := [{ spdxId := g!"s", fromFile := g!"f" }] }
      >>= readTagValueInto (fun _ _ d => d) true .v23) = .ok { snippetDoc with packages := [] } := by
  decide +kernel

end Verif
