import Verif.Lemmas.ConvertSteps
import Verif.Props.C57_JsonSays
import Verif.Props.C38_C39_ReadInto

/-!
# C62: converting documents between versions
-/

namespace Verif
open Spec

theorem versionName_names (v : Version) : VersionNamed (versionName v) v := by
  cases v <;> simp [VersionNamed, versionName]

/-- **C62.** Converting a document gives the same document in the other version: nothing is lost but what one of the
two versions has no field for, and nothing is added. -/
theorem C62_converted (lib : Copier) (a b : Version) (d : Doc) (h : Solid d) :
    ∃ d', convertWith lib true a b d = .ok d' ∧ Solid d' ∧ ConvertedDoc a b d d' := by
  obtain ⟨d', h1, h2, h3, h4⟩ := convertWith_ok lib a b d h
  refine ⟨d', h1, h2, h3, fun hne => ?_⟩
  obtain ⟨g1, g2, -⟩ := h4 hne
  rw [g1]
  exact ⟨versionName_names b, g2⟩

/-- **C62.** Converting a document to a newer version and back gives the document itself, with its version stated. -/
theorem C62_there_and_back (lib : Copier) (a b : Version) (d : Doc) (h : Solid d) (hab : older a b = a) (hne : a ≠ b)
    (hin : documentIn a d = d) (hp : plainCodes d = d) :
    ∃ d', convertWith lib true a b d = .ok d' ∧ convertWith lib true b a d' = .ok (restated (versionName a) d) := by
  obtain ⟨d1, h1, h2, -, h4⟩ := convertWith_ok lib a b d h
  obtain ⟨-, h4, -⟩ := h4 hne
  obtain ⟨d2, g1, -, -, g4⟩ := convertWith_ok lib b a d1 h2
  obtain ⟨-, g4, g5⟩ := g4 (Ne.symm hne)
  refine ⟨d1, h1, ?_⟩
  have ha : a ≠ .v23 := by
    rintro rfl
    cases b <;> simp_all [older]
  have ho : older b a = a := by
    cases a <;> cases b <;> simp_all [older]
  rw [g1, ← g5 ha, g4, plain_in, h4, ho, hab, hin, hp]
  exact congrArg (fun x => Res.ok (restated (versionName a) (restated (versionName b) x))) hin

/-- **C62.** A text of one version, read into a variable of another, gives what it is in its own version, converted. -/
theorem C62_read_tagvalue (lib : Copier) (v w : Version) (text : Str) (tvs : List TVPair) (name : Str) (d : Doc)
    (h1 : readTagValues text = .ok tvs) (h2 : FirstVersion tvs name) (h3 : VersionNamed name v)
    (h4 : parseTagValues v tvs = .ok (some d)) (hs : Solid d) :
    ∃ d', readTagValueInto (structCopied lib) true w text = .ok d' ∧ ConvertedDoc v w d d' := by
  obtain ⟨d', g1, -, g3⟩ := C62_converted lib v w d hs
  refine ⟨d', ?_, g3⟩
  have hv := stated_iff.2 ⟨name, h2, h3⟩
  have hne : tvs ≠ [] := by
    rintro rfl
    obtain ⟨b, a, hh, -⟩ := h2
    simp at hh
  simp only [readTagValueInto, Bool.not_true, Bool.false_eq_true, if_false, h1, Res.bind_ok, hne, hv, h4,
    convertDocument_with lib true v w d hs, g1]

/-- **C62.** An object of one version, read into a variable of another, gives what it says in its own version,
converted. -/
theorem C62_read_json (so : Sorter) (lib : Copier) (v w : Version) (es : List (Str × Json)) (d : Doc)
    (ht : tidy (.obj es) = true) (h1 : StatesVersion es v) (h2 : DocumentIs v es d) (hs : Solid d) :
    ∃ d', readJsonInto so (structCopied lib) true w (.obj es) = .ok d' ∧ ConvertedDoc v w d d' := by
  obtain ⟨d', g1, -, g3⟩ := C62_converted lib v w d hs
  refine ⟨d', ?_, g3⟩
  obtain ⟨raw, name, e1, e2, e3⟩ := h1
  simp only [readJsonInto, Bool.not_true, Bool.false_eq_true, if_false, lastEntry_of_mem (tidy_obj ht).1 e1, e2,
    Option.bind_some, versionNamed_iff.2 e3, (decodeDoc_iff so ht).2 h2, Res.bind_ok,
    convertDocument_with lib true v w d hs, g1]

/-- A document of version 2.3 with fields that older versions do not have. -/
def doc62 : Doc :=
  { spdxVersion := g!"SPDX-2.3", dataLicense := g!"CC0-1.0", spdxId := g!"DOCUMENT", name := g!"d"
    creationInfo := some { created := g!"now", creators := [{ creator := g!"c", creatorType := g!"Tool" }] }
    packages := [{ name := g!"p", spdxId := g!"p", supplier := some { supplier := g!"s" }, primaryPurpose := g!"SOURCE",
                   attributionTexts := [g!"by s"], verificationCode := some { value := g!"1" },
                   externalRefs := [{ category := g!"OTHER" }],
                   files := [{ name := g!"f", spdxId := g!"f", checksums := [{ algorithm := g!"MD5", value := g!"2" }],
                               artifactOfProjects := [{ name := g!"a" }], attributionTexts := [g!"by f"],
                               snippets := [(g!"s", { spdxId := g!"s", attributionTexts := [g!"by s"],
                                                      ranges := [{ startPointer := { offset := 3 } }] })] }] }]
    files := [{ name := g!"g", spdxId := g!"g", notice := g!"n" }]
    otherLicenses := [{ licenseIdentifier := g!"LicenseRef-1" }]
    relationships := [{ relationship := g!"DESCRIBES" }]
    annotations := [{ comment := g!"a" }]
    snippets := [{ name := g!"t" }]
    reviews := [{ reviewer := g!"r" }] }

theorem doc62_solid : Solid doc62 := by
  constructor <;> simp [doc62]

/-- It is converted to 2.1 without the fields that 2.1 does not have, and with all the others. -/
theorem C62_sample : Solid doc62 ∧ (∀ lib, ∃ d', convertWith lib true .v23 .v21 doc62 = .ok d' ∧
    d'.packages.map (fun p => (p.spdxId, p.attributionTexts, p.primaryPurpose, p.verificationCode)) =
      [(g!"p", [], [], some { value := g!"1" })] ∧
    d'.packages.flatMap (fun p => p.files.map fun f => (f.spdxId, f.checksums, f.snippets.map fun e => e.2.ranges)) =
      [(g!"f", [{ algorithm := g!"MD5", value := g!"2" }], [[{ startPointer := { offset := 3 } }]])]) := by
  refine ⟨doc62_solid, fun lib => ?_⟩
  obtain ⟨d', h1, -, -, h4⟩ := convertWith_ok lib .v23 .v21 doc62 doc62_solid
  obtain ⟨-, h5, h6⟩ := h4 (by decide)
  rw [h6 (by decide)] at h5
  subst h5
  exact ⟨_, h1, by decide +kernel, by decide +kernel⟩

/-- A document of version 2.1 comes back from 2.3: its hypotheses are met by `doc62` without the newer fields. -/
example : Solid (documentIn .v21 doc62) ∧ older .v21 .v23 = .v21 ∧
    documentIn .v21 (documentIn .v21 doc62) = documentIn .v21 doc62 ∧
    plainCodes (documentIn .v21 doc62) = documentIn .v21 doc62 :=
  ⟨by constructor <;> simp [doc62, documentIn, packageIn, fileIn, snippetIn], rfl, documentIn_in _ _ _, by decide +kernel⟩

/-- Without `Solid`: if the library treats a pointer to an empty struct as nil, an empty supplier is gone after
converting there and back. -/
theorem C62_empty_false : ∃ d : Doc, documentIn .v21 d = d ∧ plainCodes d = d ∧
    ¬∃ d', convertWith ⟨true, false⟩ true .v21 .v23 d = .ok d' ∧
      convertWith ⟨true, false⟩ true .v23 .v21 d' = .ok (restated (versionName .v21) d) := by
  refine ⟨{ packages := [{ spdxId := g!"p", supplier := some {} }] }, by decide +kernel, by decide +kernel, ?_⟩
  rintro ⟨d', h1, h2⟩
  have : (do let e ← convertWith ⟨true, false⟩ true .v21 .v23 ({ packages := [{ spdxId := g!"p", supplier := some {} }] } : Doc)
             convertWith ⟨true, false⟩ true .v23 .v21 e) ≠
      .ok (restated (versionName .v21) { packages := [{ spdxId := g!"p", supplier := some {} }] }) := by decide +kernel
  rw [h1, Res.bind_ok, h2] at this
  exact this rfl

end Verif
