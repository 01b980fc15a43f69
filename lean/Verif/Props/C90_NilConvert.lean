import Verif.Lemmas.ConvertTotal
import Verif.Lemmas.NilFields
import Verif.Props.C62_Convert
import Verif.Props.C66_NilEntries

/-!
# C90: converting documents with missing entries
-/

namespace Verif
open Spec

/-- **C90.** Converting a document with missing entries to another version does not fail or crash, and gives the same
document in that version: an entry that is missing from a list is missing at the same place, and nothing is lost but
what one of the two versions has no field for and the entries of missing snippets. -/
theorem C90_converted (lib : Copier) (a b : Version) (n : NDoc) (h : NSolid n) (hp : Proper n) :
    ∃ n', nConvertWith lib true a b n = .ok n' ∧ NSolid n' ∧ Proper n' ∧ ConvertedNDoc a b n n' := by
  obtain ⟨n', h1, h2, h3, h4, h5⟩ := nConvertWith_ok lib a b n h hp
  refine ⟨n', h1, h2, h3, h4, fun hne => ?_⟩
  obtain ⟨g1, g2, -⟩ := h5 hne
  rw [g1]
  exact ⟨versionName_names b, g2⟩

/-- **C62.** No document makes a conversion fail or crash, even one with empty structs. -/
theorem C62_total (lib : Copier) (a b : Version) (d : Doc) : ∃ d', convertWith lib true a b d = .ok d' :=
  convertWith_total lib a b d

/-- **C90.** Nor does one with missing entries. -/
theorem C90_total (lib : Copier) (a b : Version) (n : NDoc) : ∃ n', nConvertWith lib true a b n = .ok n' :=
  nConvertWith_total lib a b n

/-- **C90.** A document in which nothing is missing is converted as in C62. -/
theorem C90_plain (lib : Copier) (isPtr : Bool) (a b : Version) (d : Doc) (h : Solid d) :
    nConvertWith lib isPtr a b (ofDoc d) = (do let d' ← convertWith lib isPtr a b d; .ok (ofDoc d')) :=
  nConvertWith_of lib isPtr a b d h

/-- **C90.** The same entries are missing in the lists of the converted document. -/
theorem C90_missing (lib : Copier) (a b : Version) (n n' : NDoc) (h : NSolid n) (hp : Proper n)
    (hc : nConvertWith lib true a b n = .ok n') :
    n'.packages.map Option.isNone = n.packages.map Option.isNone ∧ n'.files.map Option.isNone = n.files.map Option.isNone ∧
    n'.otherLicenses = n.otherLicenses ∧ n'.relationships = n.relationships ∧ n'.annotations = n.annotations ∧
    n'.reviews = n.reviews ∧
    (a ≠ b → ∀ f, some f ∈ n'.files → ∀ e ∈ f.snippets, e.2 ≠ none) := by
  obtain ⟨m, h1, -, -, h4, h5⟩ := nConvertWith_ok lib a b n h hp
  obtain rfl : m = n' := Res.ok.inj (h1.symm.trans hc)
  by_cases hab : a = b
  · obtain rfl := h4 hab
    exact ⟨rfl, rfl, rfl, rfl, rfl, rfl, fun hne => absurd hab hne⟩
  · obtain ⟨-, h5, -⟩ := h5 hab
    have none_map : ∀ {α β : Type} (f : α → β), (Option.isNone ∘ Option.map f) = (Option.isNone : Option α → Bool) := by
      intro α β f; funext o; cases o <;> rfl
    have hf : m.files = n.files.map (Option.map (nFileIn (older a b))) := congrArg NDoc.files h5
    have e1 : m.otherLicenses = n.otherLicenses := by have := congrArg NDoc.otherLicenses h5; exact this
    have e2 : m.relationships = n.relationships := by have := congrArg NDoc.relationships h5; exact this
    have e3 : m.annotations = n.annotations := by have := congrArg NDoc.annotations h5; exact this
    have e4 : m.reviews = n.reviews := by have := congrArg NDoc.reviews h5; exact this
    refine ⟨?_, ?_, e1, e2, e3, e4, ?_⟩
    · have := congrArg (fun x => x.packages.map Option.isNone) h5
      simpa [nPlainCodes, nRestated, nDocumentIn, none_map] using this
    · rw [hf, List.map_map, none_map]
    · intro _ f hm e he
      rw [hf] at hm
      obtain ⟨g, -, rfl⟩ := mem_map_opt.1 hm
      exact there_in _ g e he

/-- **C90.** A document of an older version in which no snippet is missing comes back from a newer one as it was, with
its version stated and its missing entries in their places. -/
theorem C90_there_and_back (lib : Copier) (a b : Version) (n : NDoc) (h : NSolid n) (hp : Proper n) (hab : older a b = a)
    (hne : a ≠ b) (hin : nDocumentIn a n = n) (hc : nPlainCodes n = n) :
    ∃ n', nConvertWith lib true a b n = .ok n' ∧ nConvertWith lib true b a n' = .ok (nRestated (versionName a) n) := by
  obtain ⟨n1, h1, h2, h3, -, h4⟩ := nConvertWith_ok lib a b n h hp
  obtain ⟨-, h4, -⟩ := h4 hne
  obtain ⟨n2, g1, -, -, -, g4⟩ := nConvertWith_ok lib b a n1 h2 h3
  obtain ⟨-, g4, g5⟩ := g4 (Ne.symm hne)
  refine ⟨n1, h1, ?_⟩
  have ha : a ≠ .v23 := by
    rintro rfl
    cases b <;> simp_all [older]
  have ho : older b a = a := by
    cases a <;> cases b <;> simp_all [older]
  rw [g1, ← g5 ha, g4, nPlain_in, h4, ho, hab, hin, hc]
  exact congrArg (fun x => Res.ok (nRestated (versionName a) (nRestated (versionName b) x))) hin

/-! ## Reading into another version -/

theorem pointwise_source {α β : Type} {r : α → β → Prop} {xs : List α} {ys : List β} (h : Pointwise r xs ys) :
    ∀ y ∈ ys, ∃ x ∈ xs, r x y := by
  induction h with
  | nil => simp
  | cons h _ ih =>
    intro y hy
    rcases List.mem_cons.1 hy with rfl | hy
    · exact ⟨_, List.mem_cons_self, h⟩
    · obtain ⟨x, hx, hr⟩ := ih y hy
      exact ⟨x, List.mem_cons_of_mem _ hx, hr⟩

theorem hasOptions_mem {β : Type} {es : List (Str × Json)} {key : Str} {says : List (Str × Json) → β → Prop} {unset : β}
    {l : List (Option β)} (h : HasOptions es key says unset l) {x : β} (hx : some x ∈ l) : ∃ es', says es' x := by
  rcases h with ⟨-, rfl⟩ | ⟨j, -, h⟩
  · cases hx
  · rcases h with ⟨js, -, h⟩ | ⟨-, rfl⟩
    · obtain ⟨k, -, hk⟩ := pointwise_source h _ hx
      rcases hk with ⟨-, hk⟩ | ⟨hn, y, hy, hk⟩
      · cases hk
      · obtain rfl := Option.some.inj hy
        rcases hk with ⟨es', -, hk⟩ | ⟨hk, -⟩
        · exact ⟨es', hk⟩
        · exact absurd hk hn
    · cases hx

theorem properFile_read {v : Version} {es : List (Str × Json)} {f : NFile} (h : NFileIs v es f) : ProperFile f := by
  refine ⟨?_, h.rest.snippets⟩
  have := h.rest.artifacts
  by_cases hv : v = .v23
  · rw [if_pos hv] at this
    exact (has_without_mem (by simp)).1 this
  · rw [if_neg hv] at this
    exact this

/-- What is read has its lists in one place. -/
theorem proper_read {v : Version} {es : List (Str × Json)} {n : NDoc} (h : NDocumentIs v es n) : Proper n := by
  have key : ∀ {β : Type} {k : Str} {says : Json → List β → Prop} {l : List β},
      Has (without [g!"packages", g!"files", g!"hasExtractedLicensingInfos", g!"relationships", g!"annotations",
        g!"documentDescribes"] es) k says [] l →
      k ∈ [g!"packages", g!"files", g!"hasExtractedLicensingInfos", g!"relationships", g!"annotations", g!"documentDescribes"] →
      l = [] := fun h hk => (has_without_mem hk).1 h
  refine ⟨⟨key h.rest.packages (by simp), key h.rest.files (by simp), key h.rest.licenses (by simp), ?_,
    key h.rest.annotations (by simp), h.rest.reviews⟩, ?_, ?_⟩
  · obtain ⟨own, h1, h2⟩ := h.rest.relationships
    obtain rfl := key h1 (by simp)
    by_cases hv : v = .v21
    · rw [if_pos hv] at h2
      exact h2
    · rw [if_neg hv] at h2
      obtain ⟨ds, os, h3, h4, h5⟩ := h2
      obtain rfl := key h3 (by simp)
      obtain rfl := key h4 (by simp)
      exact h5
  · intro p hp
    obtain ⟨es', hp⟩ := hasOptions_mem h.packages hp
    refine ⟨(has_without_mem (by simp)).1 hp.rest.externalRefs, (has_without_mem (by simp)).1 hp.rest.files, ?_⟩
    intro f hf
    obtain ⟨es'', hf⟩ := hasOptions_mem hp.files hf
    exact properFile_read hf
  · intro f hf
    obtain ⟨es'', hf⟩ := hasOptions_mem h.files hf
    exact properFile_read hf

/-- **C90.** An object of one version with `null` in its lists, read into a variable of another version, gives what it
says in its own version, converted. -/
theorem C90_read_json (so : Sorter) (lib : Copier) (v w : Version) (es : List (Str × Json)) (n : NDoc)
    (ht : tidy (.obj es) true = true) (h1 : StatesVersion es v) (h2 : NDocumentIs v es n) (hs : NSolid n) :
    ∃ n', nReadJsonInto so lib true w (.obj es) = .ok n' ∧ ConvertedNDoc v w n n' := by
  obtain ⟨n', g1, -, -, g3⟩ := C90_converted lib v w n hs (proper_read h2)
  refine ⟨n', ?_, g3⟩
  obtain ⟨raw, name, e1, e2, e3⟩ := h1
  simp only [nReadJsonInto, Bool.not_true, Bool.false_eq_true, if_false, lastEntry_of_mem (tidy_obj ht).1 e1, e2,
    Option.bind_some, versionNamed_iff.2 e3, (C66_read so v es ht n).2 h2, Res.bind_ok, g1]

/-! ## Samples -/

/-- A document of version 2.3 in which entries of every kind are missing. -/
def doc90 : NDoc :=
  { doc := { spdxVersion := g!"SPDX-2.3", spdxId := g!"DOCUMENT", name := g!"d", snippets := [{ name := g!"t" }],
             creationInfo := some { created := g!"now" } }
    packages := [none, some
      { pkg := { name := g!"p", spdxId := g!"p", primaryPurpose := g!"SOURCE", attributionTexts := [g!"by s"] }
        externalRefs := [some { category := g!"OTHER" }, none]
        files := [none, some { file := { name := g!"f", spdxId := g!"f", attributionTexts := [g!"by f"] },
                               artifacts := [none, some { name := g!"a" }],
                               snippets := [(g!"r", none), (g!"s", some { spdxId := g!"s" })] }] }]
    files := [some { file := { name := g!"g", spdxId := g!"g" } }, none]
    otherLicenses := [none, some { licenseIdentifier := g!"LicenseRef-1" }]
    relationships := [some { relationship := g!"DESCRIBES" }, none]
    annotations := [none, some { comment := g!"a" }]
    reviews := [some { reviewer := g!"r" }, none] }

theorem doc90_ok : NSolid doc90 ∧ Proper doc90 := by
  constructor <;> constructor <;>
    simp [doc90, NSolidPackage, NSolidFile, ProperPackage, ProperFile]
  rintro _ _ (⟨-, rfl⟩ | ⟨-, rfl⟩) s hs
  · cases hs
  · cases hs; simp

/-- In version 2.1 the purpose and the attribution texts are gone, and the missing entries are where they were, but
that of the missing snippet. -/
theorem C90_sample : NSolid doc90 ∧ Proper doc90 ∧ ∀ lib, nConvertWith lib true .v23 .v21 doc90 = .ok
    { doc90 with
      doc := { doc90.doc with spdxVersion := g!"SPDX-2.1" }
      packages := [none, some
        { pkg := { name := g!"p", spdxId := g!"p" }
          externalRefs := [some { category := g!"OTHER" }, none]
          files := [none, some { file := { name := g!"f", spdxId := g!"f" },
                                 artifacts := [none, some { name := g!"a" }],
                                 snippets := [(g!"s", some { spdxId := g!"s" })] }] }] } := by
  refine ⟨doc90_ok.1, doc90_ok.2, fun lib => ?_⟩
  obtain ⟨n', h1, -, -, -, h4⟩ := nConvertWith_ok lib .v23 .v21 doc90 doc90_ok.1 doc90_ok.2
  obtain ⟨-, h5, h6⟩ := h4 (by decide)
  rw [h6 (by decide)] at h5
  rw [h1, h5]
  decide +kernel

/-- It comes back from 2.3: the hypotheses of `C90_there_and_back` are met by what is left of it in 2.1. -/
example : nDocumentIn .v21 (nDocumentIn .v21 doc90) = nDocumentIn .v21 doc90 ∧
    nPlainCodes (nDocumentIn .v21 doc90) = nDocumentIn .v21 doc90 ∧ NSolid (nDocumentIn .v21 doc90) ∧
    Proper (nDocumentIn .v21 doc90) := by
  refine ⟨by decide +kernel, by decide +kernel, ?_, ?_⟩ <;> constructor <;>
    simp [doc90, nDocumentIn, nPackageIn, nFileIn, documentIn, packageIn, fileIn, snippetIn, NSolidPackage, NSolidFile, ProperPackage,
      ProperFile]

/-- Converting a document to a newer version and back gives the document itself, whatever is missing from it: false for
a missing snippet, whose entry in the map of the file is gone. -/
theorem C90_snippet_false : ¬ ∀ (lib : Copier) (n : NDoc), NSolid n → Proper n →
    ∃ n', nConvertWith lib true .v21 .v23 n = .ok n' ∧ nConvertWith lib true .v23 .v21 n' = .ok (nRestated (versionName .v21) n) := by
  intro h
  have hn : NSolid { files := [some { file := { spdxId := g!"f" }, snippets := [(g!"s", none)] }] } ∧
      Proper { files := [some { file := { spdxId := g!"f" }, snippets := [(g!"s", none)] }] } := by
    constructor <;> constructor <;> simp [NSolidFile, ProperFile]
  obtain ⟨n', h1, h2⟩ := h ⟨false, false⟩ _ hn.1 hn.2
  have : (do let m ← nConvertWith ⟨false, false⟩ true .v21 .v23 { files := [some { file := { spdxId := g!"f" }, snippets := [(g!"s", none)] }] }
             nConvertWith ⟨false, false⟩ true .v23 .v21 m) ≠
      .ok (nRestated (versionName .v21) { files := [some { file := { spdxId := g!"f" }, snippets := [(g!"s", none)] }] }) := by
    decide +kernel
  rw [h1, Res.bind_ok, h2] at this
  exact this rfl

/-- The text of C66 with a file of its own and a date of creation. -/
def text90 : List (Str × Json) :=
  [(g!"spdxVersion", .str g!"SPDX-2.3"), (g!"SPDXID", .str g!"SPDXRef-DOCUMENT"), (g!"files", .arr [.null]),
   (g!"packages", .arr [.obj [(g!"name", .str g!"p"), (g!"SPDXID", .str g!"SPDXRef-P"), (g!"files", .arr [.null])], .null])]

/-- It is read into a variable of version 2.1 with its missing file and package. -/
example : tidy (.obj text90) true = true ∧ StatesVersion text90 .v23 ∧ ∃ n, NDocumentIs .v23 text90 n ∧ NSolid n ∧
    n.packages.map Option.isNone = [false, true] ∧ n.files = [none] := by
  have ht : tidy (.obj text90) true = true := by decide +kernel
  refine ⟨ht, ⟨g!"SPDX-2.3", g!"SPDX-2.3", by simp [text90], by decide +kernel, by simp [VersionNamed]⟩, ?_⟩
  refine ⟨{ doc := { spdxVersion := g!"SPDX-2.3", spdxId := g!"DOCUMENT" },
            packages := [some { pkg := { name := g!"p", spdxId := g!"P", filesAnalyzed := true }, files := [none] }, none],
            files := [none] }, (C66_read insertionSorter .v23 text90 ht _).1 (by decide +kernel), ?_, rfl, rfl⟩
  constructor <;> simp [NSolidPackage, NSolidFile]

end Verif
