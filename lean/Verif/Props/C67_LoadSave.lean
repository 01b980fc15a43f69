import Verif.Lemmas.Savable
import Verif.Props.C65_Transfer

/-!
# C67: loading a tag-value text and saving it
-/

namespace Verif
open Spec

/-- **C67.** A document read from a savable text can be represented in the tag-value format. -/
theorem C67_representable (v : Version) (tvs : List TVPair) (d : Doc) (savable : SavableText tvs)
    (loaded : parseTagValues v tvs = .ok (some d)) : Representable v d := by
  obtain ⟨-, h1, h2⟩ := (C61_document v tvs (savable_named savable) d).1 ⟨d, loaded, rfl,
    pointwise_refl (fun f => ⟨rfl, .refl _⟩) _, pointwise_refl (fun p => ⟨rfl, pointwise_refl (fun f => ⟨rfl, .refl _⟩) _⟩) _⟩
  exact savable_representable savable h1 h2

/-- **C67.** A document loaded from a savable text can be saved, and what is saved is loaded as the same document, in
order. -/
theorem C67_load_save (v : Version) (so : Sorter) (text : Str) (tvs : List TVPair) (d : Doc) (pairs : PairsOf text tvs)
    (savable : SavableText tvs) (loaded : (readTagValues text >>= parseTagValues v) = .ok (some d))
    (fit : ∀ saved, writeTagValue v so d = .ok saved → LinesFit saved) :
    ∃ saved, writeTagValue v so d = .ok saved ∧
      ∃ d', (readTagValues saved >>= parseTagValues v) = .ok (some d') ∧ SameDoc d d' ∧ InOrder d' := by
  rw [pairs_iff.2 pairs, Res.bind_ok] at loaded
  have hr := C67_representable v tvs d savable loaded
  obtain ⟨saved, hw⟩ := C12_representable_is_written v so d hr
  exact ⟨saved, hw, C12_write_then_read v so d saved hr hw (fit saved hw)⟩

/-- **C67.** Loading and saving once more changes nothing: what was saved is saved again as the same text, if the
identifiers that decide on the order are distinct. -/
theorem C67_saved_again (v : Version) (so so' : Sorter) (text saved : Str) (tvs : List TVPair) (d d' : Doc)
    (pairs : PairsOf text tvs) (savable : SavableText tvs)
    (loaded : (readTagValues text >>= parseTagValues v) = .ok (some d)) (distinct : DistinctIds d)
    (written : writeTagValue v so d = .ok saved) (fit : LinesFit saved)
    (again : (readTagValues saved >>= parseTagValues v) = .ok (some d')) : writeTagValue v so' d' = .ok saved := by
  rw [pairs_iff.2 pairs, Res.bind_ok] at loaded
  exact C12_write_is_stable v so so' d d' saved (C67_representable v tvs d savable loaded) distinct written fit again

/-- **C67.** What is saved says the same as what was loaded: the two texts describe the same documents. -/
theorem C67_says_the_same (v : Version) (so : Sorter) (text saved : Str) (tvs : List TVPair) (d : Doc)
    (pairs : PairsOf text tvs) (savable : SavableText tvs)
    (loaded : (readTagValues text >>= parseTagValues v) = .ok (some d)) (written : writeTagValue v so d = .ok saved)
    (fit : LinesFit saved) :
    ∃ tvs', PairsOf saved tvs' ∧ LegalText v tvs' ∧ ∀ a b, TextSays v tvs a → TextSays v tvs' b → SameDoc a b := by
  rw [pairs_iff.2 pairs, Res.bind_ok] at loaded
  obtain ⟨tvs', h1, -, -, h2, -, h3⟩ := C64_text_says v so d saved (C67_representable v tvs d savable loaded) written fit
  obtain ⟨-, -, h4⟩ := (C61_document v tvs (savable_named savable) d).1 ⟨d, loaded, rfl,
    pointwise_refl (fun f => ⟨rfl, .refl _⟩) _, pointwise_refl (fun p => ⟨rfl, pointwise_refl (fun f => ⟨rfl, .refl _⟩) _⟩) _⟩
  exact ⟨tvs', h1, h2, fun a b ha hb => sameDoc_trans (sameMaps_sameDoc (C61_one v tvs a d ha h4)) (h3 b hb)⟩

/-- **C67.** The same for the functions that look at the version: a savable text of a version is loaded and saved by
them, if all it says about the version is this version. -/
theorem C67_read_write (copy : Version → Version → Doc → Doc) (v : Version) (so : Sorter) (text : Str) (tvs : List TVPair)
    (d : Doc) (pairs : PairsOf text tvs) (savable : SavableText tvs) (named : ⟨g!"SPDXVersion", versionName v⟩ ∈ tvs)
    (only : ∀ p ∈ tvs, p.tag = g!"SPDXVersion" → p.value = versionName v)
    (loaded : readTagValueInto copy true v text = .ok d)
    (fit : ∀ saved, writeTagValue v so d = .ok saved → LinesFit saved) :
    ∃ saved e, writeTagValue v so d = .ok saved ∧ readTagValueInto copy true v saved = .ok e ∧ SameDoc d e := by
  have hf : ∃ name, FirstVersion tvs name := by
    clear loaded only savable pairs
    induction tvs with
    | nil => cases named
    | cons p ps ih =>
      by_cases hp : p.tag = g!"SPDXVersion"
      · exact ⟨p.value, [], ps, by rw [← hp]; rfl, by simp⟩
      · rcases List.mem_cons.1 named with e | h
        · exact absurd (e ▸ rfl) hp
        · obtain ⟨name, a, b, e, h2⟩ := ih h
          exact ⟨name, p :: a, b, by rw [e]; rfl, by
            intro q hq
            rcases List.mem_cons.1 hq with rfl | hq
            · exact hp
            · exact h2 q hq⟩
  obtain ⟨name, hf⟩ := hf
  have hname : name = versionName v := by
    obtain ⟨a, b, rfl, -⟩ := hf
    exact only ⟨g!"SPDXVersion", name⟩ (by simp) rfl
  subst hname
  have hn := savable_named savable
  obtain ⟨h1, h2⟩ := (C61_text copy v text tvs _ pairs hf (versionNamed_versionName v) hn d).1 ⟨d, loaded, rfl,
    pointwise_refl (fun f => ⟨rfl, .refl _⟩) _, pointwise_refl (fun p => ⟨rfl, pointwise_refl (fun f => ⟨rfl, .refl _⟩) _⟩) _⟩
  have hv : d.spdxVersion = versionName v := by
    have hm : values g!"SPDXVersion" tvs ≠ [] := List.ne_nil_of_mem (mem_values.2 ⟨_, named, rfl, rfl⟩)
    obtain ⟨p, hp, ht, e⟩ := mem_values.1 (lastValue_mem hm)
    rw [h2.document.version, ← e]
    exact only p hp ht
  obtain ⟨saved, e, h3, h4, h5⟩ := C65_tagvalue copy so v d (savable_representable savable h1 h2) hv fit
  exact ⟨saved, e, h3, h4, h5⟩

/-- **C67.** In a text without `<text>` all values are lines without surrounding white space, so the first two conditions
of `SavablePair` are met. -/
theorem C67_plain_text (text : Str) (tvs : List TVPair) (pairs : PairsOf text tvs) (plain : Without g!"<text>" text) :
    ∀ p ∈ tvs, GoodValue p.value ∧ '\n' ∉ p.value := by
  obtain ⟨ls, ⟨raw, h1, h2, h3⟩, h4⟩ := pairs
  have hraw : ∀ l ∈ raw, ∃ a b, text = a ++ l ++ b := by
    have key : ∀ (raw : List Str), ∀ l ∈ raw, ∃ a b, (raw.flatMap fun l => l ++ g!"\n") = a ++ l ++ b := by
      intro raw l hl
      obtain ⟨x, y, rfl⟩ := List.append_of_mem hl
      exact ⟨x.flatMap fun l => l ++ g!"\n", g!"\n" ++ y.flatMap fun l => l ++ g!"\n", by simp⟩
    intro l hl
    rcases h3 with rfl | ⟨front, last, rfl, -, rfl⟩
    · exact key raw l hl
    · rcases List.mem_append.1 hl with hl | hl
      · obtain ⟨a, b, e⟩ := key front l hl
        exact ⟨a, b ++ last, by rw [e]; simp⟩
      · obtain rfl := List.mem_singleton.1 hl
        exact ⟨front.flatMap fun l => l ++ g!"\n", [], by simp⟩
  have hls : ∀ l ∈ ls, '\n' ∉ l ∧ Without g!"<text>" l := by
    intro l hl
    obtain ⟨r, hr, hl⟩ := pointwise_mem h2 l hl
    obtain ⟨a, b, e⟩ := hraw r hr
    have hn := (h1 r hr).1
    have hw : contains g!"<text>" r = false := contains_part e (contains_false_iff.2 plain)
    rcases hl with rfl | ⟨rfl, -⟩
    · exact ⟨fun h => hn (by simp [h]), contains_false_iff.1 (contains_part (a := []) (b := g!"\r") (by simp) hw)⟩
    · exact ⟨hn, contains_false_iff.1 hw⟩
  clear h1 h2 h3 hraw plain
  have hno : ∀ {l tag rest body : Str}, Without g!"<text>" l → FieldLine l tag rest → TextOpened rest body → False := by
    rintro l tag rest body hl ⟨-, t, rfl, -⟩ ⟨b, rfl, -⟩
    exact hl (t ++ g!":" ++ b) body (by simp)
  induction h4 with
  | done => simp
  | skip _ _ ih => exact ih fun l hl => hls l (List.mem_cons_of_mem _ hl)
  | @plain l tag rest ls ps h hr hs ih =>
    intro p hp
    rcases List.mem_cons.1 hp with rfl | hp
    · obtain ⟨hn, hw⟩ := hls l (by simp)
      obtain ⟨-, t, e, -⟩ := h
      have h5 : '\n' ∉ trimSpace rest := fun hm => hn (by rw [e]; simp [mem_of_mem_trim hm])
      refine ⟨?_, h5⟩
      unfold GoodValue
      rw [if_neg h5]
      exact ⟨by simp [trimSpace], contains_trim (contains_false_iff.2 hr)⟩
    · exact ih (fun l hl => hls l (List.mem_cons_of_mem _ hl)) p hp
  | quoted h hr _ _ _ => exact (hno (hls _ (by simp)).2 h hr).elim
  | block h hr _ _ _ _ _ => exact (hno (hls _ (by simp)).2 h hr).elim

/-! ## A text that meets the conditions -/

instance (ps : List TVPair) : Decidable (NotAnalyzed ps) := by unfold NotAnalyzed; infer_instance

/-- A way to check a pair. -/
theorem savablePair_of {p : TVPair} (h1 : GoodValue p.value) (h2 : p.tag ∉ textTags → '\n' ∉ p.value)
    (h3 : p.tag ∈ [g!"PackageName", g!"FileName", g!"LicenseID"] → p.value ≠ [])
    (h4 : p.tag ∈ [g!"SPDXID", g!"SnippetSPDXID", g!"SnippetFromFileSPDXID", g!"SPDXREF"] → ∀ c ∈ p.value, isSpace c = false)
    (h5 : p.tag ∈ [g!"Relationship", g!"ExternalRef", g!"ExternalDocumentRef"] → ∀ c ∈ p.value, isSpace c = true → c = ' ')
    (h6 : p.tag ∈ [g!"Creator", g!"Annotator", g!"Reviewer", g!"PackageSupplier", g!"PackageOriginator", g!"PackageChecksum",
      g!"FileChecksum"] → p.value.getLast? ≠ some ':')
    (h7 : p.tag = g!"PackageVerificationCode" → (extractCodeAndExcludes p.value).value ≠ [])
    (h8 : p.tag = g!"ExternalDocumentRef" → ∀ w ∈ wordsOf p.value, w.count ':' ≤ 1 ∨ w.getLast? ≠ some ':')
    (h9 : p.tag = g!"SnippetByteRange" ∨ p.tag = g!"SnippetLineRange" →
      ∀ x ∈ (match cut g!":" p.value with | some (a, b) => [trimSpace a, trimSpace b] | none => []), atoi x ≠ some 0) :
    SavablePair p where
  tidy := h1
  oneLine := h2
  given := h3
  solid := h4
  spaces := h5
  named := by
    intro ht a e
    exact h6 ht (by rw [e]; simp)
  code := by
    intro ht c hc
    rw [code_one hc (codeReads_of p.value)]
    exact h7 ht
  algorithm := by
    intro ht e he
    obtain ⟨-, h | h⟩ := he
    · intro hm
      have := h8 ht (e.checksum.algorithm ++ g!":") (by rw [h]; simp)
      rcases this with h | h
      · have h' := List.count_pos_iff.2 hm
        rw [List.count_append] at h
        have : List.count ':' g!":" = 1 := by decide
        omega
      · simp at h
    · exact h.1
  range := by
    rintro ht a b ⟨x, y, e, h, rfl, rfl⟩
    have hc : cut g!":" p.value = some (x, y) := by rw [e]; simpa using cut_single (b := y) h
    have := h9 ht
    rw [hc] at this
    exact ⟨fun hn => this _ (by simp) (number_iff.1 hn), fun hn => this _ (by simp) (number_iff.1 hn)⟩

/-- A text with packages, files, a snippet, blocks of several lines, comments and blank lines; not in the order in
which documents are written. -/
def text67 : Str := g!"# a text\nSPDXVersion: SPDX-2.3\nDataLicense:CC0-1.0\nSPDXID: SPDXRef-DOCUMENT\nExternalDocumentRef: DocumentRef-z  http://z SHA1: 12\nExternalDocumentRef:DocumentRef-a http://a SHA1:34\nDocumentComment: <text>one\n two</text>\nCreator:  Tool:t\nFileName: loose\nSPDXID: SPDXRef-l\n\nPackageName: p\nSPDXID: SPDXRef-p\nPackageVersion: <text>1</text>\nPackageVerificationCode: d6a7(excludes: ./p.spdx)\nPackageChecksum: MD5: 98\nPackageSupplier: Organization: o\nExternalRef: SECURITY cpe23Type cpe:2.3:a\nExternalRefComment: c\nFileName: g\nSPDXID: SPDXRef-g\nSnippetSPDXID: SPDXRef-s\nSnippetFromFileSPDXID: SPDXRef-g\nSnippetByteRange: 1:+20\nFileName: f\nSPDXID: SPDXRef-f\nRelationship: SPDXRef-DOCUMENT  DESCRIBES DocumentRef-a:SPDXRef-p\nPackageName: b\nSPDXID: SPDXRef-b\nFilesAnalyzed: false\nLicenseID: LicenseRef-1\nExtractedText: <text>x\n\ny</text>\nReviewer: Person: r\nAnnotator: Person: a\nSPDXREF: SPDXRef-p\n"

/-- Its pairs. -/
def pairs67 : List TVPair := match readTagValues text67 with
  | .ok tvs => tvs
  | _ => []

/-- The sample meets the hypotheses, and what is saved is another text. -/
theorem C67_sample : PairsOf text67 pairs67 ∧ SavableText pairs67 ∧ ⟨g!"SPDXVersion", versionName .v23⟩ ∈ pairs67 ∧
    (∀ p ∈ pairs67, p.tag = g!"SPDXVersion" → p.value = versionName .v23) ∧
    ∃ d, (readTagValues text67 >>= parseTagValues .v23) = .ok (some d) ∧ DistinctIds d ∧
      d.packages.map (·.spdxId) = [g!"p", g!"b"] ∧ (allFiles d).map (·.spdxId) = [g!"l", g!"g", g!"f"] ∧
      ∃ saved, writeTagValue .v23 insertionSorter d = .ok saved ∧ LinesFit saved ∧ saved ≠ text67 := by
  refine ⟨pairs_iff.1 (by decide +kernel), ⟨?_, by decide +kernel, by decide +kernel, by decide +kernel⟩, by decide +kernel,
    by decide +kernel, ?_⟩
  · have h1 : ∀ p ∈ pairs67, GoodValue p.value ∧ (p.tag ∉ textTags → '\n' ∉ p.value) := by decide +kernel
    have h2 : ∀ p ∈ pairs67, (p.tag ∈ [g!"PackageName", g!"FileName", g!"LicenseID"] → p.value ≠ []) ∧
      (p.tag ∈ [g!"SPDXID", g!"SnippetSPDXID", g!"SnippetFromFileSPDXID", g!"SPDXREF"] → ∀ c ∈ p.value, isSpace c = false) := by
      decide +kernel
    have h3 : ∀ p ∈ pairs67, p.tag ∈ [g!"Relationship", g!"ExternalRef", g!"ExternalDocumentRef"] →
      ∀ c ∈ p.value, isSpace c = true → c = ' ' := by decide +kernel
    have h4 : ∀ p ∈ pairs67, p.tag ∈ [g!"Creator", g!"Annotator", g!"Reviewer", g!"PackageSupplier", g!"PackageOriginator",
      g!"PackageChecksum", g!"FileChecksum"] → p.value.getLast? ≠ some ':' := by decide +kernel
    have h5 : ∀ p ∈ pairs67, (p.tag = g!"PackageVerificationCode" → (extractCodeAndExcludes p.value).value ≠ []) := by
      decide +kernel
    have h6 : ∀ p ∈ pairs67, p.tag = g!"ExternalDocumentRef" →
      ∀ w ∈ wordsOf p.value, w.count ':' ≤ 1 ∨ w.getLast? ≠ some ':' := by decide +kernel
    have h7 : ∀ p ∈ pairs67, p.tag = g!"SnippetByteRange" ∨ p.tag = g!"SnippetLineRange" →
      ∀ x ∈ (match cut g!":" p.value with | some (a, b) => [trimSpace a, trimSpace b] | none => []), atoi x ≠ some 0 := by
      decide +kernel
    intro p hp
    exact savablePair_of (h1 p hp).1 (h1 p hp).2 (h2 p hp).1 (h2 p hp).2 (h3 p hp) (h4 p hp) (h5 p hp) (h6 p hp) (h7 p hp)
  · have h : (match readTagValues text67 >>= parseTagValues .v23 with
      | .ok (some d) => match writeTagValue .v23 insertionSorter d with
        | .ok saved => decide (d.packages.map (·.spdxId) = [g!"p", g!"b"] ∧ (allFiles d).map (·.spdxId) = [g!"l", g!"g", g!"f"] ∧
          (d.externalDocumentRefs.map (·.documentRefID)).Nodup ∧ (d.files.map (·.spdxId)).Nodup ∧
          (d.packages.map (·.spdxId)).Nodup ∧ (∀ p ∈ d.packages, (p.files.map (·.spdxId)).Nodup) ∧
          (∀ f ∈ d.files ++ d.packages.flatMap (·.files), (f.snippets.map (·.1)).Nodup) ∧ LinesFit saved ∧ saved ≠ text67)
        | _ => false
      | _ => false) = true := by decide +kernel
    split at h
    · rename_i d hd
      split at h
      · rename_i saved hw
        obtain ⟨h1, h2, h3, h4, h5, h6, h7, h8, h9⟩ := of_decide_eq_true h
        exact ⟨d, hd, ⟨h3, h4, h5, h6, h7⟩, h1, h2, saved, hw, h8, h9⟩
      · simp at h
    · simp at h

/-! ## What the conditions rule out -/

/-- A text of version 2.3 that begins with the version and a creator. -/
def C67_text (s : Str) : Str := g!"SPDXVersion: SPDX-2.3\nCreator: Tool: t\n" ++ s

/-- Load a text. -/
def C67_load (text : Str) : Res (Option Doc) := readTagValues text >>= parseTagValues .v23

/-- Load a text, save the document, and load what was saved. -/
def C67_reload (text : Str) : Res (Option Doc) := do
  match ← C67_load text with
  | some d => writeTagValue .v23 insertionSorter d >>= C67_load
  | none => .ok none

/-- Look at a part of the document. -/
def C67_see {α : Type} (f : Doc → α) (r : Res (Option Doc)) : Res (Option α) := r >>= fun o => .ok (o.map f)

/-- Spaces inside `<text>` are lost. -/
theorem C67_spaces_false :
    C67_see (fun d => d.packages.map (·.comment)) (C67_load (C67_text g!"PackageName: p\nSPDXID: SPDXRef-p\nPackageComment: <text> c</text>")) =
      .ok (some [g!" c"]) ∧
    C67_see (fun d => d.packages.map (·.comment)) (C67_reload (C67_text g!"PackageName: p\nSPDXID: SPDXRef-p\nPackageComment: <text> c</text>")) =
      .ok (some [g!"c"]) := by
  decide +kernel

/-- A version of two lines becomes a version and a comment. -/
theorem C67_lines_false :
    C67_see (fun d => d.packages.map fun p => (p.version, p.comment))
      (C67_load (C67_text g!"PackageName: p\nSPDXID: SPDXRef-p\nPackageVersion: <text>1\nPackageComment: 2</text>")) =
      .ok (some [(g!"1\nPackageComment: 2", [])]) ∧
    C67_see (fun d => d.packages.map fun p => (p.version, p.comment))
      (C67_reload (C67_text g!"PackageName: p\nSPDXID: SPDXRef-p\nPackageVersion: <text>1\nPackageComment: 2</text>")) =
      .ok (some [(g!"1", g!"2")]) := by
  decide +kernel

/-- `<text>` inside `<text>` is loaded, but what is saved cannot be loaded. -/
theorem C67_nested_false :
    C67_see (·.comment) (C67_load g!"SPDXVersion: SPDX-2.3\nDocumentComment: <text>a <text>b</text>\nCreator: Tool: t\n") =
      .ok (some g!"a <text>b") ∧
    C67_reload g!"SPDXVersion: SPDX-2.3\nDocumentComment: <text>a <text>b</text>\nCreator: Tool: t\n" = .err := by
  decide +kernel

/-- Packages, files and licenses without a name are loaded, but what is saved cannot be loaded. -/
theorem C67_unnamed_false :
    (C67_see (fun d => d.packages.length) (C67_load (C67_text g!"PackageName:\nSPDXID: SPDXRef-p\n")) = .ok (some 1) ∧
      C67_reload (C67_text g!"PackageName:\nSPDXID: SPDXRef-p\n") = .err) ∧
    (C67_see (fun d => d.files.length) (C67_load (C67_text g!"FileName:\nSPDXID: SPDXRef-f\n")) = .ok (some 1) ∧
      C67_reload (C67_text g!"FileName:\nSPDXID: SPDXRef-f\n") = .err) ∧
    (C67_see (fun d => d.otherLicenses.length) (C67_load (C67_text g!"LicenseID:\nExtractedText: x\n")) = .ok (some 1) ∧
      C67_reload (C67_text g!"LicenseID:\nExtractedText: x\n") = .err) := by
  refine ⟨⟨?_, ?_⟩, ⟨?_, ?_⟩, ?_, ?_⟩ <;> decide +kernel

/-- A supplier without a name is lost; so are an empty verification code and one of which only the exclusion is given. -/
theorem C67_empty_false :
    (C67_see (fun d => d.packages.map fun p => p.supplier.isSome)
      (C67_load (C67_text g!"PackageName: p\nSPDXID: SPDXRef-p\nPackageSupplier: Person:\n")) = .ok (some [true]) ∧
     C67_see (fun d => d.packages.map fun p => p.supplier.isSome)
      (C67_reload (C67_text g!"PackageName: p\nSPDXID: SPDXRef-p\nPackageSupplier: Person:\n")) = .ok (some [false])) ∧
    (C67_see (fun d => d.packages.map fun p => p.verificationCode.isSome)
      (C67_load (C67_text g!"PackageName: p\nSPDXID: SPDXRef-p\nPackageVerificationCode: (excludes: x)\n")) = .ok (some [true]) ∧
     C67_see (fun d => d.packages.map fun p => p.verificationCode.isSome)
      (C67_reload (C67_text g!"PackageName: p\nSPDXID: SPDXRef-p\nPackageVerificationCode: (excludes: x)\n")) = .ok (some [false])) := by
  decide +kernel

/-- A colon in the algorithm of an external document moves to its digest. -/
theorem C67_algorithm_false :
    C67_see (fun d => d.externalDocumentRefs.map (·.checksum))
      (C67_load g!"SPDXVersion: SPDX-2.3\nExternalDocumentRef: DocumentRef-d u A:B: c\nCreator: Tool: t\n") =
      .ok (some [⟨g!"A:B", g!"c"⟩]) ∧
    C67_see (fun d => d.externalDocumentRefs.map (·.checksum))
      (C67_reload g!"SPDXVersion: SPDX-2.3\nExternalDocumentRef: DocumentRef-d u A:B: c\nCreator: Tool: t\n") =
      .ok (some [⟨g!"A", g!"B:c"⟩]) := by
  decide +kernel

/-- Ranges that begin with zero are lost, and a snippet that does not name its file makes the saved text unreadable. -/
theorem C67_snippet_false :
    (C67_see (fun d => d.files.map fun f => f.snippets.map fun s => s.2.ranges.length)
      (C67_load (C67_text g!"FileName: f\nSPDXID: SPDXRef-f\nSnippetSPDXID: SPDXRef-s\nSnippetFromFileSPDXID: SPDXRef-f\nSnippetByteRange: 0:3\n")) =
      .ok (some [[1]]) ∧
     C67_see (fun d => d.files.map fun f => f.snippets.map fun s => s.2.ranges.length)
      (C67_reload (C67_text g!"FileName: f\nSPDXID: SPDXRef-f\nSnippetSPDXID: SPDXRef-s\nSnippetFromFileSPDXID: SPDXRef-f\nSnippetByteRange: 0:3\n")) =
      .ok (some [[0]])) ∧
    (C67_see (fun d => d.files.length) (C67_load (C67_text g!"FileName: f\nSPDXID: SPDXRef-f\nSnippetSPDXID: SPDXRef-s\n")) = .ok (some 1) ∧
     C67_reload (C67_text g!"FileName: f\nSPDXID: SPDXRef-f\nSnippetSPDXID: SPDXRef-s\n") = .err) := by
  decide +kernel

/-- A text that says nothing about its creation is loaded but cannot be saved. -/
theorem C67_creation_false :
    C67_see (·.spdxVersion) (C67_load g!"SPDXVersion: SPDX-2.3\n") = .ok (some g!"SPDX-2.3") ∧
    C67_reload g!"SPDXVersion: SPDX-2.3\n" = .err := by
  decide +kernel

/-- The verification code of a package whose files were not analyzed is lost, and so is the license information from
its files. -/
theorem C67_unanalyzed_false :
    C67_see (fun d => d.packages.map fun p => (p.verificationCode.isSome, p.licenseInfoFromFiles.length))
      (C67_load (C67_text g!"PackageName: p\nSPDXID: SPDXRef-p\nFilesAnalyzed: false\nPackageVerificationCode: c\nPackageLicenseInfoFromFiles: MIT\n")) =
      .ok (some [(true, 1)]) ∧
    C67_see (fun d => d.packages.map fun p => (p.verificationCode.isSome, p.licenseInfoFromFiles.length))
      (C67_reload (C67_text g!"PackageName: p\nSPDXID: SPDXRef-p\nFilesAnalyzed: false\nPackageVerificationCode: c\nPackageLicenseInfoFromFiles: MIT\n")) =
      .ok (some [(false, 0)]) := by
  decide +kernel

end Verif
