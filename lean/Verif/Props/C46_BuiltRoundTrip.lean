import Verif.Spec.PlainBuild
import Verif.Props.C12_RoundTrip
import Verif.Props.C45_IdsDocument

/-!
# C46: built documents survive being written and read
-/

namespace Verif
open Spec

theorem contains_text_false {s : Str} (h : '<' ∉ s) : contains g!"<text>" s = false := by
  rw [contains_false_iff]
  rintro a b rfl
  exact h (by simp)

theorem hex_char {c : Char} (h : c ∈ ['0', '1', '2', '3', '4', '5', '6', '7', '8', '9', 'a', 'b', 'c', 'd', 'e', 'f']) :
    isSpace c = false ∧ c ≠ '<' ∧ c ≠ '(' ∧ c ≠ '\n' := by
  revert c; decide

theorem hex_word {s : Str} (h : IsHex s) : Word s :=
  ⟨h.1, fun c hc => (hex_char (h.2 c hc)).1, contains_text_false fun hc => (hex_char (h.2 _ hc)).2.1 rfl⟩

theorem hex_code {s : Str} (h : IsHex s) : contains g!"(excludes:" s = false := by
  rw [contains_false_iff]
  rintro a b rfl
  exact (hex_char (h.2 '(' (by simp))).2.2.1 rfl

theorem digit_word (n : Nat) : Ident (g!"File" ++ natDigits n) := by
  have hd : ∀ c ∈ natDigits n, isSpace c = false ∧ c ≠ '<' ∧ c ≠ ':' := by
    intro c hc
    have := natDigits_digits hc
    refine ⟨isSpace_of_isDigit this, ?_, ?_⟩ <;> (rintro rfl; revert this; decide)
  refine ⟨⟨by simp, ?_, ?_⟩, ?_⟩
  · intro c hc
    rcases List.mem_append.1 hc with hc | hc
    · clear hd; exact (by decide : ∀ c ∈ g!"File", isSpace c = false) c hc
    · exact (hd c hc).1
  · refine contains_text_false fun hc => ?_
    rcases List.mem_append.1 hc with hc | hc
    · revert hc; decide
    · exact (hd _ hc).2.1 rfl
  · intro hc
    rcases List.mem_append.1 hc with hc | hc
    · revert hc; decide
    · exact (hd _ hc).2.2 rfl

theorem package_ident {name : Str} (h : Ident name) : Ident (g!"Package-" ++ name) := by
  have := word_sep (a := g!"Package") (c := '-') (by decide) h.1.2 (by decide) (by decide)
  refine ⟨this, ?_⟩
  have h2 := h.2
  simp [h2]

theorem path_line {p : List Str} (hp : p ≠ []) (h : OneLine (pathText p)) : Line1 (g!"." ++ pathText p) := by
  obtain ⟨a, q, rfl⟩ := List.exists_cons_of_ne_nil hp
  have hl : Line1 (pathText (a :: q)) := ⟨by simp [pathText], h⟩
  have he := (LineEnd.of_line1 hl).cons (c := '.') (by decide) (by decide)
  refine ⟨by simp, he.nl, trim_eq_self_iff.2 ⟨?_, he.last⟩, he.tx⟩
  intro x t e
  simp only [List.cons_append, List.nil_append, List.cons.injEq] at e
  rw [← e.1]; decide

theorem good_of_oneLine {s : Str} (h : OneLine s) : GoodValue s := by
  unfold GoodValue
  rw [if_neg h.1]
  exact h.2

/-- Files with ordinary names and digests are representable. -/
theorem builtFile_rep {n : Nat} {p : List Str} {h : Str × Str × Str} (hp : p ≠ []) (hl : OneLine (pathText p))
    (hh : IsHex h.1 ∧ IsHex h.2.1 ∧ IsHex h.2.2) : RepFile .v23 (builtFile n p h) where
  name := path_line hp hl
  spdxId := digit_word n
  types := by simp [builtFile]
  checksums := by
    intro c hc
    simp only [builtFile, List.mem_cons, List.not_mem_nil, or_false] at hc
    rcases hc with rfl | rfl | rfl
    · exact ⟨by show g!"SHA1" ∈ algorithmsOf .v23; decide, line1_of_word (hex_word hh.1)⟩
    · exact ⟨by show g!"SHA256" ∈ algorithmsOf .v23; decide, line1_of_word (hex_word hh.2.1)⟩
    · exact ⟨by show g!"MD5" ∈ algorithmsOf .v23; decide, line1_of_word (hex_word hh.2.2)⟩
  licenseConcluded := by show OneLine g!"NOASSERTION"; decide
  licenseInfoInFiles := by
    intro x hx
    simp only [builtFile, List.mem_cons, List.not_mem_nil, or_false] at hx
    subst hx; decide
  licenseComments := by show GoodValue []; decide
  copyrightText := by show GoodValue g!"NOASSERTION"; decide
  artifacts := by simp [builtFile]
  comment := by show GoodValue []; decide
  notice := by show GoodValue []; decide
  contributors := by simp [builtFile]
  attributionTexts := by simp [builtFile]
  noAttribution21 := by simp [builtFile]
  dependencies := by simp [builtFile]
  snippets := by simp [builtFile]
  snippetKeys := by simp [builtFile]
  noAnnotations := by simp [builtFile]

theorem oneLine_nil : OneLine [] := by decide
theorem good_nil : GoodValue [] := by decide

/-- A built package is representable. -/
theorem built_package_rep (so : Sorter) (sha1 : Str → Str) (d : Disk) (now name : Str) (config : BuildConfig) (es : Entries)
    (dir : d.tree = .dir es) (clean : CleanRoot d.absRoot) (good : GoodTree d.tree)
    (plain : PlainBuild sha1 d now name config) (pkg : PackageV)
    (h : buildPackage so sha1 d name config.pathsIgnored = .ok pkg) : RepPackage .v23 pkg := by
  obtain ⟨paths, ⟨-, hsel⟩, hlen, hfiles, ⟨sorted, -, -, hcode⟩, hname, hid⟩ :=
    C33_package so sha1 d name config.pathsIgnored es dir clean good pkg h
  have hrest : ∃ files code, pkg =
    { name := name, spdxId := g!"Package-" ++ name, downloadLocation := g!"NOASSERTION",
      filesAnalyzed := true, filesAnalyzedTagPresent := true, verificationCode := some code,
      licenseConcluded := g!"NOASSERTION", licenseInfoFromFiles := [], licenseDeclared := g!"NOASSERTION",
      copyrightText := g!"NOASSERTION", files := files } := by
    unfold buildPackage at h
    rw [bind_eq_ok] at h
    obtain ⟨a, -, h⟩ := h
    rw [bind_eq_ok] at h
    obtain ⟨b, -, h⟩ := h
    rw [bind_eq_ok] at h
    obtain ⟨c, -, h⟩ := h
    simp only [Res.pure_eq, Res.ok.injEq] at h
    exact ⟨b, c, h.symm⟩
  obtain ⟨files, code, rfl⟩ := hrest
  have hc : code = ⟨sha1 sorted.flatten, []⟩ := by simpa using hcode
  subst hc
  have hfile : ∀ f ∈ files, RepFile .v23 f := by
    intro f hf
    obtain ⟨i, hi⟩ := List.mem_iff_getElem?.1 hf
    have hlt : i < paths.length := by
      have := (List.getElem?_eq_some_iff.1 hi).1
      simp only at hlen
      omega
    obtain ⟨dg, h1, h2⟩ := hfiles i _ (List.getElem?_eq_getElem hlt)
    simp only [hi, Option.some.injEq] at h2
    subst h2
    have hat := ((hsel _).1 (List.getElem_mem hlt)).1
    refine builtFile_rep ?_ (plain.paths _ hat) (plain.hashes _ _ _ _ h1)
    rw [dir] at hat
    intro e
    rw [e] at hat
    cases hat
  exact
    { packaged := rfl
      name := line1_of_word plain.packageName.1
      spdxId := package_ident plain.packageName
      version := oneLine_nil
      fileName := oneLine_nil
      supplier := by simp
      originator := by simp
      downloadLocation := by show OneLine g!"NOASSERTION"; decide
      filesAnalyzed := by simp
      verificationCode := by
        intro c hc
        simp only [Option.mem_def, Option.some.injEq] at hc
        subst hc
        exact ⟨rfl, line1_of_word (hex_word (plain.digest _)), hex_code (plain.digest _), .inl rfl⟩
      checksums := by simp
      homePage := oneLine_nil
      sourceInfo := good_nil
      licenseConcluded := by show OneLine g!"NOASSERTION"; decide
      licenseInfoFromFiles := by simp
      noLicenseInfo := by simp
      licenseDeclared := by show OneLine g!"NOASSERTION"; decide
      licenseComments := good_nil
      copyrightText := by show GoodValue g!"NOASSERTION"; decide
      summary := good_nil
      description := good_nil
      comment := good_nil
      externalRefs := by simp
      attributionTexts := by simp
      noAttribution21 := by simp
      primaryPurpose := oneLine_nil
      releaseDate := oneLine_nil
      builtDate := oneLine_nil
      validUntilDate := oneLine_nil
      only23 := by simp
      files := hfile
      noAnnotations := rfl }

/-- A built document is representable. -/
theorem built_rep (so : Sorter) (sha1 : Str → Str) (d : Disk) (now name : Str) (config : BuildConfig) (es : Entries)
    (dir : d.tree = .dir es) (clean : CleanRoot d.absRoot) (good : GoodTree d.tree)
    (plain : PlainBuild sha1 d now name config) (doc : Doc)
    (h : build so sha1 d now name config = .ok doc) : Representable .v23 doc := by
  unfold build at h
  rw [bind_eq_ok] at h
  obtain ⟨pkg, hp, h⟩ := h
  have hrep := built_package_rep so sha1 d now name config es dir clean good plain pkg hp
  obtain ⟨-, -, -, -, ⟨sorted, -, -, hcode⟩, -⟩ :=
    C33_package so sha1 d name config.pathsIgnored es dir clean good pkg hp
  simp only [hcode, Res.pure_eq, Res.ok.injEq] at h
  subst h
  refine
    { spdxVersion := by show OneLine g!"SPDX-2.3"; decide
      dataLicense := by show OneLine g!"CC0-1.0"; decide
      spdxId := .inr (by show Ident g!"DOCUMENT"; decide)
      name := (line1_of_word plain.packageName.1).2
      namespace_ := ?_
      externalDocumentRefs := by simp
      comment := good_nil
      creationInfo := ⟨_, rfl, ?_⟩
      packages := by
        intro p hp
        simp only [List.mem_cons, List.not_mem_nil, or_false] at hp
        subst hp; exact hrep
      files := by simp
      otherLicenses := by simp
      relationships := ?_
      annotations := by simp
      noSnippets := rfl
      reviews := by simp }
  · show OneLine (config.namespacePrefix ++ name ++ g!"-" ++ sprintCode ⟨sha1 sorted.flatten, []⟩)
    have hw := line1_of_word (hex_word (plain.digest sorted.flatten))
    have h1 : LineEnd (sha1 sorted.flatten ++ ' ' :: '[' :: ']' :: '}' :: []) := by
      refine (LineEnd.append ⟨hw.2.1, hw.2.2.2⟩ (by decide) ⟨by simp, by decide, ?_, by decide⟩ (by decide))
      intro c t e
      have : t = g!" []" ∧ c = '}' := by
        have e' := List.append_inj' (s₁ := g!" []") (t₁ := ['}']) e rfl
        exact ⟨e'.1.symm, by simpa using e'.2.symm⟩
      rw [this.2]; decide
    have h2 := (h1.cons (c := '{') (by decide) (by decide)).cons (c := '-') (by decide) (by decide)
    have h3 : Line1 (config.namespacePrefix ++ name) := ⟨by simp [plain.packageName.1.1], plain.place⟩
    have := (line1_append h3 (by decide) h2).2
    simpa [sprintCode, join] using this
  · exact
      { notEmpty := by simp [buildCreationInfo]
        licenseListVersion := oneLine_nil
        creators := by
          intro x hx
          simp only [buildCreationInfo, List.mem_cons, List.not_mem_nil, or_false] at hx
          rcases hx with rfl | rfl
          · exact ⟨by decide, by decide +kernel⟩
          · exact plain.creator
        created := plain.time
        creatorComment := good_nil }
  · intro r hr
    simp only [List.mem_cons, List.not_mem_nil, or_false] at hr
    subst hr
    exact ⟨by show RepRef ⟨[], g!"DOCUMENT", []⟩; decide, .inl ⟨package_ident plain.packageName, .inl rfl, rfl⟩, by show Word g!"DESCRIBES"; decide, good_nil⟩

/-- **C46.** A document built from ordinary inputs can be written as tag-value, and reading the text gives the
same document back. -/
theorem C46_built (so so' : Sorter) (sha1 : Str → Str) (d : Disk) (now name : Str) (config : BuildConfig) (es : Entries)
    (dir : d.tree = .dir es) (clean : CleanRoot d.absRoot) (good : GoodTree d.tree)
    (plain : PlainBuild sha1 d now name config) (doc : Doc) (h : build so sha1 d now name config = .ok doc) :
    ∃ text, writeTagValue .v23 so' doc = .ok text ∧ (LinesFit text →
      ∃ doc', (readTagValues text >>= parseTagValues .v23) = .ok (some doc') ∧ SameDoc doc doc' ∧ InOrder doc') := by
  have hrep := built_rep so sha1 d now name config es dir clean good plain doc h
  obtain ⟨text, ht⟩ := C12_representable_is_written .v23 so' doc hrep
  exact ⟨text, ht, fun fit => C12_write_then_read .v23 so' doc text hrep ht fit⟩

/-! ## With licenses -/

theorem inText_chars {text x : Str} (h : InText text x) : ∀ c ∈ x, IsIdChar c := by
  obtain ⟨l, -, b, a, t, -, -, -, y, -, rfl⟩ := h
  intro c hc
  simpa using (List.mem_filter.1 hc).2

theorem idChar_not_lt {c : Char} (h : IsIdChar c) : c ≠ '<' := by rintro rfl; revert h; decide

theorem name_oneLine {x n : Str} (hx : OneLine x) (hc : ∀ c ∈ x, IsIdChar c) (h : Names x n) : OneLine n := by
  obtain ⟨w, ⟨a, b, rfl, -, -, -⟩, ⟨l, r, rfl, -, h1, h2⟩, -, -⟩ := h
  refine ⟨fun hn => hx.1 (by simp [hn]), trim_eq_self_iff.2 ⟨h1, h2⟩, contains_text_false fun hlt => ?_⟩
  exact idChar_not_lt (hc '<' (by simp [hlt])) rfl

theorem grouped_line1 {x y : Str} (hx : Line1 x) (h : Grouped x y) : Line1 y := by
  rcases h with ⟨-, rfl⟩ | ⟨-, rfl⟩
  · have he : LineEnd (')' :: []) := ⟨by simp, by decide, by
      intro c t e
      have : c = ')' := by
        cases t with
        | nil => simpa using e.symm
        | cons a t => simp at e
      rw [this]; decide, by decide⟩
    have h1 := line1_append hx (by decide) he
    have h2 := (LineEnd.of_line1 h1).cons (c := '(') (by decide) (by decide)
    have h3 : Line1 ('(' :: (x ++ [')'])) := by
      refine ⟨by simp, h2.nl, trim_eq_self_iff.2 ⟨?_, h2.last⟩, h2.tx⟩
      intro c t e
      simp only [List.cons.injEq] at e
      rw [← e.1]; decide
    simpa using h3
  · exact hx

theorem join_line1 : ∀ (gs : List Str), gs ≠ [] → (∀ y ∈ gs, Line1 y) → Line1 (join g!" AND " gs)
  | [], h, _ => absurd rfl h
  | [y], _, h => h y (by simp)
  | y :: z :: l, _, h => by
    have ih := join_line1 (z :: l) (by simp) fun w hw => h w (by simp [hw])
    have h1 := (((((LineEnd.of_line1 ih).cons (c := ' ') (by decide) (by decide)).cons (c := 'D') (by decide) (by decide)).cons
      (c := 'N') (by decide) (by decide)).cons (c := 'A') (by decide) (by decide)).cons (c := ' ') (by decide) (by decide)
    have := line1_append (h y (by simp)) (by decide) h1
    simpa [join] using this

theorem concluded_line1 {ids : List Str} {c : Str} (hne : ids ≠ []) (h : ∀ x ∈ ids, Line1 x) (hc : ConcludesAll ids c) :
    Line1 c := by
  rcases hc with rfl | ⟨-, gs, hg, rfl⟩
  · exact h c (by simp)
  · have : (∀ y ∈ gs, Line1 y) ∧ (ids ≠ [] → gs ≠ []) := by
      clear hne
      induction hg with
      | nil => simp
      | cons h1 _ ih =>
        refine ⟨?_, by simp⟩
        intro y hy
        rcases List.mem_cons.1 hy with rfl | hy
        · exact grouped_line1 (h _ (by simp)) h1
        · exact (ih fun x hx => h x (by simp [hx])).1 y hy
    exact join_line1 gs (this.2 hne) this.1

theorem mentions_oneLine {d : Disk} {patterns : List Str} (tags : PlainTags d patterns) {name n : Str}
    (h : Mentions d patterns name n) : OneLine n := by
  obtain ⟨x, hx, hn⟩ := h
  have hl := tags name x hx
  obtain ⟨-, text, -, ht⟩ := hx
  exact name_oneLine hl.2 (inText_chars ht) hn

theorem searched_rep {d : Disk} {patterns : List Str} (tags : PlainTags d patterns) {f g : FileV}
    (hf : RepFile .v23 f) (h : FileSearched d patterns f g) : RepFile .v23 g := by
  have key : OneLine g.licenseConcluded ∧ ∀ x ∈ g.licenseInfoInFiles, OneLine x := by
    by_cases hm : ∃ n, Mentions d patterns f.name n
    · obtain ⟨⟨-, hl⟩, ids, ⟨-, hids⟩, hc⟩ := h.something hm
      refine ⟨?_, fun x hx => mentions_oneLine tags ((hl x).1 hx)⟩
      obtain ⟨n, x, hx, -⟩ := hm
      exact (concluded_line1 (fun e => by have := (hids x).2 hx; simp [e] at this)
        (fun y hy => tags _ y ((hids y).1 hy)) hc).2
    · obtain ⟨h1, h2⟩ := h.nothing hm
      rw [h1, h2]
      refine ⟨by decide, ?_⟩
      intro x hx
      simp only [List.mem_cons, List.not_mem_nil, or_false] at hx
      subst hx; decide
  rw [h.rest]
  exact { hf with licenseConcluded := key.1, licenseInfoInFiles := key.2 }

theorem ids_rep {d : Disk} {patterns : List Str} (tags : PlainTags d patterns) {p q : PackageV}
    (hp : RepPackage .v23 p) (ha : p.filesAnalyzed = true) (h : PackageSearched d patterns p q) : RepPackage .v23 q := by
  have hfiles : ∀ g ∈ q.files, RepFile .v23 g := by
    have hpf := hp.files
    have hpw := h.files
    generalize p.files = l at hpf hpw
    generalize q.files = m at hpw
    induction hpw with
    | nil => simp
    | cons h1 _ ih =>
      intro g hg
      rcases List.mem_cons.1 hg with rfl | hg
      · exact searched_rep tags (hpf _ (by simp)) h1
      · exact ih (fun x hx => hpf x (by simp [hx])) g hg
  have hinfo : ∀ x ∈ q.licenseInfoFromFiles, OneLine x := by
    by_cases hm : ∃ f ∈ p.files, ∃ n, Mentions d patterns f.name n
    · obtain ⟨-, hl⟩ := h.something hm
      intro x hx
      obtain ⟨f, -, hn⟩ := (hl x).1 hx
      exact mentions_oneLine tags hn
    · rw [h.nothing hm]
      intro x hx
      simp only [List.mem_cons, List.not_mem_nil, or_false] at hx
      subst hx; decide
  rw [h.rest]
  exact { hp with
    licenseInfoFromFiles := hinfo
    noLicenseInfo := fun hn => by simp [ha] at hn
    files := hfiles }

/-- A searched document is representable. -/
theorem ids_doc_rep (so : Sorter) (sha1 : Str → Str) (d : Disk) (now name nsPrefix : Str) (builderPatterns patterns : List Str)
    (es : Entries) (dir : d.tree = .dir es) (clean : CleanRoot d.absRoot) (good : GoodTree d.tree)
    (plain : PlainBuild sha1 d now name
      { namespacePrefix := nsPrefix, creatorType := g!"Tool",
        creator := g!"github.com/spdx/tools-golang/idsearcher", pathsIgnored := builderPatterns })
    (tags : PlainTags d patterns) (doc : Doc)
    (h : buildIDsDocument so sha1 d now name nsPrefix builderPatterns patterns = .ok doc) : Representable .v23 doc := by
  obtain ⟨built, p, q, hb, hp, rfl, hs⟩ := C45_licenses so sha1 d now name nsPrefix builderPatterns patterns doc h
  have hrep := built_rep so sha1 d now name _ es dir clean good plain built hb
  have ha : p.filesAnalyzed = true := by
    unfold plainDocument build at hb
    rw [bind_eq_ok] at hb
    obtain ⟨pkg, hpkg, hb⟩ := hb
    simp only [Res.pure_eq, Res.ok.injEq] at hb
    subst hb
    simp only [List.cons.injEq, and_true] at hp
    subst hp
    unfold buildPackage at hpkg
    rw [bind_eq_ok] at hpkg
    obtain ⟨a, -, hpkg⟩ := hpkg
    rw [bind_eq_ok] at hpkg
    obtain ⟨b, -, hpkg⟩ := hpkg
    rw [bind_eq_ok] at hpkg
    obtain ⟨c, -, hpkg⟩ := hpkg
    simp only [Res.pure_eq, Res.ok.injEq] at hpkg
    rw [← hpkg]
  have hq := ids_rep tags (hrep.packages p (by simp [hp])) ha hs
  exact
    { hrep with
      packages := by
        intro x hx
        simp only [List.mem_cons, List.not_mem_nil, or_false] at hx
        subst hx; exact hq }

/-- **C46.** Likewise for a document with the licenses of short-form identifiers, if these are one-line
texts. -/
theorem C46_ids (so so' : Sorter) (sha1 : Str → Str) (d : Disk) (now name nsPrefix : Str) (builderPatterns patterns : List Str)
    (es : Entries) (dir : d.tree = .dir es) (clean : CleanRoot d.absRoot) (good : GoodTree d.tree)
    (plain : PlainBuild sha1 d now name
      { namespacePrefix := nsPrefix, creatorType := g!"Tool",
        creator := g!"github.com/spdx/tools-golang/idsearcher", pathsIgnored := builderPatterns })
    (tags : PlainTags d patterns) (doc : Doc)
    (h : buildIDsDocument so sha1 d now name nsPrefix builderPatterns patterns = .ok doc) :
    ∃ text, writeTagValue .v23 so' doc = .ok text ∧ (LinesFit text →
      ∃ doc', (readTagValues text >>= parseTagValues .v23) = .ok (some doc') ∧ SameDoc doc doc' ∧ InOrder doc') := by
  have hrep := ids_doc_rep so sha1 d now name nsPrefix builderPatterns patterns es dir clean good plain tags doc h
  obtain ⟨text, ht⟩ := C12_representable_is_written .v23 so' doc hrep
  exact ⟨text, ht, fun fit => C12_write_then_read .v23 so' doc text hrep ht fit⟩

/-! ## A sample -/

def C46_disk : Disk := { C45_disk with hashes := fun _ => some (g!"a1", g!"b2", g!"c3") }

def C46_config : BuildConfig where
  namespacePrefix := g!"https://example.com/"
  creatorType := g!"Tool"
  creator := g!"github.com/spdx/tools-golang/idsearcher"

theorem C46_files {p : List Str} (h : FileAt C46_disk.tree p) : p ∈ [[g!"a"], [g!"b"], [g!"t", g!"c"]] := by
  simp only [C46_disk, C45_disk] at h
  cases h with
  | inside h =>
    cases h with
    | head h => cases h; decide
    | tail h =>
      cases h with
      | head h => cases h; decide
      | tail h =>
        cases h with
        | head h =>
          cases h with
          | inside h =>
            cases h with
            | head h => cases h; decide
            | tail h => cases h
        | tail h => cases h

theorem C46_good : CleanRoot C46_disk.absRoot ∧ GoodTree C46_disk.tree := by
  refine ⟨.inr ⟨by decide, ?_⟩, ?_⟩
  · rintro ⟨r, hr⟩
    have := (List.append_inj' (show g!"/" ++ g!"r" = r ++ g!"/" from hr) rfl).2
    simp at this
  · simp [C46_disk, C45_disk, GoodTree, GoodEntries, namesIn, IsName]

theorem C46_plain : PlainBuild (fun _ => g!"0f") C46_disk g!"2026-01-01T00:00:00Z" g!"p" C46_config where
  packageName := by decide
  place := by decide +kernel
  creator := by decide +kernel
  time := by decide +kernel
  digest _ := ⟨by simp, by decide⟩
  hashes p a b c h := by
    simp only [C46_disk, Option.some.injEq, Prod.mk.injEq] at h
    obtain ⟨rfl, rfl, rfl⟩ := h
    exact ⟨⟨by simp, by decide⟩, ⟨by simp, by decide⟩, ⟨by simp, by decide⟩⟩
  paths p h := by
    have := C46_files h
    clear h
    revert p; decide

theorem C46_tags : PlainTags C46_disk [] := by
  intro name x h
  have hm := ((foundIds insertionSorter C46_disk [] name rfl).2 x).2 h
  clear h
  simp only [C46_disk, C45_disk] at hm
  split at hm
  · revert x; decide +kernel
  · split at hm
    · revert x; decide +kernel
    · revert x; decide +kernel

def C46_trip (d : Disk) (name : Str) : Res (Option (List (List Str))) := do
  let doc ← buildIDsDocument insertionSorter (fun _ => g!"0f") d g!"2026-01-01T00:00:00Z" name g!"https://example.com/" [] []
  let text ← writeTagValue .v23 insertionSorter doc
  let pairs ← readTagValues text
  let doc' ← parseTagValues .v23 pairs
  .ok (doc'.map fun e => e.packages.flatMap fun p => p.licenseInfoFromFiles ::
    p.files.map fun f => f.name :: f.licenseConcluded :: f.licenseInfoInFiles)

theorem C46_sample : C46_trip C46_disk g!"p" = .ok (some
    [[g!"Apache-2.0", g!"BSD-3-Clause", g!"GPL-2.0", g!"MIT"],
     [g!"./a", g!"Apache-2.0 AND (MIT OR BSD-3-Clause)", g!"Apache-2.0", g!"BSD-3-Clause", g!"MIT"],
     [g!"./b", g!"NOASSERTION", g!"NOASSERTION"],
     [g!"./t/c", g!"GPL-2.0+", g!"GPL-2.0"]]) := by decide +kernel

/-- A package whose name has a space is built and written, but the text cannot be read. -/
theorem C46_space_in_name_false :
    (∃ doc text, buildIDsDocument insertionSorter (fun _ => g!"0f") C46_disk [] g!"my pkg" [] [] [] = .ok doc ∧
      writeTagValue .v23 insertionSorter doc = .ok text) ∧
    C46_trip C46_disk g!"my pkg" = .err := by
  refine ⟨?_, by decide +kernel⟩
  have h : (buildIDsDocument insertionSorter (fun _ => g!"0f") C46_disk [] g!"my pkg" [] [] [] >>=
    writeTagValue .v23 insertionSorter).isOk = true := by decide +kernel
  cases hb : buildIDsDocument insertionSorter (fun _ => g!"0f") C46_disk [] g!"my pkg" [] [] [] with
  | ok doc =>
    rw [hb, Res.bind_ok] at h
    cases hw : writeTagValue .v23 insertionSorter doc with
    | ok text => exact ⟨doc, text, rfl, hw⟩
    | err => rw [hw] at h; cases h
    | panic => rw [hw] at h; cases h
  | err => rw [hb] at h; cases h
  | panic => rw [hb] at h; cases h

/-- An identifier followed by a space and a character no identifier has keeps the space, and loses it when
written and read. -/
theorem C46_trailing_space_false :
    C45_found { C46_disk with text := fun _ => some g!"{# SPDX-License-Identifier: MIT #}" } [g!"**/b", g!"**/c"] =
      .ok [[g!"MIT"], [g!"./a", g!"MIT ", g!"MIT"], [g!"./b", g!"NOASSERTION", g!"NOASSERTION"],
        [g!"./t/c", g!"NOASSERTION", g!"NOASSERTION"]] ∧
    C46_trip { C46_disk with text := fun _ => some g!"{# SPDX-License-Identifier: MIT #}" } g!"p" =
      .ok (some [[g!"MIT"], [g!"./a", g!"MIT", g!"MIT"], [g!"./b", g!"MIT", g!"MIT"], [g!"./t/c", g!"MIT", g!"MIT"]]) :=
  ⟨by decide +kernel, by decide +kernel⟩

end Verif
