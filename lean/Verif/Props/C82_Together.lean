import Verif.Props.C82_Loaders

/-!
# C82: from a directory to a file to the screen
-/

namespace Verif
open Spec

/-! ## Patterns that have no effect -/

theorem slash_ignores_not {p name : Str} (h : Ignores (g!"/" ++ p) (g!"." ++ name)) : False := by
  generalize hx : g!"/" ++ p = x at h
  generalize hy : g!"." ++ name = y at h
  cases h with
  | exact dirs n _ _ _ => rw [← hx] at hy; cases hy
  | below dirs rest _ _ => rw [← hx] at hy; cases hy
  | empty => cases hx
  | anywhere n _ => cases hx
  | anywhereIn dirs n _ _ => cases hx
  | named a dirs b n _ _ _ => cases hx
  | under a dirs rest _ => cases hx

theorem slash_searched {patterns : List Str} (hp : ∀ p ∈ patterns, ∃ r, p = g!"/" ++ r) (name : Str) :
    shouldIgnore (g!"." ++ name) patterns = false := by
  rw [Bool.eq_false_iff]
  intro h
  obtain ⟨p, h1, h2⟩ := (C22_ignored_iff _ _).1 h
  obtain ⟨r, rfl⟩ := hp p h1
  exact slash_ignores_not h2

theorem searchFiles_slash (so : Sorter) (d : Disk) {patterns : List Str} (hp : ∀ p ∈ patterns, ∃ r, p = g!"/" ++ r)
    (files : List FileV) (hn : ∀ f ∈ files, ∃ r, f.name = g!"." ++ r) :
    ∀ m, searchFiles so d patterns files m = searchFiles so d [] files m := by
  induction files with
  | nil => intro m; rfl
  | cons f fs ih =>
    intro m
    obtain ⟨r, hr⟩ := hn f (by simp)
    have e : ∀ k, searchFile so d patterns f k = searchFile so d [] f k := by
      intro k
      simp only [searchFile, hr, slash_searched hp r, C22_no_patterns, Bool.false_eq_true, if_false]
    simp only [searchFiles, e, ih fun g hg => hn g (by simp [hg])]

theorem buildFiles_names (d : Disk) : ∀ (paths : List Str) (n : Nat) (files : List FileV), buildFiles d n paths = .ok files →
    ∀ f ∈ files, ∃ r, f.name = g!"." ++ r := by
  intro paths
  induction paths with
  | nil => intro n files h; cases h; simp
  | cons p ps ih =>
    intro n files h
    unfold buildFiles at h
    obtain ⟨f, h1, h⟩ := bind_eq_ok.1 h
    obtain ⟨fs, h2, h⟩ := bind_eq_ok.1 h
    cases h
    intro g hg
    rcases List.mem_cons.1 hg with rfl | hg
    · unfold buildFile at h1
      obtain ⟨x, -, h1⟩ := bind_eq_ok.1 h1
      cases h1
      exact ⟨p, rfl⟩
    · exact ih _ _ h2 g hg

/-- **C82.** Patterns that begin with a slash, such as both in the program, keep no file of any directory from being searched:
the document is the one without them. -/
theorem C82_unsearched (so : Sorter) (sha1 : Str → Str) (d : Disk) (now name nsPrefix : Str) (builderPatterns patterns : List Str)
    (hp : ∀ p ∈ patterns, ∃ r, p = g!"/" ++ r) :
    buildIDsDocument so sha1 d now name nsPrefix builderPatterns patterns =
      buildIDsDocument so sha1 d now name nsPrefix builderPatterns [] := by
  unfold buildIDsDocument
  cases hb : build so sha1 d now name _ with
  | err => rfl
  | panic => rfl
  | ok doc =>
    simp only [Res.bind_ok]
    have hf : ∀ p ∈ doc.packages, ∀ f ∈ p.files, ∃ r, f.name = g!"." ++ r := by
      unfold build at hb
      obtain ⟨pkg, hpkg, hb⟩ := bind_eq_ok.1 hb
      cases hb
      intro p hp
      simp only [List.mem_singleton] at hp
      subst hp
      unfold buildPackage at hpkg
      obtain ⟨paths, -, h⟩ := bind_eq_ok.1 hpkg
      obtain ⟨files, h2, h⟩ := bind_eq_ok.1 h
      obtain ⟨code, -, h⟩ := bind_eq_ok.1 h
      cases h
      exact buildFiles_names d _ _ _ h2
    split
    · next p hps => rw [searchFiles_slash so d hp p.files (hf p (by simp [hps]))]
    · rfl

/-! ## Loading what was saved -/

theorem same_files {l m : List FileV} (hs : ∀ f ∈ l, f.snippets = []) (h : SameFiles l m) : l.Perm m := by
  obtain ⟨l', h1, h2⟩ := h
  have hs' : ∀ f ∈ l', f.snippets = [] := fun f hf => hs f (h1.mem_iff.2 hf)
  have e : l' = m := by
    clear h1
    induction h2 with
    | nil => rfl
    | @cons a b l m h _ ih =>
      obtain ⟨e1, e2⟩ := h
      have ha := hs' a (by simp)
      rw [ha] at e2
      rw [List.nil_perm.1 e2] at e1
      rw [ih fun f hf => hs' f (by simp [hf]), e1]
      congr 1
      rw [← ha]
  rw [← e]; exact h1

/-- A document with one package that was saved by a program is loaded and shown. -/
theorem saved_then_loaded {k : Maker} {w : Workshop} {name root fileOut : Str} {m m' : Mishaps} {fs : FileSystem} {d : Doc} {p : PackageV}
    (hd : k.document w name root = .ok d) (hr : Representable .v23 d) (hv : d.spdxVersion = g!"SPDX-2.3") (hp : d.packages = [p])
    (ha : p.filesAnalyzed = true) (hs : ∀ f ∈ p.files, f.snippets = [])
    (fit : ∀ text, writeTagValue .v23 w.so d = .ok text → LinesFit text) (hc : m.createFails = false) (ht : m.TakesAll)
    (hf : m'.Faithful) (hab : m'.Absent) (so : Sorter) (copy : Version → Version → Doc → Doc) (creation : Option CreationInfo → Str)
    (reason prog prog' : Str) :
    ∃ x shown, (k.run w [prog, name, root, fileOut] m fs).getLast? = some x ∧ x.said = [.built name, .saved fileOut] ∧
      shown.Perm p.files ∧ SortedBy (·.spdxId) shown ∧
      tvLoader so copy creation reason [prog', fileOut] m' x.files = .text (loadedHead fileOut (creation d.creationInfo) ++
        packageLines { name := p.name, spdxId := p.spdxId, filesAnalyzed := true, files := shown }) := by
  obtain ⟨text, hw⟩ := C12_representable_is_written .v23 w.so d hr
  obtain ⟨e, g1, g2, g3⟩ := C12_write_then_read .v23 w.so d text hr hw (fit text hw)
  have hread : readTagValueInto copy true .v23 text = .ok e := by
    obtain ⟨text', e', h1, h2, -⟩ := C65_tagvalue copy w.so .v23 d hr hv fit
    rw [hw] at h1
    cases h1
    obtain ⟨ci, hc, hci⟩ := hr.creationInfo
    have hw' := hw
    simp only [writeTagValue, renderDocument, hc, Res.bind_ok, Res.ok.injEq] at hw'
    subst hw'
    have hrd := read_items _ (fun i hi => ⟨shaped_body .v23 w.so d ci i hi, clean_body w.so hr hci i hi⟩) (fit _ hw)
    rw [hrd, Res.bind_ok] at g1
    obtain ⟨r, hpb⟩ := pairs_begin .v23 w.so d ci (by rw [hv]; simp)
    have hf : FirstVersion (pairsOf (renderBody .v23 w.so d ci)) (versionName .v23) := ⟨[], r, by rw [hpb, hv]; rfl, by simp⟩
    obtain ⟨e', k1, k2⟩ := (C38_dispatch copy .v23 _).2 _ _ .v23 e hrd hf (versionNamed_versionName .v23) g1
    unfold ConvertedTo at k2
    rw [if_pos rfl] at k2
    subst k2
    exact k1
  obtain ⟨q, hq, hsame⟩ : ∃ q, e.packages = [q] ∧ SamePackage p q := by
    obtain ⟨l', h1, h2⟩ := g2.packages
    rw [hp] at h1
    rw [← List.singleton_perm.1 h1] at h2
    generalize e.packages = ps at h2
    cases h2 with
    | cons h1 h2 => cases h2; exact ⟨_, rfl, h1⟩
  have hlast := C82_works (k := k) (prog := prog) (fs := fs) (fileOut := fileOut) hd hw hc ht
  refine ⟨_, q.files, hlast, rfl, (same_files hs hsame.2).symm, g3.packageFiles q (by simp [hq]), ?_⟩
  have hci : e.creationInfo = d.creationInfo := by rw [g2.rest]
  have hsrc : readTagValueFrom copy true .v23 (m'.deliver text) = .ok e := by
    rw [(C63_pieces _ (hab.delivers text) true .v23).1 copy, hf text (hab.delivers text), hread]
  obtain ⟨shown, s1, s2, s3⟩ := C82_shows so creation reason fileOut e ⟨q, by simp [hq], .inl hq⟩
  have hsh : shown = [q] := by
    rw [hq] at s2
    have hm := (s3 q).2 ⟨by simp [hq], .inl hq⟩
    match shown, hm with
    | [x], hm => exact congrArg (· :: []) (List.mem_singleton.1 (s2.subset (List.mem_singleton.2 rfl)))
    | x :: y :: l, _ => exact absurd s2.length_le (by simp)
  subst hsh
  have hpl : packageLines q = packageLines { name := p.name, spdxId := p.spdxId, filesAnalyzed := true, files := q.files } := by
    have e1 : q.name = p.name := by rw [hsame.1]
    have e2 : q.spdxId = p.spdxId := by rw [hsame.1]
    have e3 : q.filesAnalyzed = true := by rw [hsame.1]; exact ha
    simp [packageLines, e1, e2, e3]
  simp only [tvLoader, loaderProgram, loadAndShow, hab.opens, Bool.false_eq_true, if_false, put_same, hsrc, ROut.ofRes, s1, hci,
    List.flatMap_cons, List.flatMap_nil, List.append_nil, hpl]

/-- The settings of the program that builds. -/
def Spec.buildSettings : BuildConfig where
  namespacePrefix := g!"https://example.com/whatever/testdata-"
  creatorType := g!"Person"
  creator := g!"Jane Doe"
  pathsIgnored := [g!"/.git/", g!"**/__pycache__/", g!"/.ignorefile", g!"**/.DS_Store"]

/-- The settings of the program that searches. -/
def Spec.searchSettings : BuildConfig :=
  { buildSettings with creatorType := g!"Tool", creator := g!"github.com/spdx/tools-golang/idsearcher" }

theorem builtEntries_bare (found : List Noted) : ∀ n, ∀ f ∈ builtEntries n found, f.snippets = [] := by
  induction found with
  | nil => intro n f hf; cases hf
  | cons e l ih =>
    intro n f hf
    rcases List.mem_cons.1 hf with rfl | hf
    · rfl
    · exact ih _ f hf

theorem builtEntries_named (found : List Noted) : ∀ n, ∀ f ∈ builtEntries n found, ∃ r, f.name = g!"." ++ r := by
  induction found with
  | nil => intro n f hf; cases hf
  | cons e l ih =>
    intro n f hf
    rcases List.mem_cons.1 hf with rfl | hf
    · exact ⟨_, rfl⟩
    · exact ih _ f hf

/-- **C82.** From a directory to the screen: an ordinary directory is built and saved, and the saved file is loaded.  What is
shown is the creation information and the files of the directory that are not ignored, up to fifty, in the order of
their identifiers, none with a license. -/
theorem C82_build_then_load (w : Workshop) (name root fileOut prog prog' : Str) (m m' : Mishaps) (fs : FileSystem)
    (dir : IsDirectory (w.disks root)) (readable : AllReadable (w.disks root) buildSettings.pathsIgnored)
    (plain : PlainBuild w.sha1 (w.disks root) w.now name buildSettings)
    (fit : ∀ d text, Maker.document .build w name root = .ok d → writeTagValue .v23 w.so d = .ok text → LinesFit text)
    (created : m.createFails = false) (taken : m.TakesAll) (faithful : m'.Faithful) (absent : m'.Absent) (so : Sorter)
    (copy : Version → Version → Doc → Doc) (creation : Option CreationInfo → Str) (reason : Str) :
    ∃ x found shown, (Maker.run .build w [prog, name, root, fileOut] m fs).getLast? = some x ∧
      x.said = [.built name, .saved fileOut] ∧ Inventory (w.disks root) buildSettings.pathsIgnored found ∧
      shown.Perm (builtEntries 0 found) ∧ SortedBy (·.spdxId) shown ∧
      tvLoader so copy creation reason [prog', fileOut] m' x.files = .text (loadedHead fileOut (creation (some
          { creators := [⟨g!"github.com/spdx/tools-golang/builder", g!"Tool"⟩, ⟨g!"Jane Doe", g!"Person"⟩], created := w.now })) ++
        packageLines { name := name, spdxId := g!"Package-" ++ name, filesAnalyzed := true, files := shown }) := by
  obtain ⟨es, hes⟩ := dir.dir
  obtain ⟨found, code, h1, -, h3⟩ := C74_document w.so w.sha1 (w.disks root) dir w.now name buildSettings readable
  have hr := built_rep w.so w.sha1 (w.disks root) w.now name buildSettings es hes dir.clean dir.good plain _ h3
  have hd : Maker.document .build w name root = .ok (wholeDocument found code w.now name buildSettings) := h3
  obtain ⟨x, shown, g1, g2, g3, g4, g5⟩ := saved_then_loaded (fileOut := fileOut) (m := m) (m' := m') (fs := fs) hd hr rfl rfl rfl
    (builtEntries_bare found 0) (fun text => fit _ text hd) created taken faithful absent so copy creation reason prog prog'
  exact ⟨x, found, shown, g1, g2, h1, g3, g4, g5⟩

theorem slash_tagged {patterns : List Str} (hp : ∀ p ∈ patterns, ∃ r, p = g!"/" ++ r) (d : Disk) (r : Str) :
    Tagged d patterns (g!"." ++ r) = Tagged d [] (g!"." ++ r) := by
  funext x
  unfold Tagged
  have h1 : ¬ ∃ q ∈ patterns, Ignores q (g!"." ++ r) := by
    rintro ⟨q, hq, h⟩
    obtain ⟨t, rfl⟩ := hp q hq
    exact slash_ignores_not h
  have h2 : ¬ ∃ q ∈ ([] : List Str), Ignores q (g!"." ++ r) := by simp
  rw [eq_true h1, eq_true h2]

theorem slash_file_searched {patterns : List Str} (hp : ∀ p ∈ patterns, ∃ r, p = g!"/" ++ r) {d : Disk} {f g : FileV}
    (hn : ∃ r, f.name = g!"." ++ r) (h : FileSearched d patterns f g) : FileSearched d [] f g := by
  obtain ⟨r, hr⟩ := hn
  have e : Mentions d patterns f.name = Mentions d [] f.name := by
    funext n
    unfold Mentions
    rw [hr, slash_tagged hp]
  obtain ⟨h1, h2, h3⟩ := h
  rw [e] at h2 h3
  rw [hr, slash_tagged hp, ← hr] at h3
  exact ⟨h1, h2, h3⟩

/-- **C82.** The same with the program that searches for short-form identifiers: each file is shown with the licenses that its
identifiers mention and the one they conclude, those in directories that the program means to leave out too. -/
theorem C82_search_then_load (w : Workshop) (name root fileOut prog prog' : Str) (m m' : Mishaps) (fs : FileSystem)
    (dir : IsDirectory (w.disks root)) (readable : AllReadable (w.disks root) searchSettings.pathsIgnored)
    (plain : PlainBuild w.sha1 (w.disks root) w.now name searchSettings) (tags : PlainTags (w.disks root) [])
    (fit : ∀ d text, Maker.document .search w name root = .ok d → writeTagValue .v23 w.so d = .ok text → LinesFit text)
    (created : m.createFails = false) (taken : m.TakesAll) (faithful : m'.Faithful) (absent : m'.Absent) (so : Sorter)
    (copy : Version → Version → Doc → Doc) (creation : Option CreationInfo → Str) (reason : Str) :
    ∃ x found listed shown, (Maker.run .search w [prog, name, root, fileOut] m fs).getLast? = some x ∧
      x.said = [.built name, .saved fileOut] ∧ Inventory (w.disks root) searchSettings.pathsIgnored found ∧
      Pointwise (FileSearched (w.disks root) []) (builtEntries 0 found) listed ∧ shown.Perm listed ∧ SortedBy (·.spdxId) shown ∧
      tvLoader so copy creation reason [prog', fileOut] m' x.files = .text (loadedHead fileOut (creation (some
          { creators := [⟨g!"github.com/spdx/tools-golang/builder", g!"Tool"⟩, ⟨g!"github.com/spdx/tools-golang/idsearcher", g!"Tool"⟩],
            created := w.now })) ++
        packageLines { name := name, spdxId := g!"Package-" ++ name, filesAnalyzed := true, files := shown }) := by
  obtain ⟨es, hes⟩ := dir.dir
  obtain ⟨found, code, h1, -, h3⟩ := C74_document w.so w.sha1 (w.disks root) dir w.now name searchSettings readable
  have hslash : ∀ p ∈ [g!"/Documentation/process/license-rules.rst", g!"/LICENSES/"], ∃ r, p = g!"/" ++ r := by
    intro p hp
    simp only [List.mem_cons, List.not_mem_nil, or_false] at hp
    rcases hp with rfl | rfl
    · exact ⟨g!"Documentation/process/license-rules.rst", rfl⟩
    · exact ⟨g!"LICENSES/", rfl⟩
  obtain ⟨d, hd⟩ : ∃ d, Maker.document .search w name root = .ok d := by
    have h3' := h3
    show ∃ d, buildIDsDocument w.so w.sha1 (w.disks root) w.now name searchSettings.namespacePrefix searchSettings.pathsIgnored _ = .ok d
    unfold buildIDsDocument
    have e : build w.so w.sha1 (w.disks root) w.now name _ = _ := h3
    unfold searchSettings buildSettings at e ⊢
    rw [e]
    exact ⟨_, rfl⟩
  have hb : buildIDsDocument w.so w.sha1 (w.disks root) w.now name searchSettings.namespacePrefix searchSettings.pathsIgnored
    [g!"/Documentation/process/license-rules.rst", g!"/LICENSES/"] = .ok d := hd
  have hr := ids_doc_rep w.so w.sha1 (w.disks root) w.now name _ _ _ es hes dir.clean dir.good plain
    (fun n x hx => tags n x ⟨by simp, hx.2⟩) d hb
  obtain ⟨built, p, q, b1, b2, b3, b4⟩ := C45_licenses w.so w.sha1 (w.disks root) w.now name _ _ _ d hb
  have b1' : build w.so w.sha1 (w.disks root) w.now name searchSettings = .ok built := b1
  rw [h3] at b1'
  cases b1'
  have hp : p = _ := (List.singleton_inj.1 b2).symm
  have hpw : Pointwise (FileSearched (w.disks root) []) (builtEntries 0 found) q.files := by
    have hq := b4.files
    rw [hp] at hq
    have hn := builtEntries_named found 0
    change Pointwise _ (builtEntries 0 found) _ at hq
    generalize builtEntries 0 found = l at hq hn
    generalize q.files = n at hq
    induction hq with
    | nil => exact .nil
    | cons h1 _ ih => exact .cons (slash_file_searched hslash (hn _ (by simp)) h1) (ih fun f hf => hn f (by simp [hf]))
  have hbare : ∀ f ∈ q.files, f.snippets = [] := by
    have hn := builtEntries_bare found 0
    clear b4
    generalize builtEntries 0 found = l at hpw hn
    generalize q.files = n at hpw
    induction hpw with
    | nil => intro f hf; cases hf
    | @cons a b l m h1 _ ih =>
      intro f hf
      rcases List.mem_cons.1 hf with rfl | hf
      · rw [h1.rest]; exact hn a (by simp)
      · exact ih (fun f hf => hn f (by simp [hf])) f hf
  have e1 : q.name = name := by rw [b4.rest, hp]
  have e2 : q.spdxId = g!"Package-" ++ name := by rw [b4.rest, hp]
  have e3 : q.filesAnalyzed = true := by rw [b4.rest, hp]
  subst b3
  obtain ⟨x, shown, g1, g2, g3, g4, g5⟩ := saved_then_loaded (fileOut := fileOut) (m := m) (m' := m') (fs := fs) hd hr rfl rfl e3
    hbare (fun text => fit _ text hd) created taken faithful absent so copy creation reason prog prog'
  rw [e1, e2] at g5
  exact ⟨x, found, q.files, shown, g1, g2, h1, hpw, g3, g4, g5⟩

/-! ## Showing attributes -/

theorem attributes_eq (d : Doc) : printAttributes d = attributesText d.name d.dataLicense d.namespace_ d.spdxVersion := by
  simp only [printAttributes, attributesText, List.flatMap_cons, List.flatMap_nil, List.append_assoc, List.append_nil]
  rfl

theorem attributes_converted {v : Version} {d e : Doc} (h : ConvertedDoc v .v23 d e) (hv : d.spdxVersion = versionName v) :
    printAttributes e = attributesText d.name d.dataLicense d.namespace_ g!"SPDX-2.3" := by
  rw [attributes_eq]
  by_cases hvv : v = .v23
  · subst hvv
    rw [h.1 rfl, hv]
    rfl
  · obtain ⟨h1, h2⟩ := h.2 hvv
    have e1 : e.name = d.name := by
      have := congrArg (fun d : Doc => d.name) h2
      exact this
    have e2 : e.dataLicense = d.dataLicense := by
      have := congrArg (fun d : Doc => d.dataLicense) h2
      exact this
    have e3 : e.namespace_ = d.namespace_ := by
      have := congrArg (fun d : Doc => d.namespace_) h2
      exact this
    have e4 : e.spdxVersion = g!"SPDX-2.3" := by
      rcases h1 with ⟨_, h⟩ | ⟨_, h⟩ | ⟨h, _⟩
      · cases h
      · cases h
      · exact h
    rw [e1, e2, e3, e4]

section
variable (lib : Copier) (v : Version) (file prog text : Str) (m : Mishaps) (fs : FileSystem) (es : List (Str × Json)) (d : Doc)

/-- **C82.** The loader of JSON shows what the text says, whatever version it states, as version 2.3. -/
theorem C82_attributes_json (so : Sorter) (float : Str → Bool) (odd : Str → Res Doc) (there : Delivers m fs file text)
    (ht : JsonTextOf text (.obj es)) (hn : Json.floats float (.obj es) = true) (hp : Json.agentsPlain (.obj es) = true)
    (tidied : tidy (.obj es) = true) (version : Spec.StatesVersion es v) (says : DocumentIs v es d) (solid : Verif.Solid d) :
    jsonLoader so (structCopied lib) float odd [prog, file] m fs = .text (g!"Successfully loaded " ++ file ++ g!"\n" ++
      attributesText d.name d.dataLicense d.namespace_ g!"SPDX-2.3") := by
  obtain ⟨e, h1, h2⟩ := C62_read_json so lib v .v23 es d tidied version says solid
  have hr : readJsonFrom so (structCopied lib) float odd true .v23 (m.deliver text) = .ok e := by
    rw [(C63_pieces _ there.whole true .v23).2.1, there.same, readJsonText_of so _ float odd .v23 ht, hn, hp]
    simpa using h1
  simp [jsonLoader, loaderProgram, loadAndShow, there.opens, there.exists_, hr, ROut.ofRes, printLoaded,
    attributes_converted h2 (version_loaded version says)]

/-- **C82.** The loader of YAML does likewise. -/
theorem C82_attributes_yaml (y : Yaml) (so : Sorter) (there : Delivers m fs file text) (ht : YamlTextOf y text (.obj es))
    (tidied : tidy (.obj es) = true) (version : Spec.StatesVersion es v) (says : DocumentIs v es d) (solid : Verif.Solid d) :
    yamlLoader y so (structCopied lib) [prog, file] m fs = .text (g!"Successfully loaded " ++ file ++ g!"\n" ++
      attributesText d.name d.dataLicense d.namespace_ g!"SPDX-2.3") := by
  obtain ⟨e, h1, h2⟩ := C62_read_json so lib v .v23 es d tidied version says solid
  have hr : readYamlFrom y so (structCopied lib) true .v23 (m.deliver text) = .ok e := by
    rw [(C63_pieces _ there.whole true .v23).2.2, there.same, readYamlText_of ht, h1]
  simp [yamlLoader, loaderProgram, loadAndShow, there.opens, there.exists_, hr, ROut.ofRes, printLoaded,
    attributes_converted h2 (version_loaded version says)]

/-- **C82.** So does the loader of RDF, which does not say that it loaded the file, and ignores further arguments. -/
theorem C82_attributes_rdf (triples : Str → Option Graph) (o : MapOrder) (g : Graph) (more : List Str) (there : Delivers m fs file text)
    (ht : triples text = some g) (says : readGraph o g = .ok d) (version : Rdf.StatesVersion g v) (roles : OneRole g)
    (names : DistinctNames g) (solid : Verif.Solid d) :
    rdfLoader triples (structCopied lib) o (prog :: file :: more) m fs =
      .text (attributesText d.name d.dataLicense d.namespace_ g!"SPDX-2.3") := by
  obtain ⟨e, h1, -, h2⟩ := readRdfInto_of lib .v23 says version roles names solid
  obtain ⟨-, -, hv⟩ := rdf_version says version roles names
  simp [rdfLoader, loadAndShow, there.opens, there.exists_, there.whole, there.same, ht, h1, attributes_converted h2 hv]

end

/-! ## Failures -/

theorem loader_ends {read : Source → ROut Doc} {print : Str → Doc → Res Str} (hread : ∀ src, read src ≠ .panic ∧ read src ≠ .cut)
    (hprint : ∀ f d, ∃ t, print f d = .ok t) (prog file : Str) (m : Mishaps) (fs : FileSystem) :
    (loaderProgram read print [prog, file] m fs = .cannotOpen file ∧ (m.openFails = true ∨ fs file = none)) ∨
      (∃ content, m.openFails = false ∧ fs file = some content ∧
        ((read (m.deliver content) = .err ∧ loaderProgram read print [prog, file] m fs = .cannotParse file) ∨
         ∃ d t, read (m.deliver content) = .ok d ∧ print file d = .ok t ∧ loaderProgram read print [prog, file] m fs = .text t)) := by
  unfold loaderProgram
  cases ho : m.openFails with
  | true => exact .inl ⟨by simp [loadAndShow, ho], .inl rfl⟩
  | false =>
    cases hf : fs file with
    | none => exact .inl ⟨by simp [loadAndShow, ho, hf], .inr rfl⟩
    | some content =>
      refine .inr ⟨content, rfl, rfl, ?_⟩
      cases hr : read (m.deliver content) with
      | err => exact .inl ⟨rfl, by simp [loadAndShow, ho, hf, hr]⟩
      | panic => exact absurd hr (hread _).1
      | cut => exact absurd hr (hread _).2
      | ok d =>
        obtain ⟨t, ht⟩ := hprint file d
        exact .inr ⟨d, t, rfl, ht, by simp [loadAndShow, ho, hf, hr, ht]⟩

theorem load_eq (k : FileKind) (w : Surroundings) (creation : Option CreationInfo → Str) (reason : Str)
    (ho : ∀ s, w.odd s ≠ .panic) : ∃ read print, k.load w creation reason = loaderProgram read print ∧
      (∀ src, read src ≠ .panic ∧ read src ≠ .cut) ∧ (∀ f d, ∃ t, print f d = .ok t) ∧
      ∀ src, (src.fails = true → read src = .err) ∧ (src.fails = false → read src = ROut.ofRes (readKind w k src.pieces.flatten)) := by
  have key : ∀ r : Source → Res Doc, (∀ src, (src.fails = true → r src = .err) ∧
      (src.fails = false → r src = readKind w k src.pieces.flatten)) →
      (∀ src, ROut.ofRes (r src) ≠ .panic ∧ ROut.ofRes (r src) ≠ .cut) ∧
      ∀ src, (src.fails = true → ROut.ofRes (r src) = .err) ∧
        (src.fails = false → ROut.ofRes (r src) = ROut.ofRes (readKind w k src.pieces.flatten)) := by
    intro r hr
    refine ⟨fun src => ?_, fun src => ⟨fun h => by rw [(hr src).1 h]; rfl, fun h => by rw [(hr src).2 h]⟩⟩
    have hp : r src ≠ .panic := by
      cases h : src.fails with
      | true => rw [(hr src).1 h]; simp
      | false =>
        rw [(hr src).2 h]
        cases k with
        | tagValue => exact C38_never_panics _ _ _ _
        | json => exact C59_never_panics _ _ _ _ ho _ _ _
        | yaml => exact C60_never_panics _ _ _ _ _ _
    cases h : r src with
    | ok d => simp [ROut.ofRes]
    | err => simp [ROut.ofRes]
    | panic => exact absurd h hp
  cases k with
  | tagValue =>
    obtain ⟨h1, h2⟩ := key (readTagValueFrom w.copy true .v23) fun src =>
      ⟨fun h => (C63_reader_fails src h true .v23).1 _, fun h => (C63_pieces src h true .v23).1 _⟩
    refine ⟨_, _, rfl, h1, fun f d => ?_, h2⟩
    have hp := (C82_shows_none w.so creation reason f d).2
    cases hd : printDocument w.so creation reason f d with
    | ok t => exact ⟨t, rfl⟩
    | panic => exact absurd hd hp
    | err =>
      unfold printDocument at hd
      split at hd <;> cases hd
  | json =>
    obtain ⟨h1, h2⟩ := key (readJsonFrom w.so w.copy w.float w.odd true .v23) fun src =>
      ⟨fun h => (C63_reader_fails src h true .v23).2.1 _ _ _ _, fun h => (C63_pieces src h true .v23).2.1 _ _ _ _⟩
    exact ⟨_, _, rfl, h1, fun f d => ⟨_, rfl⟩, h2⟩
  | yaml =>
    obtain ⟨h1, h2⟩ := key (readYamlFrom w.y w.so w.copy true .v23) fun src =>
      ⟨fun h => (C63_reader_fails src h true .v23).2.2 _ _ _, fun h => (C63_pieces src h true .v23).2.2 _ _ _⟩
    exact ⟨_, _, rfl, h1, fun f d => ⟨_, rfl⟩, h2⟩

/-- **C82.** The loaders of tag-value, JSON and YAML: with a wrong number of arguments they say how to use them; they show
something exactly if the file can be opened, delivers a text and the text is read as a document; otherwise they name
the file they could not open or parse.  They never panic, and exit with status 0 whatever happens. -/
theorem C82_ends (k : FileKind) (w : Surroundings) (creation : Option CreationInfo → Str) (reason : Str)
    (ho : ∀ s, w.odd s ≠ .panic) (m : Mishaps) (hm : m.Faithful) (fs : FileSystem) :
    (∀ args, args.length ≠ 2 → k.load w creation reason args m fs = .usage) ∧
    (∀ prog file, ((∃ t, k.load w creation reason [prog, file] m fs = .text t) ↔
        ∃ content d, Delivers m fs file content ∧ readKind w k content = .ok d) ∧
      ((∃ t, k.load w creation reason [prog, file] m fs = .text t) ∨
        k.load w creation reason [prog, file] m fs = if m.openFails = true ∨ fs file = none then .cannotOpen file else .cannotParse file)) ∧
    ∀ args, (k.load w creation reason args m fs).status false = 0 := by
  obtain ⟨read, print, he, h1, h2, h3⟩ := load_eq k w creation reason ho
  rw [he]
  have hu : ∀ args : List Str, args.length ≠ 2 → loaderProgram read print args m fs = .usage := by
    intro args h
    unfold loaderProgram
    split
    · simp at h
    · rfl
  refine ⟨hu, fun prog file => ?_, fun args => ?_⟩
  · rcases loader_ends h1 h2 prog file m fs with ⟨h4, h5⟩ | ⟨content, h4, h5, h6⟩
    · refine ⟨⟨fun ⟨t, ht⟩ => by (rw [h4] at ht; cases ht), ?_⟩, .inr (by rw [if_pos h5]; exact h4)⟩
      rintro ⟨content, d, hd, -⟩
      rcases h5 with h5 | h5
      · rw [hd.opens] at h5; cases h5
      · rw [hd.exists_] at h5; cases h5
    · have hno : ¬(m.openFails = true ∨ fs file = none) := by simp [h4, h5]
      rcases h6 with ⟨h6, h7⟩ | ⟨d, t, h6, h7, h8⟩
      · refine ⟨⟨fun ⟨t, ht⟩ => by (rw [h7] at ht; cases ht), ?_⟩, .inr (by rw [if_neg hno]; exact h7)⟩
        rintro ⟨c, d, hd, hr⟩
        have hc := hd.exists_
        rw [h5] at hc
        cases hc
        rw [(h3 _).2 hd.whole, hd.same, hr] at h6
        cases h6
      · refine ⟨⟨fun _ => ?_, fun _ => ⟨t, h8⟩⟩, .inl ⟨t, h8⟩⟩
        cases hf : (m.deliver content).fails with
        | true => rw [(h3 _).1 hf] at h6; cases h6
        | false =>
          refine ⟨content, d, ⟨h4, h5, hf, hm content hf⟩, ?_⟩
          rw [(h3 _).2 hf, hm content hf] at h6
          cases hk : readKind w k content with
          | ok e => rw [hk] at h6; cases h6; rfl
          | err => rw [hk] at h6; cases h6
          | panic => rw [hk] at h6; cases h6
  · by_cases ha : args.length = 2
    · match args, ha with
      | [prog, file], _ =>
        rcases loader_ends h1 h2 prog file m fs with ⟨h4, -⟩ | ⟨content, -, -, ⟨-, h7⟩ | ⟨d, t, -, -, h8⟩⟩
        · rw [h4]; rfl
        · rw [h7]; rfl
        · rw [h8]; rfl
    · rw [hu args ha]; rfl

/-- **C82.** The loader of RDF alone tells a caller about failures: it exits with status 0 exactly if it shows something. -/
theorem C82_status_rdf (triples : Str → Option Graph) (copy : Version → Version → Doc → Doc) (o : MapOrder) (args : List Str)
    (m : Mishaps) (fs : FileSystem) :
    (rdfLoader triples copy o args m fs).status true = 0 ↔ ∃ t, rdfLoader triples copy o args m fs = .text t := by
  cases rdfLoader triples copy o args m fs <;> simp [Shown.status]

/-- **C82.** What the loader of RDF does when something is amiss: without an argument it says how to use it; it names a file it
cannot open; and it names a file that it cannot parse if the file stops delivering, if the RDF library finds no triples in
it, or if no version the library knows is stated.  Nothing is shown then. -/
theorem C82_ends_rdf (triples : Str → Option Graph) (copy : Version → Version → Doc → Doc) (o : MapOrder) (m : Mishaps) (fs : FileSystem) :
    (∀ args, args.length < 2 → rdfLoader triples copy o args m fs = .usage) ∧
    ∀ prog file more,
      (m.openFails = true ∨ fs file = none → rdfLoader triples copy o (prog :: file :: more) m fs = .cannotOpen file) ∧
      ∀ text, m.openFails = false → fs file = some text →
        (m.deliver text).fails = true ∨ triples (m.deliver text).pieces.flatten = none ∨
          (∃ g, triples (m.deliver text).pieces.flatten = some g ∧ graphVersion g ≠ some g!"SPDX-2.2" ∧ graphVersion g ≠ some g!"SPDX-2.3") →
        rdfLoader triples copy o (prog :: file :: more) m fs = .cannotParse file := by
  refine ⟨fun args h => ?_, fun prog file more => ⟨fun h => ?_, fun text h1 h2 h => ?_⟩⟩
  · match args, h with
    | [], _ => rfl
    | [_], _ => rfl
  · have : (if m.openFails then none else fs file) = none := by
      rcases h with h | h
      · rw [h]; rfl
      · rw [h]; simp
    simp only [rdfLoader, loadAndShow, this]
  · have hr : readRdfInto copy true o .v23 (if (m.deliver text).fails then none else triples (m.deliver text).pieces.flatten) = .err := by
      rcases h with h | h | ⟨g, h, h3, h4⟩
      · rw [h]; rfl
      · rw [h]; simp [readRdfInto]
      · rw [h]
        cases (m.deliver text).fails with
        | true => rfl
        | false =>
          simp only [readRdfInto, Bool.not_true, Bool.false_eq_true, if_false]
          cases hv : graphVersion g with
          | none => rfl
          | some x =>
            have h5 : x ≠ g!"SPDX-2.2" := fun e => h3 (by rw [hv, e])
            have h6 : x ≠ g!"SPDX-2.3" := fun e => h4 (by rw [hv, e])
            simp [h5, h6]
    simp only [rdfLoader, loadAndShow, h1, h2, Bool.false_eq_true, if_false, hr]

/-- A file that stops delivering after a beginning that is a graph. -/
example : rdfLoader (fun _ => some ⟨[], [], fun _ => true⟩) (fun _ _ d => d) ⟨id, fun _ => List.Perm.refl _⟩ [g!"x", g!"in"]
    { deliver := fun s => { pieces := [s], fails := true } } (fun _ => some g!"<a/>") = .cannotParse g!"in" :=
  ((C82_ends_rdf _ _ _ _ _).2 _ _ _).2 _ rfl rfl (.inl rfl)

/-! ## Samples -/

/-- The directory of `C46_sample`. -/
def w82 : Workshop := ⟨insertionSorter, fun _ => g!"0f", g!"2026-01-01T00:00:00Z", fun _ => C46_disk⟩

theorem w82_directory : IsDirectory C46_disk ∧ AllReadable C46_disk buildSettings.pathsIgnored :=
  ⟨⟨⟨_, rfl⟩, C46_good.1, C46_good.2⟩, by simp [C46_disk, C45_disk, unreadable, unreadableIn], fun p _ h => by cases h⟩

theorem w82_plain {config : BuildConfig} (h1 : OneLine (config.namespacePrefix ++ g!"p"))
    (h2 : RepAgent config.creatorType config.creator) (h3 : config.testCreated = []) :
    PlainBuild w82.sha1 C46_disk w82.now g!"p" config where
  packageName := by decide
  place := h1
  creator := h2
  time := by rw [h3]; decide +kernel
  digest := C46_plain.digest
  hashes := C46_plain.hashes
  paths := C46_plain.paths

set_option maxRecDepth 20000 in
/-- The hypotheses of `C82_build_then_load` and `C82_search_then_load` are met, and this is what is shown in the end. -/
theorem C82_sample : (∀ k d text, Maker.document k w82 g!"p" g!"r" = .ok d → writeTagValue .v23 w82.so d = .ok text → LinesFit text) ∧
    PlainBuild w82.sha1 C46_disk w82.now g!"p" buildSettings ∧ PlainBuild w82.sha1 C46_disk w82.now g!"p" searchSettings ∧
    PlainTags C46_disk [] ∧
    ((Maker.run .search w82 [g!"x", g!"p", g!"r", g!"out"] {} fun _ => none).getLast?.map fun x =>
      tvLoader insertionSorter (fun _ _ d => d) (fun _ => g!"CREATED") g!"why" [g!"x", g!"out"] {} x.files) = some (.text
        g!"Successfully loaded out\n\n==============\nCreation info:\n==============\nCREATED\n\n============================\nPackage Package-p (p)\nFile info (up to first 50):\n- File 1: ./a\n    License from file: [Apache-2.0 BSD-3-Clause MIT]\n    License concluded: Apache-2.0 AND (MIT OR BSD-3-Clause)\n- File 2: ./b\n    License from file: [NOASSERTION]\n    License concluded: NOASSERTION\n- File 3: ./t/c\n    License from file: [GPL-2.0]\n    License concluded: GPL-2.0+\n") := by
  refine ⟨?_, w82_plain (by decide +kernel) (by decide +kernel) rfl, w82_plain (by decide +kernel) (by decide +kernel) rfl, C46_tags,
    by decide +kernel⟩
  intro k d text h1 h2
  have fits : ∀ k : Maker, (match Maker.document k w82 g!"p" g!"r" >>= writeTagValue .v23 w82.so with
    | .ok t => decide (LinesFit t)
    | _ => true) = true := by
    intro k
    cases k <;> decide +kernel
  have := fits k
  rw [h1, Res.bind_ok, h2] at this
  exact of_decide_eq_true this

set_option maxRecDepth 100000 in
/-- A JSON text of version 2.2 is shown as one of version 2.3: the hypotheses of `C82_attributes_json` are met by the object
of `C81_sample`. -/
theorem C82_sample_json : jsonLoader insertionSorter (structCopied ⟨true, true⟩) (fun l => l.length < 300) (fun _ => .err) [g!"x", g!"in"] {}
    (FileSystem.put (fun _ => none) g!"in" (Json.text (.obj es81))) =
      .text (g!"Successfully loaded in\n" ++ attributesText g!"abc" [] [] g!"SPDX-2.3") := by
  decide +kernel

/-! ## What is not so -/

/-- A directory with eleven files. -/
def eleven82 : Disk where
  absRoot := g!"/r"
  tree := .dir ([g!"a", g!"b", g!"c", g!"d", g!"e", g!"f", g!"g", g!"h", g!"i", g!"j", g!"k"].foldr (fun n e => .cons n .file e) .nil)
  hashes _ := some (g!"a1", g!"b2", g!"c3")
  text _ := some []

set_option maxRecDepth 20000 in
/-- "The files are shown in the order of their paths" is false with more than ten files: the files are saved in the order of
their identifiers as texts, so that File10 comes after File1. -/
theorem C82_path_order_false :
    ((Maker.run .build { w82 with disks := fun _ => eleven82 } [g!"x", g!"p", g!"r", g!"out"] {} fun _ => none).getLast?.bind fun x =>
      (x.files g!"out").map fun t => match readTagValueInto (fun _ _ d => d) true .v23 t with
        | .ok d => d.packages.map fun p => p.files.map (·.name)
        | _ => []) =
      some [[g!"./a", g!"./b", g!"./k", g!"./c", g!"./d", g!"./e", g!"./f", g!"./g", g!"./h", g!"./i", g!"./j"]] := by
  decide +kernel

/-- "The program that searches leaves out the directory LICENSES, as its settings say" is false. -/
theorem C82_left_out_false :
    (match Maker.document .search { w82 with disks := fun _ => { eleven82 with
        tree := .dir (.cons g!"LICENSES" (.dir (.cons g!"MIT" .file .nil)) .nil)
        text := fun _ => some g!"SPDX-License-Identifier: MIT\n" } } g!"p" g!"r" with
      | .ok d => d.packages.map fun p => p.files.map fun f => (f.name, f.licenseConcluded)
      | _ => []) = [[(g!"./LICENSES/MIT", g!"MIT")]] ∧ Ignores g!"/LICENSES/" g!"/LICENSES/MIT" := by
  refine ⟨by decide +kernel, ?_⟩
  exact .below g!"/LICENSES/" g!"MIT" ⟨g!"/LICENSES", rfl⟩ (by rintro ⟨r, n, hr, -⟩; cases hr)

/-- "If the program says that it saved the document, it did" is false on a full disk. -/
theorem C82_reported_false :
    ((Maker.run .build w82 [g!"x", g!"p", g!"r", g!"out"] full77 fun _ => none).getLast?.map fun x => (x.files g!"out", x.said)) =
      some (some g!"SPDXVersion: SPDX-2.3\n", [.built g!"p", .saved g!"out"]) := by
  decide +kernel

end Verif
