import Verif.Lemmas.UpgradeJson
import Verif.Model.RdfInto
import Verif.Props.C80_RdfToText

/-!
# C81: a JSON, YAML or RDF document of one version read into a variable of another and saved

`inVersion`, `SayableIn` and `ArtifactsGiven` are in `Spec/Upgrade`, `plainCodes` in `Spec/Converted`, `keptDoc` in
`Spec/JsonDoc`, `leftInJson` and `leftInText` in `Spec/RdfSavable` and `Spec/RdfTextable`.
-/

namespace Verif
open Spec Spec.Rdf

section
variable (so so' so2 : Sorter) (lib : Copier) (float : Str → Bool) (odd : Str → Res Doc) (v w : Version)

/-- **C81.** The text of a savable JSON object that states version `v` is read into a variable of version `w`; the document is
saved, with any indentation by blanks; and what is saved is read as what the object said, in version `w`, as far as JSON has
places for it.  Whether an empty verification code is given or not does not count. -/
theorem C81_json (hf : ∀ n, IsInt64 n → float (itoa n) = true) (html : Bool) (indent : Str) (hi : Blank indent) (text : Str)
    (es : List (Str × Json)) (d : Doc) (ht : JsonTextOf text (.obj es)) (hn : Json.floats float (.obj es) = true)
    (hp : Json.agentsPlain (.obj es) = true) (tidied : tidy (.obj es) = true) (version : Spec.StatesVersion es v) (savable : SavableJson html es)
    (says : DocumentIs v es d) (solid : Verif.Solid d) :
    ∃ e saved e', readJsonText so (structCopied lib) float odd true w text = .ok e ∧ writeJsonText so' w html indent e = .ok saved ∧
      readJsonText so2 (structCopied lib) float odd true w saved = .ok e' ∧ plainCodes e' = keptDoc w (plainCodes (inVersion v w d)) := by
  obtain ⟨e, h1, h2⟩ := C62_read_json so lib v w es d tidied version says solid
  obtain ⟨k1, k2⟩ := kept_converted h2 (version_loaded version says)
  obtain ⟨saved, q1, q2⟩ := C58_round_trip so' so2 (structCopied lib) float hf odd w html indent hi e
    (json_converted h2 (jsonDocument_of savable says)) k1
  refine ⟨e, saved, _, ?_, q1, q2, by rw [keptDoc_plain, k2]⟩
  rw [readJsonText_of so _ float odd w ht, hn, hp]
  exact h1

/-- **C81.** The same for YAML, if the YAML library keeps the value. -/
theorem C81_yaml (y : Yaml) (text : Str) (es : List (Str × Json)) (d : Doc) (ht : YamlTextOf y text (.obj es))
    (tidied : tidy (.obj es) = true) (version : Spec.StatesVersion es v) (savable : SavableJson true es)
    (says : DocumentIs v es d) (solid : Verif.Solid d)
    (keeps : ∀ e j, readYamlText y so (structCopied lib) true w text = .ok e → writeJson so' w true e = .ok j → YamlKeeps y j) :
    ∃ e saved e', readYamlText y so (structCopied lib) true w text = .ok e ∧ writeYamlText y so' w e = .ok saved ∧
      readYamlText y so2 (structCopied lib) true w saved = .ok e' ∧ plainCodes e' = keptDoc w (plainCodes (inVersion v w d)) := by
  obtain ⟨e, h1, h2⟩ := C62_read_json so lib v w es d tidied version says solid
  rw [← readYamlText_of ht] at h1
  obtain ⟨k1, k2⟩ := kept_converted h2 (version_loaded version says)
  obtain ⟨saved, q1, q2⟩ := C60_round_trip y so' so2 (structCopied lib) w e (json_converted h2 (jsonDocument_of savable says)) k1
    fun j => keeps e j h1
  exact ⟨e, saved, _, h1, q1, q2, by rw [keptDoc_plain, k2]⟩

omit lib in
/-- **C81.** In a newer version nothing of it is lost: what comes back is what the object said, but for the stated version and
whether files-analyzed was present. -/
theorem C81_newer (es : List (Str × Json)) (d : Doc) (says : DocumentIs v es d) (newer : older v w = v)
    (categories : v ≠ .v21 ∨ w = .v21 ∨ ∀ p ∈ d.packages, ∀ r ∈ p.externalRefs, '_' ∉ r.category) :
    keptDoc w (plainCodes (inVersion v w d)) = plainCodes (flagged w (restated (versionName w) d)) := by
  rw [← keptDoc_plain, kept_newer says newer categories]

end

/-! ## RDF -/

/-- Reading RDF into a variable. -/
theorem readRdfInto_of (lib : Copier) {o : MapOrder} {g : Graph} {d : Doc} {v : Version} (w : Version) (h : readGraph o g = .ok d)
    (hv : Rdf.StatesVersion g v) (h1 : OneRole g) (h2 : DistinctNames g) (hs : Verif.Solid d) :
    ∃ e, readRdfInto (structCopied lib) true o w (some g) = .ok e ∧ convertWith lib true v w d = .ok e ∧ ConvertedDoc v w d e := by
  obtain ⟨hne, hl, -⟩ := rdf_version h hv h1 h2
  obtain ⟨e, g1, -, g3⟩ := C62_converted lib v w d hs
  refine ⟨e, ?_, g1, g3⟩
  have hver : graphVersion g = some (versionName v) := by
    obtain ⟨u, ⟨a, t, b, e, hno, hp, hw⟩, -⟩ := (readGraph_ok o g d).1 h
    have ht := hv.1 t (by rw [e]; simp) hp
    cases hg : graphVersion g with
    | none => simp [readGraph, hg] at h
    | some x =>
      unfold graphVersion at hg
      cases hf : g.triples.find? (fun t => decide (t.pred = .specVersion)) with
      | none => simp [hf] at hg
      | some u =>
        rw [hf] at hg
        have h1 := List.find?_some hf
        simp only [hv.1 u (List.mem_of_find?_eq_some hf) (of_decide_eq_true h1)] at hg
        rw [if_neg (by cases v <;> decide)] at hg
        rw [← hg]
  have hc := convertDocument_with lib true v w d hs
  simp only [readRdfInto, Bool.not_true, Bool.false_eq_true, if_false, hver]
  cases v with
  | v21 => exact absurd rfl hne
  | v22 => rw [if_pos (by decide)]; simp only [readRdfInto.readAs, hl, hc, g1, ROut.ofRes]
  | v23 => rw [if_neg (by decide), if_pos (by decide)]; simp only [readRdfInto.readAs, hl, hc, g1, ROut.ofRes]

theorem bareIds_plain (d : Doc) : bareIds (plainCodes d) = plainCodes (bareIds d) := rfl

theorem bare_converted {v w : Version} {d e : Doc} (h : ConvertedDoc v w d e) : ConvertedDoc v w (bareIds d) (bareIds e) := by
  refine ⟨fun e => by rw [h.1 e], fun hne => ⟨(h.2 hne).1, ?_⟩⟩
  rw [← bareIds_plain, (h.2 hne).2]
  rfl

section
variable (so so2 : Sorter) (lib : Copier) (o : MapOrder) (g : Graph) (d : Doc) (v w : Version)

/-- **C81.** A document that is read from a savable RDF graph into a variable of version `w` can be saved as JSON; and what is
saved is read as the document of the graph, in version `w`, less what RDF documents lose in JSON. -/
theorem C81_rdf_json (float : Str → Bool) (hf : ∀ n, IsInt64 n → float (itoa n) = true) (odd : Str → Res Doc) (html : Bool) (indent : Str)
    (hi : Blank indent) (h : readGraph o g = .ok d) (hv : Rdf.StatesVersion g v) (hs : SavableGraph html g) (h1 : OneRole g)
    (h2 : DistinctNames g) (solid : Verif.Solid d) :
    ∃ e saved e', readRdfInto (structCopied lib) true o w (some g) = .ok e ∧ writeJsonText so w html indent e = .ok saved ∧
      readJsonText so2 (structCopied lib) float odd true w saved = .ok e' ∧ plainCodes e' = leftInJson w (plainCodes (inVersion v w d)) := by
  obtain ⟨hne, hl, hd⟩ := rdf_version h hv h1 h2
  obtain ⟨e, r1, -, r2⟩ := readRdfInto_of lib w h hv h1 h2 solid
  have hj := json_converted (bare_converted r2) (rdf_jsonDocument hs hl h1 h2)
  obtain ⟨k1, k2⟩ := kept_converted (bare_converted r2) hd
  obtain ⟨saved, q1, q2⟩ := C58_round_trip so so2 (structCopied lib) float hf odd w html indent hi (bareIds e) hj k1
  refine ⟨e, saved, _, r1, ?_, q2, ?_⟩
  · unfold writeJsonText at q1 ⊢
    rw [← q1, writeJson_bare so w html hj.id.bare fun r hr => (hj.refs _ (List.mem_map.2 ⟨r, hr, rfl⟩)).bare]
  · rw [keptDoc_plain, k2, ← rdf_kept_in hl hne h1 h2 w]
    rfl

/-- **C81.** The same for YAML, if the YAML library keeps the value. -/
theorem C81_rdf_yaml (y : Yaml) (h : readGraph o g = .ok d) (hv : Rdf.StatesVersion g v) (hs : SavableGraph true g) (h1 : OneRole g)
    (h2 : DistinctNames g) (solid : Verif.Solid d)
    (hy : ∀ e j, readRdfInto (structCopied lib) true o w (some g) = .ok e → writeJson so w true e = .ok j → YamlKeeps y j) :
    ∃ e saved e', readRdfInto (structCopied lib) true o w (some g) = .ok e ∧ writeYamlText y so w e = .ok saved ∧
      readYamlText y so2 (structCopied lib) true w saved = .ok e' ∧ plainCodes e' = leftInJson w (plainCodes (inVersion v w d)) := by
  obtain ⟨hne, hl, hd⟩ := rdf_version h hv h1 h2
  obtain ⟨e, r1, -, r2⟩ := readRdfInto_of lib w h hv h1 h2 solid
  have hj := json_converted (bare_converted r2) (rdf_jsonDocument hs hl h1 h2)
  obtain ⟨k1, k2⟩ := kept_converted (bare_converted r2) hd
  have he : writeJson so w true (bareIds e) = writeJson so w true e :=
    writeJson_bare so w true hj.id.bare fun r hr => (hj.refs _ (List.mem_map.2 ⟨r, hr, rfl⟩)).bare
  obtain ⟨saved, q1, q2⟩ := C60_round_trip y so so2 (structCopied lib) w (bareIds e) hj k1 (by rw [he]; exact fun j => hy e j r1)
  refine ⟨e, saved, _, r1, ?_, q2, ?_⟩
  · unfold writeYamlText at q1 ⊢
    rw [← q1, he]
  · rw [keptDoc_plain, k2, ← rdf_kept_in hl hne h1 h2 w]
    rfl

end

/-! ### To tag-value -/

theorem snippet_unplaced_in (u : Version) (s : Snippet) :
    ({ snippetIn u s with ranges := (snippetIn u s).ranges.map unplaced } : Snippet) = snippetIn u { s with ranges := s.ranges.map unplaced } := by
  unfold snippetIn
  split <;> rfl

theorem leftFile_in (u : Version) (f : FileV) : leftFileText (fileIn u f) = fileIn u (leftFileText f) := by
  unfold leftFileText fileIn
  simp only [List.map_map, Function.comp_def, snippet_unplaced_in]

theorem left_in (v w : Version) (d : Doc) : leftInText (inVersion v w d) = inVersion v w (leftInText d) := by
  unfold leftInText inVersion restated documentIn
  simp only [List.map_map, Function.comp_def, leftFile_in]
  have : (fun p : PackageV => ({ packageIn (older v w) p with files := (packageIn (older v w) p).files.map leftFileText } : PackageV)) =
      fun p : PackageV => packageIn (older v w) { p with files := p.files.map leftFileText } := by
    funext p
    unfold packageIn
    simp only [List.map_map, Function.comp_def, leftFile_in]
  rw [this]

theorem upToOrder_map {α : Type} {R : α → α → Prop} {f : α → α} (hR : ∀ a b, R a b → R (f a) (f b)) {l m : List α}
    (h : UpToOrder R l m) : UpToOrder R (l.map f) (m.map f) := by
  obtain ⟨l', h1, h2⟩ := h
  refine ⟨l'.map f, h1.map f, ?_⟩
  clear h1
  induction h2 with
  | nil => exact .nil
  | cons r _ ih => exact .cons (hR _ _ r) ih

theorem left_sameFile {a b : FileV} (h : SameFile a b) : SameFile (leftFileText a) (leftFileText b) := by
  refine ⟨?_, h.2.map _⟩
  have := h.1
  rw [this]
  rfl

theorem left_same {d e : Doc} (h : SameDoc d e) : SameDoc (leftInText d) (leftInText e) where
  rest := by rw [h.rest]; rfl
  refs := h.refs
  files := upToOrder_map (fun _ _ => left_sameFile) h.files
  packages := by
    refine upToOrder_map (R := SamePackage) (f := fun p : PackageV => { p with files := p.files.map leftFileText }) (fun a b h => ⟨?_, upToOrder_map (fun _ _ => left_sameFile) h.2⟩) h.packages
    rw [h.1]

theorem sameIds_in (v w : Version) {d : Doc} (h : SameIds d) : SameIds (inVersion v w d) where
  files a ha b hb e := by
    obtain ⟨a', ha', rfl⟩ := List.mem_map.1 (show a ∈ d.files.map _ from ha)
    obtain ⟨b', hb', rfl⟩ := List.mem_map.1 (show b ∈ d.files.map _ from hb)
    rw [h.files a' ha' b' hb' e]
  packages a ha b hb e := by
    obtain ⟨a', ha', rfl⟩ := List.mem_map.1 (show a ∈ d.packages.map _ from ha)
    obtain ⟨b', hb', rfl⟩ := List.mem_map.1 (show b ∈ d.packages.map _ from hb)
    rw [h.packages a' ha' b' hb' e]
  packageFiles p hp a ha b hb e := by
    obtain ⟨p', hp', rfl⟩ := List.mem_map.1 (show p ∈ d.packages.map _ from hp)
    obtain ⟨a', ha', rfl⟩ := List.mem_map.1 (show a ∈ p'.files.map _ from ha)
    obtain ⟨b', hb', rfl⟩ := List.mem_map.1 (show b ∈ p'.files.map _ from hb)
    rw [h.packageFiles p' hp' a' ha' b' hb' e]

theorem plainCode_sort (so : Sorter) (p : PackageV) : plainCode (sortPackageFiles so p) = sortPackageFiles so (plainCode p) := by
  unfold plainCode sortPackageFiles
  rfl

theorem sameIds_sorted (so : Sorter) {e : Doc} (h : SameIds (plainCodes e)) : SameIds (plainCodes (sortDocument so e)) where
  files a ha b hb := h.files a ((so.perm _ _).mem_iff.1 ha) b ((so.perm _ _).mem_iff.1 hb)
  packages a ha b hb he := by
    have src : ∀ a ∈ (plainCodes (sortDocument so e)).packages, ∃ p ∈ (plainCodes e).packages, a = sortPackageFiles so p := by
      intro a ha
      obtain ⟨q, hq, rfl⟩ := List.mem_map.1 (show a ∈ List.map plainCode _ from ha)
      obtain ⟨p, hp, rfl⟩ := List.mem_map.1 (show q ∈ List.map (sortPackageFiles so) _ from hq)
      exact ⟨plainCode p, List.mem_map.2 ⟨p, (so.perm _ _).mem_iff.1 hp, rfl⟩, plainCode_sort so p⟩
    obtain ⟨p, hp, rfl⟩ := src a ha
    obtain ⟨q, hq, rfl⟩ := src b hb
    rw [h.packages p hp q hq he]
  packageFiles a ha x hx y hy he := by
    obtain ⟨q, hq, rfl⟩ := List.mem_map.1 (show a ∈ List.map plainCode _ from ha)
    obtain ⟨p, hp, rfl⟩ := List.mem_map.1 (show q ∈ List.map (sortPackageFiles so) _ from hq)
    exact h.packageFiles (plainCode p) (List.mem_map.2 ⟨p, (so.perm _ _).mem_iff.1 hp, rfl⟩) x ((so.perm _ _).mem_iff.1 hx) y
      ((so.perm _ _).mem_iff.1 hy) he

theorem solid_left_text {d : Doc} (h : Verif.Solid (leftInText d)) : Verif.Solid d where
  creationInfo := h.creationInfo
  packages p hp := h.packages { p with files := p.files.map leftFileText } (List.mem_map.2 ⟨p, hp, rfl⟩)
  files f hf := by
    obtain ⟨a, b, c⟩ := h.files (leftFileText f) (by
      rcases hf with hf | ⟨p, hp, hf⟩
      · exact .inl (List.mem_map.2 ⟨f, hf, rfl⟩)
      · exact .inr ⟨{ p with files := p.files.map leftFileText }, List.mem_map.2 ⟨p, hp, rfl⟩, List.mem_map.2 ⟨f, hf, rfl⟩⟩)
    exact ⟨a, b, fun e he => c (e.1, { e.2 with ranges := e.2.ranges.map unplaced }) (List.mem_map.2 ⟨e, he, rfl⟩)⟩
  otherLicenses := h.otherLicenses
  relationships := h.relationships
  annotations := h.annotations
  reviews := h.reviews

theorem artifacts_left {d : Doc} (h : ArtifactsGiven d) : ArtifactsGiven (leftInText d) := by
  rintro f (hf | ⟨p, hp, hf⟩)
  · obtain ⟨f', hf', rfl⟩ := List.mem_map.1 (show f ∈ d.files.map _ from hf)
    exact h f' (.inl hf')
  · obtain ⟨p', hp', rfl⟩ := List.mem_map.1 (show p ∈ d.packages.map _ from hp)
    obtain ⟨f', hf', rfl⟩ := List.mem_map.1 (show f ∈ p'.files.map _ from hf)
    exact h f' (.inr ⟨p', hp', hf'⟩)

theorem checksums_left (d : Doc) : ∀ c ∈ checksumsOf (leftInText d), c ∈ checksumsOf d := by
  intro c hc
  rcases mem_checksumsOf.1 hc with ⟨p, hp, hc | ⟨f, hf, hc⟩⟩ | ⟨f, hf, hc⟩
  · obtain ⟨p', hp', rfl⟩ := List.mem_map.1 (show p ∈ d.packages.map _ from hp)
    exact mem_checksumsOf.2 (.inl ⟨p', hp', .inl hc⟩)
  · obtain ⟨p', hp', rfl⟩ := List.mem_map.1 (show p ∈ d.packages.map _ from hp)
    obtain ⟨f', hf', rfl⟩ := List.mem_map.1 (show f ∈ p'.files.map _ from hf)
    exact mem_checksumsOf.2 (.inl ⟨p', hp', .inr ⟨f', hf', hc⟩⟩)
  · obtain ⟨f', hf', rfl⟩ := List.mem_map.1 (show f ∈ d.files.map _ from hf)
    exact mem_checksumsOf.2 (.inr ⟨f', hf', hc⟩)

theorem plain_of_left {d : Doc} (h : plainCodes (leftInText d) = leftInText d) : plainCodes d = d := by
  have hp : ∀ p ∈ d.packages, plainCode p = p := by
    intro p hp
    have h' : (leftInText d).packages.map plainCode = (leftInText d).packages := congrArg (fun d : Doc => d.packages) h
    have hx : ∀ (l : List PackageV), l.map plainCode = l → ∀ q ∈ l, plainCode q = q := by
      intro l
      induction l with
      | nil => intro _ q hq; cases hq
      | cons a l ih =>
        intro e q hq
        simp only [List.map_cons, List.cons.injEq] at e
        rcases List.mem_cons.1 hq with rfl | hq
        · exact e.1
        · exact ih e.2 q hq
    have := hx _ h' { p with files := p.files.map leftFileText } (List.mem_map.2 ⟨p, hp, rfl⟩)
    have hc : (if p.verificationCode = some {} then none else p.verificationCode) = p.verificationCode := congrArg (fun p : PackageV => p.verificationCode) this
    unfold plainCode
    rw [hc]
  unfold plainCodes
  rw [List.map_congr_left (g := id) hp, List.map_id]

/-- **C81.** A document that is read from an RDF graph whose values fit, into a variable of version `w` that can say what it
says, can be saved as tag-value; and what is saved is read, with the new version, as the document of the graph, in version
`w`, but for the names of files in the ranges of snippets. -/
theorem C81_rdf_text (so : Sorter) (lib : Copier) (o : MapOrder) (g : Graph) (d : Doc) (v w : Version) (h : readGraph o g = .ok d)
    (hv : Rdf.StatesVersion g v) (hs : TextGraph g) (h1 : OneRole g) (h2 : DistinctNames g) (ha : ArtifactsGiven d) (hw : SayableIn w d) :
    ∃ e saved, readRdfInto (structCopied lib) true o w (some g) = .ok e ∧ writeTagValue w so e = .ok saved ∧
      (LinesFit saved → ∃ d', loadTagValue saved = .ok (w, some d') ∧ SameDoc (leftInText (inVersion v w d)) d') := by
  obtain ⟨hne, hl, hd⟩ := rdf_version h hv h1 h2
  have hr : Representable v (leftInText d) := rdf_representable hs hl hne h1 h2 (by rw [hd]; cases v <;> decide)
  obtain ⟨e, r1, r2, -⟩ := readRdfInto_of lib w h hv h1 h2 (solid_left_text (solid_of hr (artifacts_left ha)))
  have hp : plainCodes d = d := plain_of_left (plainCodes_own hr)
  have hids := rdf_sameIds hl h1 h2
  by_cases hvw : v = w
  · subst hvw
    obtain ⟨e', c1, -, c3, -⟩ := convertWith_ok lib v v d (solid_left_text (solid_of hr (artifacts_left ha)))
    obtain rfl := c3 rfl
    rw [r2] at c1
    cases c1
    obtain ⟨text, t1, t2⟩ := C80_text so o g e v h hv hs h1 h2
    have hu : older v v = v := by cases v <;> rfl
    refine ⟨e, text, r1, t1, fun fit => ?_⟩
    obtain ⟨d', k1, k2⟩ := t2 fit
    refine ⟨d', k1, ?_⟩
    rw [left_in, inVersion, hu, documentIn_own hr]
    have : restated (versionName v) (leftInText e) = leftInText e := by rw [← hd]; rfl
    rw [this]
    exact k2
  · have hpe : plainCodes e = inVersion v w d := by
      obtain ⟨e', c1, -, -, c4⟩ := convertWith_ok lib v w d (solid_left_text (solid_of hr (artifacts_left ha)))
      rw [r2] at c1
      cases c1
      rw [(c4 hvw).2.1, plain_in, hp]
      rfl
    have hsame : SameDoc (leftInText (inVersion v w d)) (leftInText (plainCodes (sortDocument so e))) := by
      rw [← hpe]
      exact left_same (sorted_same so e)
    have hrep : Representable w (leftInText (plainCodes (sortDocument so e))) := by
      refine representable_same hsame ?_
      rw [left_in]
      exact representable_in hr ⟨fun c hc => hw.algorithms c (checksums_left d c hc), hw.ends⟩
    have hids' : SameIds (plainCodes (sortDocument so e)) := sameIds_sorted so (by rw [hpe]; exact sameIds_in v w hids)
    obtain ⟨text, ht⟩ := C12_representable_is_written w (lazySorter so) _ hrep
    have hx : writeTagValue w so e = .ok text := by rw [write_plain, ← writeTagValue_left w _ hids', ht]
    refine ⟨e, text, r1, hx, fun fit => ?_⟩
    have hver : (leftInText (plainCodes (sortDocument so e))).spdxVersion = versionName w := by
      rw [hsame.rest]; rfl
    obtain ⟨d', k1, k2⟩ := loadsAs_written hrep hver ht fit
    exact ⟨d', loadTagValue_of k1, sameDoc_trans hsame k2⟩

/-! ## Examples and counterexamples -/

/-- The conditions of `Solid`, one by one. -/
def solidIf (d : Doc) : Prop :=
  d.creationInfo ≠ some {} ∧
  (∀ p ∈ d.packages, (p.spdxId ≠ [] ∧ p.supplier ≠ some {} ∧ p.originator ≠ some {} ∧ ∀ r ∈ p.externalRefs, r ≠ {}) ∧
    ∀ f ∈ p.files, f.spdxId ≠ [] ∧ (∀ a ∈ f.artifactOfProjects, a ≠ {}) ∧ ∀ e ∈ f.snippets, e.2.spdxId ≠ []) ∧
  (∀ f ∈ d.files, f.spdxId ≠ [] ∧ (∀ a ∈ f.artifactOfProjects, a ≠ {}) ∧ ∀ e ∈ f.snippets, e.2.spdxId ≠ []) ∧
  (∀ l ∈ d.otherLicenses, l ≠ {}) ∧ (∀ r ∈ d.relationships, r ≠ {}) ∧ (∀ a ∈ d.annotations, a ≠ {}) ∧ ∀ r ∈ d.reviews, r ≠ {}

instance (d : Doc) : Decidable (solidIf d) := by unfold solidIf; infer_instance

theorem solid_ofIf {d : Doc} (h : solidIf d) : Verif.Solid d where
  creationInfo := h.1
  packages p hp := (h.2.1 p hp).1
  files f hf := by
    rcases hf with hf | ⟨p, hp, hf⟩
    · exact h.2.2.1 f hf
    · exact (h.2.1 p hp).2 f hf
  otherLicenses := h.2.2.2.1
  relationships := h.2.2.2.2.1
  annotations := h.2.2.2.2.2.1
  reviews := h.2.2.2.2.2.2

/-- The object of `C68_sample`, but of version 2.2. -/
def es81 : List (Str × Json) := es68.map fun e => if e.1 = g!"spdxVersion" then (e.1, .str g!"SPDX-2.2") else e

theorem es81_savable : SavableJson true es81 where
  id := es68_savable.id
  externalDocuments := es68_savable.externalDocuments
  creators := es68_savable.creators
  packages := es68_savable.packages
  files := es68_savable.files
  relationships := es68_savable.relationships
  describes := es68_savable.describes
  annotations := es68_savable.annotations
  snippets := es68_savable.snippets

set_option maxRecDepth 100000 in
/-- Non-vacuity: an object of version 2.2 with packages, files, annotations, a snippet and relationships meets the
hypotheses, for a variable of any version; and the version and what it says of its elements is not trivial. -/
theorem C81_sample : JsonTextOf (Json.text (.obj es81)) (.obj es81) ∧ Json.floats (fun l => l.length < 300) (.obj es81) = true ∧
    Json.agentsPlain (.obj es81) = true ∧ tidy (.obj es81) = true ∧ Spec.StatesVersion es81 .v22 ∧ SavableJson true es81 ∧
    ∃ d, DocumentIs .v22 es81 d ∧ Verif.Solid d ∧ d.packages.map (·.spdxId) = [g!"p", g!"q"] ∧ d.relationships.length = 4 ∧
      d.snippets.length = 1 ∧ older .v22 .v23 = .v22 := by
  refine ⟨scanJson_iff.1 rfl, by decide +kernel, by decide +kernel, by decide +kernel,
    ⟨g!"SPDX-2.2", g!"SPDX-2.2", by simp [es81, es68], by decide, .inr (.inl ⟨rfl, rfl⟩)⟩, es81_savable, ?_⟩
  have h : (match decodeDoc insertionSorter .v22 (.obj es81) with
      | .ok d => decide (solidIf d ∧ d.packages.map (·.spdxId) = [g!"p", g!"q"] ∧ d.relationships.length = 4 ∧ d.snippets.length = 1)
      | _ => false) = true := by decide +kernel
  split at h
  · rename_i d hd
    obtain ⟨h1, h2, h3, h4⟩ := of_decide_eq_true h
    exact ⟨d, (decodeDoc_iff insertionSorter (by decide +kernel)).1 hd, solid_ofIf h1, h2, h3, h4, rfl⟩
  · simp at h

/-- Non-vacuity: the graphs of `C79_sample` and `C80_sample` meet the hypotheses too, for variables of versions 2.2 and 2.3. -/
theorem C81_rdf_sample : (∃ d, readGraph .same rdfRich = .ok d ∧ Verif.Solid d) ∧
    ∃ d, readGraph .same rdfText = .ok d ∧ ArtifactsGiven d ∧ SayableIn .v22 d ∧ SayableIn .v23 d := by
  have h : ∀ g : Graph, (match readGraph .same g with
      | .ok d => decide (solidIf d ∧ (checksumsOf d = [] ∧ ∀ r ∈ d.relationships, r.refB.specialID = []))
      | _ => false) = true → ∃ d, readGraph .same g = .ok d ∧ Verif.Solid d ∧ ∀ w, w ≠ .v21 → SayableIn w d := by
    intro g h
    split at h
    · rename_i d hd
      obtain ⟨h1, h2, h3⟩ := of_decide_eq_true h
      exact ⟨d, hd, solid_ofIf h1, fun w hw => ⟨by rw [h2]; simp, fun e => absurd e hw⟩⟩
    · simp at h
  obtain ⟨d1, a1, a2, -⟩ := h rdfRich (by decide +kernel)
  obtain ⟨d2, b1, b2, b3⟩ := h rdfText (by decide +kernel)
  exact ⟨⟨d1, a1, a2⟩, d2, b1, fun f hf => (b2.files f hf).2.1, b3 .v22 (by decide), b3 .v23 (by decide)⟩

/-- Read a text into a variable of version `w`, save it, read what was saved and look at a part. -/
def C81_again {α : Type} (w : Version) (f : Doc → α) (text : Str) : Res α := do
  let d ← readJsonText insertionSorter (structCopied ⟨true, true⟩) (fun _ => true) (fun _ => .err) true w text
  let saved ← writeJsonText insertionSorter w true [] d
  let e ← readJsonText insertionSorter (structCopied ⟨true, true⟩) (fun _ => true) (fun _ => .err) true w saved
  return f e

/-- C81: "a newer version can say all that an older one says" is false of the categories of external references: 2.1 keeps an
underscore, the later versions make it a hyphen. -/
theorem C81_category_false :
    C81_again .v21 (fun d => d.packages.map fun p => p.externalRefs.map (·.category)) g!"{\"spdxVersion\":\"SPDX-2.1\",\"SPDXID\":\"SPDXRef-D\",\"packages\":[{\"SPDXID\":\"SPDXRef-p\",\"externalRefs\":[{\"referenceCategory\":\"PACKAGE_MANAGER\"}]}]}" =
      .ok [[g!"PACKAGE_MANAGER"]] ∧
    C81_again .v23 (fun d => d.packages.map fun p => p.externalRefs.map (·.category)) g!"{\"spdxVersion\":\"SPDX-2.1\",\"SPDXID\":\"SPDXRef-D\",\"packages\":[{\"SPDXID\":\"SPDXRef-p\",\"externalRefs\":[{\"referenceCategory\":\"PACKAGE_MANAGER\"}]}]}" =
      .ok [[g!"PACKAGE-MANAGER"]] := by
  decide +kernel

/-- C81: "an older version keeps what both versions have a field for" is false: the purpose of a package is only in 2.3, but
the dependencies of a file are in the documents of both versions, and 2.2 does not write them in JSON. -/
theorem C81_older_false :
    C81_again .v23 (fun d => d.files.map (·.dependencies)) g!"{\"spdxVersion\":\"SPDX-2.3\",\"SPDXID\":\"SPDXRef-D\",\"files\":[{\"SPDXID\":\"SPDXRef-f\",\"fileDependencies\":[\"x\"]}]}" =
      .ok [[g!"x"]] ∧
    C81_again .v22 (fun d => d.files.map (·.dependencies)) g!"{\"spdxVersion\":\"SPDX-2.3\",\"SPDXID\":\"SPDXRef-D\",\"files\":[{\"SPDXID\":\"SPDXRef-f\",\"fileDependencies\":[\"x\"]}]}" =
      .ok [[]] := by
  decide +kernel

end Verif
