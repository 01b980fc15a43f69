import Verif.Lemmas.NilFields

/-!
# The decoder with nil entries reads what JSON says
-/

namespace Verif
open Spec

variable {β : Type} {n : Bool}

theorem reads_nilList {c : Codec β} {zero : β} {says : Json → β → Prop} (h : JReadsSome c zero says n) :
    JReads (nilListCodec zero c) [] (ListIs (OptionIs says)) n := reads_list (reads_ptr h)

/-! ## Files -/

theorem lens_file : Lens NFile.file (fun b s => { s with file := b }) := ⟨fun _ _ => rfl, fun _ => rfl, fun _ _ _ => rfl⟩

theorem keys_nfile (v : Version) : ∀ f ∈ fileFields v, f.key ∉ [g!"artifactOfs"] →
    ([g!"artifactOfs"].any fun k => sameKey k f.key) = false := by
  have h : ∀ k ∈ (fileFields v).map (·.key), k ∉ [g!"artifactOfs"] → ([g!"artifactOfs"].any fun k' => sameKey k' k) = false := by
    cases v <;> decide
  exact fun f hf => h f.key (List.mem_map_of_mem hf)

theorem json_nfile_iff (v : Version) {es : List (Str × Json)} {x : NFile} (ht : tidy (.obj es) n = true) :
    decodeFields es (nFileFields v) {} = .ok x ↔ NFileIs v es x := by
  unfold nFileFields
  rw [decode_parts lens_file [g!"artifactOfs"] (g := fun f => if f.key = g!"artifactOfs" then artifactsField
    else f.lift (·.file) (fun b s => { s with file := b })) ?_ (keys_nfile v)]
  · have hb : ∀ s, decodeFields (without [g!"artifactOfs"] es) (fileFields v) ({} : FileV) = .ok s ↔ _ := fun s =>
      json_file_iff v (tidy_without ht) (without_absent _ _)
    obtain ⟨f, as, ss⟩ := x
    show (∃ s t', decodeFields (without [g!"artifactOfs"] es) (fileFields v) ({} : FileV) = .ok s ∧ _) ↔ _
    simp only [hb]
    by_cases hv : v = .v23
    · subst hv
      show (∃ s t', _ ∧ decodeFields es [artifactsField] {} = .ok t' ∧ _) ↔ _
      constructor
      · rintro ⟨s, t', h1, h2, h3⟩
        obtain ⟨_, h4, h⟩ := peel_of ht h2 rfl (reads_nilList reads_artifact.some)
        cases h
        cases h3
        exact ⟨h1, h4, rfl⟩
      · rintro ⟨h1, h2, h3⟩
        cases h3
        exact ⟨f, _, h1, unpeel ht rfl (reads_nilList reads_artifact.some) h2 rfl, rfl⟩
    · have e : decodeFields es (((fileFields v).filter fun f => decide (f.key ∈ [g!"artifactOfs"])).map fun f =>
          if f.key = g!"artifactOfs" then artifactsField else f.lift (·.file) (fun b s => { s with file := b })) {} = .ok ({} : NFile) := by
        cases v
        · rfl
        · rfl
        · exact absurd rfl hv
      simp only [e, Res.ok.injEq]
      constructor
      · rintro ⟨s, t', h1, rfl, h3⟩
        cases h3
        exact ⟨h1, by rw [if_neg hv], rfl⟩
      · rintro ⟨h1, h2, h3⟩
        rw [if_neg hv] at h2
        cases h2
        cases h3
        exact ⟨f, _, h1, rfl, rfl⟩
  · intro f _
    by_cases hk : f.key = g!"artifactOfs"
    · rw [if_pos (by simp [hk]), if_pos hk]
      exact ⟨fun _ _ => rfl, fun _ _ _ => rfl, fun _ _ => rfl⟩
    · rw [if_neg (by simpa using hk), if_neg hk]

theorem reads_nfile (v : Version) : JReads (nFileCodec v) {} (ObjectIs (NFileIs v) {}) n :=
  reads_object fun _ ht _ => json_nfile_iff v ht

/-! ## Packages -/

theorem lens_pkg : Lens NPackage.pkg (fun b s => { s with pkg := b }) := ⟨fun _ _ => rfl, fun _ => rfl, fun _ _ _ => rfl⟩

theorem keys_npackage (v : Version) : ∀ f ∈ packageFields v, f.key ∉ [g!"externalRefs", g!"files"] →
    ([g!"externalRefs", g!"files"].any fun k => sameKey k f.key) = false := by
  have h : ∀ k ∈ (packageFields v).map (·.key), k ∉ [g!"externalRefs", g!"files"] →
      ([g!"externalRefs", g!"files"].any fun k' => sameKey k' k) = false := by
    cases v <;> decide
  exact fun f hf => h f.key (List.mem_map_of_mem hf)

/-- What a package says about its lists of pointers. -/
def NPackageLists (v : Version) (es : List (Str × Json)) (p : NPackage) : Prop :=
  HasOptions es g!"externalRefs" (ExternalRefIs v) {} p.externalRefs ∧ HasOptions es g!"files" (NFileIs v) {} p.files

theorem json_npackage_fields (v : Version) {es : List (Str × Json)} {x : NPackage} (ht : tidy (.obj es) n = true) :
    decodeFields es (nPackageFields v) {} = .ok x ↔
      decodeFields (without [g!"externalRefs", g!"files"] es) (packageFields v) {} = .ok x.pkg ∧ NPackageLists v es x := by
  unfold nPackageFields
  rw [decode_parts lens_pkg [g!"externalRefs", g!"files"] (g := fun f => if f.key = g!"externalRefs" then externalRefsField v
    else if f.key = g!"files" then packageFilesField v else f.lift (·.pkg) (fun b s => { s with pkg := b })) ?_ (keys_npackage v)]
  · obtain ⟨p, rs, fs⟩ := x
    have e : (((packageFields v).filter fun f => decide (f.key ∈ [g!"externalRefs", g!"files"])).map fun f =>
        if f.key = g!"externalRefs" then externalRefsField v
        else if f.key = g!"files" then packageFilesField v else f.lift (·.pkg) (fun b s => { s with pkg := b })) =
        [externalRefsField v, packageFilesField v] := by
      cases v <;> rfl
    rw [e]
    constructor
    · rintro ⟨s, t', h1, h2, h3⟩
      obtain ⟨_, h4, h⟩ := peel_of ht h2 rfl (reads_nilList (reads_externalRef v).some)
      obtain ⟨_, h5, h⟩ := peel_of ht h rfl (reads_nilList (reads_nfile v).some)
      cases h
      cases h3
      exact ⟨h1, h4, h5⟩
    · rintro ⟨h1, h2, h3⟩
      exact ⟨p, _, h1, unpeel ht rfl (reads_nilList (reads_externalRef v).some) h2
        (unpeel ht rfl (reads_nilList (reads_nfile v).some) h3 rfl), rfl⟩
  · intro f _
    by_cases hk : f.key = g!"externalRefs"
    · rw [if_pos (by simp [hk]), if_pos hk]
      exact ⟨fun _ _ => rfl, fun _ _ _ => rfl, fun _ _ => rfl⟩
    · by_cases hk' : f.key = g!"files"
      · rw [if_pos (by simp [hk']), if_neg hk, if_pos hk']
        exact ⟨fun _ _ => rfl, fun _ _ _ => rfl, fun _ _ => rfl⟩
      · rw [if_neg (by simp only [List.mem_cons, hk, hk', List.not_mem_nil, or_self, not_false_eq_true]), if_neg hk, if_neg hk']

/-- A package with its identifier and the files it says it has. -/
def NPackageSays (v : Version) (es : List (Str × Json)) (x : NPackage × List DocElementID) : Prop :=
  NPackageIs v es x.1 ∧ (if v = .v21 then x.2 = [] else Has es g!"hasFiles" (ListIs RefIs) [] x.2)

theorem extras_without {es : List (Str × Json)} : decodeFields (without [g!"externalRefs", g!"files"] es) packageExtrasFields {} =
    decodeFields es packageExtrasFields {} :=
  (decodeFields_without (keys := [g!"externalRefs", g!"files"]) (fs := packageExtrasFields) (by
    intro f hf
    have h : ∀ k ∈ packageExtrasFields.map (·.key), k ∉ [g!"externalRefs", g!"files"] →
      ([g!"externalRefs", g!"files"].any fun k' => sameKey k' k) = false := by decide
    exact h f.key (List.mem_map_of_mem hf)) {}).symm

theorem decodeNPackage_part (v : Version) {es : List (Str × Json)} {x : NPackage × List DocElementID} (ht : tidy (.obj es) n = true) :
    decodeNPackage v (.obj es) ({}, []) = .ok x ↔
      decodePackage v (.obj (without [g!"externalRefs", g!"files"] es)) ({}, []) = .ok (x.1.pkg, x.2) ∧ NPackageLists v es x.1 := by
  obtain ⟨p, hf⟩ := x
  by_cases hv : v = .v21
  · subst hv
    show (do let p ← decodeFields es (nPackageFields .v21) {}; Res.ok (p, [])) = _ ↔
      (do let p ← decodeFields _ (packageFields .v21) {}; Res.ok (p, [])) = _ ∧ _
    simp only [bind_eq_ok, json_npackage_fields .v21 ht, Res.ok.injEq, Prod.mk.injEq]
    constructor
    · rintro ⟨q, ⟨h1, h2⟩, rfl, rfl⟩; exact ⟨⟨_, h1, rfl, rfl⟩, h2⟩
    · rintro ⟨⟨q, h1, rfl, rfl⟩, h2⟩; exact ⟨p, ⟨h1, h2⟩, rfl, rfl⟩
  · have hd : decodeNPackage v (.obj es) ({}, []) = (do
        let p ← decodeFields es (nPackageFields v) {}
        let e ← decodeFields es packageExtrasFields {}
        .ok ({ p with pkg := setAnalyzed e.filesAnalyzed p.pkg }, e.hasFiles)) := by
      cases v
      · exact absurd rfl hv
      · rfl
      · rfl
    have hd' : decodePackage v (.obj (without [g!"externalRefs", g!"files"] es)) ({}, []) = (do
        let p ← decodeFields (without [g!"externalRefs", g!"files"] es) (packageFields v) {}
        let e ← decodeFields es packageExtrasFields {}
        .ok (setAnalyzed e.filesAnalyzed p, e.hasFiles)) := by
      rw [← extras_without]
      cases v
      · exact absurd rfl hv
      · rfl
      · rfl
    rw [hd, hd']
    simp only [bind_eq_ok, json_npackage_fields v ht, Res.ok.injEq, Prod.mk.injEq]
    constructor
    · rintro ⟨q, ⟨h1, h2⟩, e, h3, h4, rfl⟩
      subst h4
      exact ⟨⟨q.pkg, h1, e, h3, rfl, rfl⟩, h2⟩
    · rintro ⟨⟨q, h1, e, h3, h4, rfl⟩, h2⟩
      refine ⟨{ p with pkg := q }, ⟨h1, h2⟩, e, h3, ?_, rfl⟩
      obtain ⟨a, b, c⟩ := p
      cases h4
      rfl

theorem decodeNPackage_iff (v : Version) {es : List (Str × Json)} {x : NPackage × List DocElementID} (ht : tidy (.obj es) n = true) :
    decodeNPackage v (.obj es) ({}, []) = .ok x ↔ NPackageSays v es x := by
  rw [decodeNPackage_part v ht, decodePackage_iff (tidy_without ht) (without_absent _ _)]
  unfold PackageSays NPackageSays NPackageLists
  simp only
  rw [has_without (key := g!"hasFiles") (by decide)]
  constructor
  · rintro ⟨⟨h1, h2⟩, h3, h4⟩; exact ⟨⟨h1, h3, h4⟩, h2⟩
  · rintro ⟨⟨h1, h3, h4⟩, h2⟩; exact ⟨⟨h1, h2⟩, h3, h4⟩

theorem reads_npackage (so : Sorter) (v : Version) :
    JReadsSome (nPackageCodec so v) ({}, []) (fun j x => ∃ es, j = .obj es ∧ NPackageSays v es x) n := by
  intro j hj hn x
  show decodeNPackage v j ({}, []) = _ ↔ _
  cases j with
  | obj es => simp [decodeNPackage_iff v hj]
  | null => exact absurd rfl hn
  | _ => cases v <;> simp [decodeNPackage, structCodec]

/-! ## Documents -/

/-- The keys of a document whose values are lists of pointers. -/
def listKeys : List Str := [g!"packages", g!"files", g!"hasExtractedLicensingInfos", g!"annotations"]

/-- The same with the keys of the relationships. -/
def partKeys : List Str := [g!"packages", g!"files", g!"hasExtractedLicensingInfos", g!"relationships", g!"annotations",
  g!"documentDescribes"]

theorem relationships_without {v : Version} {es : List (Str × Json)} {id : Str} {rels : List Relationship} :
    RelationshipsAre v (without partKeys es) id rels ↔ rels = [] := by
  unfold RelationshipsAre HasObjects
  simp only [has_without_mem (keys := partKeys) (key := g!"relationships") (by decide),
    has_without_mem (keys := partKeys) (key := g!"documentDescribes") (by decide),
    has_without_mem (keys := partKeys) (key := g!"packages") (by decide)]
  by_cases hv : v = .v21
  · simp [hv]
  · simp [hv, completed]

/-- What the decoder reads in the part of a document that is not lists of pointers. -/
theorem raw_without {v : Version} {es : List (Str × Json)} {r : RawDoc} : RawIs v (without listKeys es) r ↔
    DocumentIs v (without partKeys es) r.doc ∧ HasOptions es g!"relationships" RelationshipIs {} r.relationships ∧ r.packages = [] := by
  have e : ∀ {key : Str}, (partKeys.any fun k => sameKey k key) = false →
      entries key (without listKeys es) = entries key (without partKeys es) := by
    intro key h
    rw [entries_without h, entries_without]
    rw [List.any_eq_false] at h ⊢
    exact fun k hk => h k (by revert hk; simp only [listKeys, partKeys, List.mem_cons, List.not_mem_nil, or_false]; rintro (rfl | rfl | rfl | rfl) <;> decide)
  have hc : ∀ {β : Type} {key : Str} {says : Json → β → Prop} {unset x : β}, (partKeys.any fun k => sameKey k key) = false →
      (Has (without listKeys es) key says unset x ↔ Has (without partKeys es) key says unset x) := by
    intro _ _ _ _ _ h
    unfold Has
    rw [e h]
  have hz : ∀ {β : Type} {key : Str} {says : Json → β → Prop} {unset x : β}, key ∈ listKeys →
      (Has (without listKeys es) key says unset x ↔ Has (without partKeys es) key says unset x) := by
    intro _ _ _ _ _ h
    rw [has_without_mem h, has_without_mem]
    revert h; simp only [listKeys, partKeys, List.mem_cons, List.not_mem_nil, or_false]; rintro (rfl | rfl | rfl | rfl) <;> decide
  constructor
  · intro h
    refine ⟨{ version := (hc (by decide)).1 h.version, license := (hc (by decide)).1 h.license, id := (hc (by decide)).1 h.id,
              name := (hc (by decide)).1 h.name, namespace_ := (hc (by decide)).1 h.namespace_,
              externalDocuments := (hc (by decide)).1 h.externalDocuments, comment := (hc (by decide)).1 h.comment,
              creation := (hc (by decide)).1 h.creation, packages := (has_without_mem (by decide)).2 h.noPackages,
              files := (hz (by decide)).1 h.files, licenses := (hz (by decide)).1 h.licenses,
              relationships := relationships_without.2 h.noRelationships, annotations := (hz (by decide)).1 h.annotations,
              snippets := (hc (by decide)).1 h.snippets, reviews := h.reviews },
      (has_without (by decide)).1 h.relationships, (has_without_mem (by decide)).1 h.packages⟩
  · rintro ⟨h, hr, hp⟩
    exact { version := (hc (by decide)).2 h.version, license := (hc (by decide)).2 h.license, id := (hc (by decide)).2 h.id,
            name := (hc (by decide)).2 h.name, namespace_ := (hc (by decide)).2 h.namespace_,
            externalDocuments := (hc (by decide)).2 h.externalDocuments, comment := (hc (by decide)).2 h.comment,
            creation := (hc (by decide)).2 h.creation, packages := (has_without_mem (by decide)).2 hp,
            files := (hz (by decide)).2 h.files, licenses := (hz (by decide)).2 h.licenses,
            relationships := (has_without (by decide)).2 hr, annotations := (hz (by decide)).2 h.annotations,
            snippets := (hc (by decide)).2 h.snippets, noPackages := (has_without_mem (by decide)).1 h.packages,
            noRelationships := relationships_without.1 h.relationships, reviews := h.reviews }

theorem lens_raw : Lens NRaw.raw (fun b s => { s with raw := b }) := ⟨fun _ _ => rfl, fun _ => rfl, fun _ _ _ => rfl⟩

theorem keys_ndoc (so : Sorter) (v : Version) : ∀ f ∈ docFields so v, f.key ∉ listKeys → (listKeys.any fun k => sameKey k f.key) = false := by
  have h : ∀ k ∈ [g!"spdxVersion", g!"dataLicense", g!"SPDXID", g!"name", g!"documentNamespace", g!"externalDocumentRefs",
    g!"comment", g!"creationInfo", g!"packages", g!"files", g!"hasExtractedLicensingInfos", g!"relationships", g!"annotations", g!"snippets"],
      k ∉ listKeys → (listKeys.any fun k' => sameKey k' k) = false := by decide
  have e : (docFields so v).map (·.key) = [g!"spdxVersion", g!"dataLicense", g!"SPDXID", g!"name", g!"documentNamespace", g!"externalDocumentRefs",
    g!"comment", g!"creationInfo", g!"packages", g!"files", g!"hasExtractedLicensingInfos", g!"relationships", g!"annotations", g!"snippets"] := rfl
  rw [← e] at h
  exact fun f hf => h f.key (List.mem_map_of_mem hf)

/-- What the decoder reads before it looks at the relationships. -/
structure NRawIs (v : Version) (es : List (Str × Json)) (r : NRaw) : Prop where
  rest : DocumentIs v (without partKeys es) r.raw.doc
  relationships : HasOptions es g!"relationships" RelationshipIs {} r.raw.relationships
  noPackages : r.raw.packages = []
  packages : Has es g!"packages" (ListIs (OptionIs fun j x => ∃ es, j = .obj es ∧ NPackageSays v es x)) [] r.packages
  files : HasOptions es g!"files" (NFileIs v) {} r.files
  licenses : HasOptions es g!"hasExtractedLicensingInfos" LicenseIs {} r.otherLicenses
  annotations : HasOptions es g!"annotations" AnnotationIs {} r.annotations

theorem json_nraw_iff (so : Sorter) (v : Version) {es : List (Str × Json)} {x : NRaw} (ht : tidy (.obj es) n = true) :
    decodeFields es (nDocFields so v) {} = .ok x ↔ NRawIs v es x := by
  unfold nDocFields
  rw [decode_parts lens_raw listKeys (g := fun f => if f.key = g!"packages" then nPackagesField so v
    else if f.key = g!"files" then docFilesField v
    else if f.key = g!"hasExtractedLicensingInfos" then otherLicensesField
    else if f.key = g!"annotations" then annotationsField
    else f.lift (·.raw) (fun b s => { s with raw := b })) ?_ (keys_ndoc so v)]
  · have hb : ∀ s, decodeFields (without listKeys es) (docFields so v) ({} : RawDoc) = .ok s ↔ _ := fun s =>
      (json_raw_iff so (tidy_without ht) (without_absent listKeys es)).trans raw_without
    have e : (((docFields so v).filter fun f => decide (f.key ∈ listKeys)).map fun f => if f.key = g!"packages" then nPackagesField so v
        else if f.key = g!"files" then docFilesField v
        else if f.key = g!"hasExtractedLicensingInfos" then otherLicensesField
        else if f.key = g!"annotations" then annotationsField
        else f.lift (·.raw) (fun b s => { s with raw := b })) =
        [nPackagesField so v, docFilesField v, otherLicensesField, annotationsField] := rfl
    rw [e]
    obtain ⟨r, ps, fs, ls, as⟩ := x
    constructor
    · rintro ⟨s, t', h1, h, h3⟩
      obtain ⟨_, h4, h⟩ := peel_of ht h rfl (reads_nilList (reads_npackage so v))
      obtain ⟨_, h5, h⟩ := peel_of ht h rfl (reads_nilList (reads_nfile v).some)
      obtain ⟨_, h6, h⟩ := peel_of ht h rfl (reads_nilList reads_license.some)
      obtain ⟨_, h7, h⟩ := peel_of ht h rfl (reads_nilList reads_annotation.some)
      cases h
      cases h3
      obtain ⟨g1, g2, g3⟩ := (hb _).1 h1
      exact ⟨g1, g2, g3, h4, h5, h6, h7⟩
    · rintro ⟨g1, g2, g3, h4, h5, h6, h7⟩
      exact ⟨r, _, (hb _).2 ⟨g1, g2, g3⟩, unpeel ht rfl (reads_nilList (reads_npackage so v)) h4
        (unpeel ht rfl (reads_nilList (reads_nfile v).some) h5 (unpeel ht rfl (reads_nilList reads_license.some) h6
        (unpeel ht rfl (reads_nilList reads_annotation.some) h7 rfl))), rfl⟩
  · intro f _
    by_cases h1 : f.key = g!"packages"
    · rw [if_pos (by rw [h1]; decide), if_pos h1]
      exact ⟨fun _ _ => rfl, fun _ _ _ => rfl, fun _ _ => rfl⟩
    by_cases h2 : f.key = g!"files"
    · rw [if_pos (by rw [h2]; decide), if_neg h1, if_pos h2]
      exact ⟨fun _ _ => rfl, fun _ _ _ => rfl, fun _ _ => rfl⟩
    by_cases h3 : f.key = g!"hasExtractedLicensingInfos"
    · rw [if_pos (by rw [h3]; decide), if_neg h1, if_neg h2, if_pos h3]
      exact ⟨fun _ _ => rfl, fun _ _ _ => rfl, fun _ _ => rfl⟩
    by_cases h4 : f.key = g!"annotations"
    · rw [if_pos (by rw [h4]; decide), if_neg h1, if_neg h2, if_neg h3, if_pos h4]
      exact ⟨fun _ _ => rfl, fun _ _ _ => rfl, fun _ _ => rfl⟩
    · rw [if_neg (by simp only [listKeys, List.mem_cons, h1, h2, h3, h4, List.not_mem_nil, or_self, not_false_eq_true]), if_neg h1,
        if_neg h2, if_neg h3, if_neg h4]

/-! ## Lists with entries `null` -/

theorem option_map {γ : Type} {P : Json → β → Prop} {Q : Json → γ → Prop} (f : β → γ) (h : ∀ j x, P j x → Q j (f x)) (j : Json)
    (o : Option β) (ho : OptionIs P j o) : OptionIs Q j (o.map f) := by
  rcases ho with ⟨rfl, rfl⟩ | ⟨hn, x, rfl, hx⟩
  · exact .inl ⟨rfl, rfl⟩
  · exact .inr ⟨hn, f x, rfl, h j x hx⟩

theorem options_zip {γ δ : Type} {P : Json → β → Prop} {Q : Json → γ → Prop} {R : Json → δ → Prop} (f : δ → β) (g : δ → γ)
    {es : List (Str × Json)} {key : Str} (h : ∀ j, j ≠ .null → ∀ x y, P j x → Q j y → ∃ z, R j z ∧ f z = x ∧ g z = y)
    {l : List (Option β)} {m : List (Option γ)} (hl : Has es key (ListIs (OptionIs P)) [] l) (hm : Has es key (ListIs (OptionIs Q)) [] m) :
    ∃ r, Has es key (ListIs (OptionIs R)) [] r ∧ r.map (Option.map f) = l ∧ r.map (Option.map g) = m := by
  have h' : ∀ j, ∀ x y, OptionIs P j x → OptionIs Q j y → ∃ z, OptionIs R j z ∧ z.map f = x ∧ z.map g = y := by
    intro j x y hx hy
    rcases hx with ⟨rfl, rfl⟩ | ⟨hn, x, rfl, hx⟩ <;> rcases hy with ⟨h1, rfl⟩ | ⟨hn', y, rfl, hy⟩
    · exact ⟨none, .inl ⟨rfl, rfl⟩, rfl, rfl⟩
    · exact absurd rfl hn'
    · exact absurd h1 hn
    · obtain ⟨z, hz, rfl, rfl⟩ := h j hn x y hx hy
      exact ⟨some z, .inr ⟨hn, z, rfl, hz⟩, rfl, rfl⟩
  rcases hl with ⟨h1, rfl⟩ | ⟨j, h1, hl⟩ <;> rcases hm with ⟨h3, rfl⟩ | ⟨j', h3, hm⟩
  · exact ⟨[], .inl ⟨h1, rfl⟩, rfl, rfl⟩
  · rw [h1] at h3; cases h3
  · rw [h1] at h3; cases h3
  · rw [h1] at h3
    cases h3
    rcases hl with ⟨js, rfl, hl⟩ | ⟨rfl, rfl⟩ <;> rcases hm with ⟨js', h4, hm⟩ | ⟨h4, rfl⟩
    · cases h4
      obtain ⟨r, hr, h5, h6⟩ := json_pointwise_zip (Option.map f) (Option.map g) (fun j _ => h' j) hl hm
      exact ⟨r, .inr ⟨_, h1, .inl ⟨js, rfl, hr⟩⟩, h5, h6⟩
    · cases h4
    · cases h4
    · exact ⟨[], .inr ⟨_, h1, .inr ⟨rfl, rfl⟩⟩, rfl, rfl⟩

theorem hasFilesRels_filterMap (l : List (Option (PackageV × List DocElementID))) :
    hasFilesRels l = ((l.map (Option.map ownerOf)).filterMap fun o => o).flatMap fun o => o.2.map (ofElement o.1 g!"CONTAINS") := by
  induction l with
  | nil => rfl
  | cons a l ih =>
    cases a with
    | none => simpa [hasFilesRels] using ih
    | some p =>
      obtain ⟨p, f⟩ := p
      simp only [List.map_cons, hasFilesRels, ih]
      rfl

theorem load_options (id : Str) (own : List (Option Relationship)) (ds : List DocElementID)
    (l : List (Option (PackageV × List DocElementID))) :
    loadRelationships id own ds l = completed (own.filterMap fun o => o) (ds.map (ofElement id g!"DESCRIBES") ++
      ((l.map (Option.map ownerOf)).filterMap fun o => o).flatMap fun o => o.2.map (ofElement o.1 g!"CONTAINS")) := by
  unfold loadRelationships
  have ho : own.filterMap _root_.id = own.filterMap fun o => o := rfl
  rw [ho]
  obtain ⟨h1, h2⟩ := addRels_completed (describesRels id ds) (own.filterMap fun o => o) ((own.filterMap fun o => o).map serializeRel)
    fun _ => Iff.rfl
  show (addRels _ _ _).2 = _
  rw [h1, (addRels_completed _ _ _ h2).1, hasFilesRels_filterMap]
  unfold completed
  rw [List.foldl_append]
  rfl

/-- The identifier of a package and the files it says it has. -/
def nOwnerOf (x : NPackage × List DocElementID) : Str × List DocElementID := (x.1.pkg.spdxId, x.2)

theorem plainOwner_ownerOf (l : List (Option (NPackage × List DocElementID))) :
    (l.map (Option.map plainOwner)).map (Option.map ownerOf) = l.map (Option.map nOwnerOf) := by
  rw [List.map_map]
  exact List.map_congr_left fun a _ => by cases a <;> rfl

theorem decodeNDoc_iff (so : Sorter) (v : Version) {es : List (Str × Json)} {x : NDoc} (ht : tidy (.obj es) n = true) :
    decodeNDoc so v (.obj es) = .ok x ↔ NDocumentIs v es x := by
  have hid : ∀ {es : List (Str × Json)} {p : NPackage}, NPackageIs v es p → HasId es g!"SPDXID" p.pkg.spdxId := fun h =>
    (has_without (by decide)).1 h.rest.id
  by_cases hv : v = .v21
  · subst hv
    have hd : decodeNDoc so .v21 (.obj es) = (do
        let d ← decodeFields es (nDocFields so .v21) {}
        .ok { doc := d.raw.doc, packages := d.packages.map (Option.map Prod.fst), files := d.files,
              otherLicenses := d.otherLicenses, relationships := d.raw.relationships, annotations := d.annotations }) := rfl
    rw [hd]
    simp only [bind_eq_ok, json_nraw_iff so _ ht, Res.ok.injEq]
    constructor
    · rintro ⟨r, h, rfl⟩
      exact ⟨h.rest, json_has_map (Option.map Prod.fst) (option_map Prod.fst fun _ _ ⟨es, h1, (h2 : NPackageSays _ es _)⟩ =>
        .inl ⟨es, h1, h2.1⟩) h.packages, h.files, h.licenses, ⟨_, h.relationships, rfl⟩, h.annotations, rfl⟩
    · rintro ⟨h1, h2, h3, h4, ⟨own, h5, h5'⟩, h6, h7⟩
      obtain ⟨m, hm, hm', -⟩ := options_zip (R := fun j x => ∃ es, j = .obj es ∧ NPackageSays .v21 es x) (Q := fun _ _ => True)
        Prod.fst (fun _ => ()) (fun j hn p _ hp _ => by
          rcases hp with ⟨es, rfl, hp⟩ | ⟨rfl, _⟩
          · exact ⟨(p, []), ⟨es, rfl, hp, rfl⟩, rfl, rfl⟩
          · exact absurd rfl hn) h2 (json_has_map (Option.map fun _ => ()) (option_map (fun _ => ()) fun _ _ _ => trivial) h2)
      obtain ⟨d, ps, fs, ls, rs, as, vs⟩ := x
      cases h7
      cases h5'
      cases hm'
      exact ⟨⟨⟨d, [], rs⟩, m, fs, ls, as⟩, ⟨h1, h5, rfl, hm, h3, h4, h6⟩, rfl⟩
  · have hd : decodeNDoc so v (.obj es) = (do
        let d ← decodeFields es (nDocFields so v) {}
        let describes ← decodeFields es docExtrasFields []
        let rels := loadRelationships d.raw.doc.spdxId d.raw.relationships describes (d.packages.map (Option.map plainOwner))
        .ok { doc := d.raw.doc, packages := d.packages.map (Option.map Prod.fst), files := d.files,
              otherLicenses := d.otherLicenses, relationships := rels.map some, annotations := d.annotations }) := by
      cases v
      · exact absurd rfl hv
      · rfl
      · rfl
    have hx : ∀ x, decodeFields es docExtrasFields [] = .ok x ↔ Has es g!"documentDescribes" (ListIs RefIs) [] x := by
      intro x
      constructor
      · intro h
        obtain ⟨_, h1, h⟩ := peel_of ht h rfl (reads_list reads_ref)
        cases h
        exact h1
      · intro h
        exact unpeel ht rfl (reads_list reads_ref) h rfl
    rw [hd]
    simp only [bind_eq_ok, json_nraw_iff so _ ht, hx, Res.ok.injEq]
    constructor
    · rintro ⟨r, h, ds, h0, rfl⟩
      refine ⟨h.rest, json_has_map (Option.map Prod.fst) (option_map Prod.fst fun _ _ ⟨es, h1, (h2 : NPackageSays _ es _)⟩ =>
        .inl ⟨es, h1, h2.1⟩) h.packages, h.files, h.licenses, ⟨_, h.relationships, ?_⟩, h.annotations, rfl⟩
      rw [if_neg hv]
      refine ⟨ds, r.packages.map (Option.map nOwnerOf), h0,
        json_has_map (Option.map nOwnerOf) (option_map nOwnerOf fun _ _ ⟨es, h1, (h2 : NPackageSays _ es _)⟩ =>
          .inl ⟨es, h1, hid h2.1, Eq.mp (if_neg hv) h2.2⟩) h.packages, ?_⟩
      rw [load_options, plainOwner_ownerOf]
    · rintro ⟨h1, h2, h3, h4, ⟨own, h5, h5'⟩, h6, h7⟩
      rw [if_neg hv] at h5'
      obtain ⟨ds, owners, h0, hw, hr⟩ := h5'
      obtain ⟨m, hm, hm', hm''⟩ := options_zip (R := fun j x => ∃ es, j = .obj es ∧ NPackageSays v es x) Prod.fst
        nOwnerOf (fun j hn p y hp hy => by
          rcases hp with ⟨es, rfl, hp⟩ | ⟨rfl, _⟩
          · rcases hy with ⟨es', hes, hy⟩ | ⟨h, _⟩
            · cases hes
              refine ⟨(p, y.2), ⟨es, rfl, hp, ?_⟩, rfl, ?_⟩
              · rw [if_neg hv]; exact hy.2
              · exact Prod.ext (json_has_unique json_id_unique (hid hp) hy.1) rfl
            · cases h
          · exact absurd rfl hn) h2 hw
      obtain ⟨d, ps, fs, ls, rs, as, vs⟩ := x
      cases h7
      cases hm'
      refine ⟨⟨⟨d, [], own⟩, m, fs, ls, as⟩, ⟨h1, h5, rfl, hm, h3, h4, h6⟩, ds, h0, ?_⟩
      simp only [NDoc.mk.injEq, true_and, and_true]
      rw [load_options, plainOwner_ownerOf, hm'']
      exact hr.symm

end Verif
