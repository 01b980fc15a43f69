import Verif.Lemmas.JsonObjects

/-!
# The decoder reads what a JSON document says
-/

namespace Verif
open Spec

variable {σ β : Type} {n : Bool}

theorem json_has_option {es : List (Str × Json)} {key : Str} {says : Json → β → Prop} {unset x : β}
    (hn : ∀ x, says .null x ↔ x = unset) :
    Has es key says unset x ↔ ∃ o, Has es key (OptionIs says) none o ∧ x = o.getD unset := by
  unfold Has OptionIs
  constructor
  · rintro (⟨h, rfl⟩ | ⟨j, h, h'⟩)
    · exact ⟨none, .inl ⟨h, rfl⟩, rfl⟩
    · by_cases hj : j = .null
      · subst hj
        exact ⟨none, .inr ⟨.null, h, .inl ⟨rfl, rfl⟩⟩, (hn x).1 h'⟩
      · exact ⟨some x, .inr ⟨j, h, .inr ⟨hj, x, rfl, h'⟩⟩, rfl⟩
  · rintro ⟨o, ⟨h, rfl⟩ | ⟨j, h, ⟨rfl, rfl⟩ | ⟨hj, x, rfl, h'⟩⟩, rfl⟩
    · exact .inl ⟨h, rfl⟩
    · exact .inr ⟨_, h, (hn _).2 rfl⟩
    · exact .inr ⟨_, h, h'⟩

/-- An object says one thing under a key. -/
theorem json_has_unique {es : List (Str × Json)} {key : Str} {says : Json → β → Prop} {unset x y : β}
    (hu : ∀ j x y, says j x → says j y → x = y) (hx : Has es key says unset x) (hy : Has es key says unset y) : x = y := by
  rcases hx with ⟨h1, rfl⟩ | ⟨j, h1, h2⟩ <;> rcases hy with ⟨h3, rfl⟩ | ⟨j', h3, h4⟩
  · rfl
  · rw [h1] at h3; cases h3
  · rw [h1] at h3; cases h3
  · rw [h1] at h3; cases h3
    exact hu _ _ _ h2 h4

theorem flag_null (x : Bool) : FlagIs .null x ↔ x = false := by simp [FlagIs]

theorem flag_option_unique (j : Json) (x y : Option Bool) (hx : OptionIs FlagIs j x) (hy : OptionIs FlagIs j y) : x = y := by
  rcases hx with ⟨rfl, rfl⟩ | ⟨h, a, rfl, ha⟩ <;> rcases hy with ⟨h', rfl⟩ | ⟨h', b, rfl, hb⟩
  · rfl
  · exact absurd rfl h'
  · exact absurd h' h
  · rcases ha with rfl | ⟨rfl, _⟩ <;> rcases hb with hb | ⟨hb, _⟩
    · cases hb; rfl
    · cases hb
    · cases hb
    · exact absurd rfl h

theorem json_id_unique {pre : Str} (j : Json) (x y : Str) (hx : IdIs pre j x) (hy : IdIs pre j y) : x = y :=
  List.append_cancel_left (hx.1.symm.trans hy.1)

/-- What is read of a package: the package and the files it says it has. -/
def PackageSays (v : Version) (es : List (Str × Json)) (x : PackageV × List DocElementID) : Prop :=
  PackageIs v es x.1 ∧ if v = .v21 then x.2 = [] else Has es g!"hasFiles" (ListIs RefIs) [] x.2

theorem rest_set {v : Version} {es : List (Str × Json)} {p : PackageV} (a t : Bool) (h : PackageRest v es p) :
    PackageRest v es { p with filesAnalyzed := a, filesAnalyzedTagPresent := t } := { h with }

theorem extras_iff {es : List (Str × Json)} {x : PackageExtras} (ht : tidy (.obj es) n = true) :
    decodeFields es packageExtrasFields {} = .ok x ↔ Has es g!"hasFiles" (ListIs RefIs) [] x.hasFiles ∧
      Has es g!"filesAnalyzed" (OptionIs FlagIs) none x.filesAnalyzed := by
  constructor
  · intro h
    obtain ⟨_, h1, h⟩ := peel_of ht h rfl (reads_list reads_ref)
    obtain ⟨_, h2, h⟩ := peel_of ht h rfl (reads_ptr reads_flag.some)
    cases h
    exact ⟨h1, h2⟩
  · rintro ⟨h1, h2⟩
    refine unpeel ht rfl (reads_list reads_ref) h1 ?_
    refine unpeel ht rfl (reads_ptr reads_flag.some) h2 ?_
    rfl

theorem decodePackage_iff {v : Version} {es : List (Str × Json)} {x : PackageV × List DocElementID}
    (ht : tidy (.obj es) n = true) (hn : Absent n es [g!"externalRefs", g!"files"]) : decodePackage v (.obj es) ({}, []) = .ok x ↔ PackageSays v es x := by
  obtain ⟨p, hf⟩ := x
  unfold PackageSays
  rw [json_package_rest]
  by_cases hv : v = .v21
  · subst hv
    show (do let p ← decodeFields es (packageFields .v21) {}; Res.ok (p, [])) = _ ↔ _
    rw [bind_eq_ok]
    simp only [if_true]
    constructor
    · rintro ⟨q, h, h'⟩
      cases h'
      obtain ⟨h1, h2, h3⟩ := (json_package_iff _ ht hn).1 h
      obtain ⟨o, h4, h5⟩ := (json_has_option flag_null).1 h2
      exact ⟨⟨h1, o, h4, h5, h3⟩, rfl⟩
    · rintro ⟨⟨h1, o, h4, h5, h3⟩, rfl⟩
      exact ⟨p, (json_package_iff _ ht hn).2 ⟨h1, (json_has_option flag_null).2 ⟨o, h4, h5⟩, h3⟩, rfl⟩
  · have hd : decodePackage v (.obj es) ({}, []) = (do
        let p ← decodeFields es (packageFields v) {}
        let e ← decodeFields es packageExtrasFields {}
        let p := match e.filesAnalyzed with
          | none => { p with filesAnalyzed := true }
          | some _ => { p with filesAnalyzedTagPresent := true }
        .ok (p, e.hasFiles)) := by
      cases v
      · exact absurd rfl hv
      · rfl
      · rfl
    rw [hd, bind_eq_ok]
    simp only [bind_eq_ok, ne_eq, hv, not_false_eq_true, decide_true, Bool.true_and]
    constructor
    · rintro ⟨q, h, ⟨hf', o⟩, h', h''⟩
      obtain ⟨h1, h2, h3⟩ := (json_package_iff _ ht hn).1 h
      obtain ⟨h4, h5⟩ := (extras_iff ht).1 h'
      obtain ⟨o', h6, h7⟩ := (json_has_option flag_null).1 h2
      have := json_has_unique flag_option_unique h5 h6
      subst this
      cases o with
      | none =>
        cases h''
        exact ⟨⟨rest_set true q.filesAnalyzedTagPresent h1, none, h5, rfl, h3⟩, h4⟩
      | some b =>
        cases h''
        exact ⟨⟨rest_set q.filesAnalyzed true h1, some b, h5, h7, rfl⟩, h4⟩
    · rintro ⟨⟨h1, o, h4, h5, h3⟩, h6⟩
      refine ⟨{ p with filesAnalyzed := o.getD false, filesAnalyzedTagPresent := false },
        (json_package_iff _ ht hn).2 ⟨rest_set _ _ h1, (json_has_option flag_null).2 ⟨o, h4, rfl⟩, rfl⟩,
        ⟨hf, o⟩, (extras_iff ht).2 ⟨h6, h4⟩, ?_⟩
      cases p
      cases h5
      cases h3
      cases o <;> rfl

theorem reads_package (so : Sorter) (v : Version) :
    JReadsSome (packageCodec so v) ({}, []) (fun j x => ∃ es, j = .obj es ∧ PackageSays v es x) := by
  intro j hj hn x
  show decodePackage v j ({}, []) = _ ↔ _
  cases j with
  | obj es => simp [decodePackage_iff hj (.inl rfl)]
  | null => exact absurd rfl hn
  | _ => cases v <;> simp [decodePackage, structCodec]

/-! ## The document -/

/-- What the decoder reads before it looks at the relationships. -/
structure RawIs (v : Version) (es : List (Str × Json)) (r : RawDoc) : Prop where
  version : HasText es g!"spdxVersion" r.doc.spdxVersion
  license : HasText es g!"dataLicense" r.doc.dataLicense
  id : HasId es g!"SPDXID" r.doc.spdxId
  name : HasText es g!"name" r.doc.name
  namespace_ : HasText es g!"documentNamespace" r.doc.namespace_
  externalDocuments : HasObjects es g!"externalDocumentRefs" ExternalDocumentIs {} r.doc.externalDocumentRefs
  comment : HasText es g!"comment" r.doc.comment
  creation : Has es g!"creationInfo" (OptionIs (ObjectIs CreationIs {})) none r.doc.creationInfo
  packages : Has es g!"packages" (ListIs (OptionIs fun j x => ∃ es, j = .obj es ∧ PackageSays v es x)) [] r.packages
  files : HasObjects es g!"files" (FileIs v) {} r.doc.files
  licenses : HasObjects es g!"hasExtractedLicensingInfos" LicenseIs {} r.doc.otherLicenses
  relationships : Has es g!"relationships" (ListIs (OptionIs (ObjectIs RelationshipIs {}))) [] r.relationships
  annotations : HasObjects es g!"annotations" AnnotationIs {} r.doc.annotations
  snippets : HasObjects es g!"snippets" SnippetIs {} r.doc.snippets
  noPackages : r.doc.packages = []
  noRelationships : r.doc.relationships = []
  reviews : r.doc.reviews = []

theorem json_raw_iff (so : Sorter) {v : Version} {es : List (Str × Json)} {x : RawDoc} (ht : tidy (.obj es) n = true)
    (hn : Absent n es [g!"packages", g!"files", g!"hasExtractedLicensingInfos", g!"annotations"]) :
    decodeFields es (docFields so v) {} = .ok x ↔ RawIs v es x := by
  constructor
  · intro h
    obtain ⟨_, h_version, h⟩ := peel_of ht h rfl reads_text
    obtain ⟨_, h_license, h⟩ := peel_of ht h rfl reads_text
    obtain ⟨_, h_id, h⟩ := peel_of ht h rfl reads_elementId
    obtain ⟨_, h_name, h⟩ := peel_of ht h rfl reads_text
    obtain ⟨_, h_namespace, h⟩ := peel_of ht h rfl reads_text
    obtain ⟨_, h_externalDocuments, h⟩ := peel_of ht h rfl (reads_list reads_externalDocument)
    obtain ⟨_, h_comment, h⟩ := peel_of ht h rfl reads_text
    obtain ⟨_, h_creation, h⟩ := peel_of ht h rfl (reads_ptr reads_creation.some)
    obtain ⟨_, h_packages, h⟩ := peel_of' ht (hn.key (k := g!"packages")) h rfl (reads_list (reads_ptr (reads_package so v)))
    obtain ⟨_, h_files, h⟩ := peel_of' ht (hn.key (k := g!"files")) h rfl (reads_ptrList (reads_file v).some)
    obtain ⟨_, h_licenses, h⟩ := peel_of' ht (hn.key (k := g!"hasExtractedLicensingInfos")) h rfl (reads_ptrList reads_license.some)
    obtain ⟨_, h_relationships, h⟩ := peel_of ht h rfl (reads_list (reads_ptr reads_relationship.some))
    obtain ⟨_, h_annotations, h⟩ := peel_of' ht (hn.key (k := g!"annotations")) h rfl (reads_ptrList reads_annotation.some)
    obtain ⟨_, h_snippets, h⟩ := peel_of ht h rfl (reads_list (reads_snippet v))
    cases h
    exact ⟨h_version, h_license, h_id, h_name, h_namespace, h_externalDocuments, h_comment, h_creation, h_packages, h_files, h_licenses, h_relationships, h_annotations, h_snippets, rfl, rfl, rfl⟩
  · rintro ⟨h_version, h_license, h_id, h_name, h_namespace, h_externalDocuments, h_comment, h_creation, h_packages, h_files, h_licenses, h_relationships, h_annotations, h_snippets, z1, z2, z3⟩
    obtain ⟨d, ps, rs⟩ := x
    cases d
    cases z1
    cases z2
    cases z3
    refine unpeel ht rfl reads_text h_version ?_
    refine unpeel ht rfl reads_text h_license ?_
    refine unpeel ht rfl reads_elementId h_id ?_
    refine unpeel ht rfl reads_text h_name ?_
    refine unpeel ht rfl reads_text h_namespace ?_
    refine unpeel ht rfl (reads_list reads_externalDocument) h_externalDocuments ?_
    refine unpeel ht rfl reads_text h_comment ?_
    refine unpeel ht rfl (reads_ptr reads_creation.some) h_creation ?_
    refine unpeel' ht (hn.key (k := g!"packages")) rfl (reads_list (reads_ptr (reads_package so v))) h_packages ?_
    refine unpeel' ht (hn.key (k := g!"files")) rfl (reads_ptrList (reads_file v).some) h_files ?_
    refine unpeel' ht (hn.key (k := g!"hasExtractedLicensingInfos")) rfl (reads_ptrList reads_license.some) h_licenses ?_
    refine unpeel ht rfl (reads_list (reads_ptr reads_relationship.some)) h_relationships ?_
    refine unpeel' ht (hn.key (k := g!"annotations")) rfl (reads_ptrList reads_annotation.some) h_annotations ?_
    refine unpeel ht rfl (reads_list (reads_snippet v)) h_snippets ?_
    rfl

theorem pointwise_somes {says : Json → β → Prop} {js : List Json} {l : List (Option β)} (hn : ∀ j ∈ js, j ≠ .null) :
    Pointwise (OptionIs says) js l ↔ ∃ m, l = m.map some ∧ Pointwise says js m := by
  constructor
  · intro h
    induction h with
    | nil => exact ⟨[], rfl, .nil⟩
    | cons h _ ih =>
      obtain ⟨m, rfl, hm⟩ := ih fun j hj => hn j (by simp [hj])
      rcases h with ⟨h, _⟩ | ⟨_, x, rfl, h⟩
      · exact absurd h (hn _ (by simp))
      · exact ⟨x :: m, rfl, .cons h hm⟩
  · rintro ⟨m, rfl, h⟩
    induction h with
    | nil => exact .nil
    | cons h _ ih => exact .cons (.inr ⟨hn _ (by simp), _, rfl, h⟩) (ih fun j hj => hn j (by simp [hj]))

theorem has_somes {es : List (Str × Json)} {key : Str} {says : Json → β → Prop} {l : List (Option β)}
    (ht : tidy (.obj es) = true) :
    Has es key (ListIs (OptionIs says)) [] l ↔ ∃ m, l = m.map some ∧ Has es key (ListIs says) [] m := by
  unfold Has ListIs
  constructor
  · rintro (⟨h, rfl⟩ | ⟨j, h, ⟨js, rfl, hp⟩ | ⟨rfl, rfl⟩⟩)
    · exact ⟨[], rfl, .inl ⟨h, rfl⟩⟩
    · have hl := tidy_list (by have := tidy_entry ht h; rwa [tidy] at this)
      obtain ⟨m, rfl, hm⟩ := (pointwise_somes fun j hj => (hl j hj).2 rfl).1 hp
      exact ⟨m, rfl, .inr ⟨_, h, .inl ⟨js, rfl, hm⟩⟩⟩
    · exact ⟨[], rfl, .inr ⟨_, h, .inr ⟨rfl, rfl⟩⟩⟩
  · rintro ⟨m, rfl, (⟨h, rfl⟩ | ⟨j, h, ⟨js, rfl, hp⟩ | ⟨rfl, rfl⟩⟩)⟩
    · exact .inl ⟨h, rfl⟩
    · have hl := tidy_list (by have := tidy_entry ht h; rwa [tidy] at this)
      exact .inr ⟨_, h, .inl ⟨js, rfl, (pointwise_somes fun j hj => (hl j hj).2 rfl).2 ⟨m, rfl, hp⟩⟩⟩
    · exact .inr ⟨_, h, .inr ⟨rfl, rfl⟩⟩

theorem allSome_somes (m : List β) : allSome (m.map some) = some m := by
  induction m with
  | nil => rfl
  | cons a m ih => simp [allSome, ih]

/-- The identifier of a package and the files it says it has. -/
def ownerOf (x : PackageV × List DocElementID) : Str × List DocElementID := (x.1.spdxId, x.2)

theorem json_pointwise_map {γ : Type} {P : Json → β → Prop} {Q : Json → γ → Prop} (f : β → γ) (h : ∀ j x, P j x → Q j (f x)) {js : List Json}
    {l : List β} (hp : Pointwise P js l) : Pointwise Q js (l.map f) := by
  induction hp with
  | nil => exact .nil
  | cons h' _ ih => exact .cons (h _ _ h') ih

theorem json_has_map {γ : Type} {P : Json → β → Prop} {Q : Json → γ → Prop} (f : β → γ) (h : ∀ j x, P j x → Q j (f x))
    {es : List (Str × Json)} {key : Str} {l : List β} (hp : Has es key (ListIs P) [] l) : Has es key (ListIs Q) [] (l.map f) := by
  rcases hp with ⟨h1, rfl⟩ | ⟨j, h1, ⟨js, rfl, hp⟩ | ⟨rfl, rfl⟩⟩
  · exact .inl ⟨h1, rfl⟩
  · exact .inr ⟨_, h1, .inl ⟨js, rfl, json_pointwise_map f h hp⟩⟩
  · exact .inr ⟨_, h1, .inr ⟨rfl, rfl⟩⟩

/-- Two readings of the same list. -/
theorem json_pointwise_zip {γ δ : Type} {P : Json → β → Prop} {Q : Json → γ → Prop} {R : Json → δ → Prop} (f : δ → β) (g : δ → γ)
    {js : List Json} (h : ∀ j ∈ js, ∀ x y, P j x → Q j y → ∃ z, R j z ∧ f z = x ∧ g z = y)
    {l : List β} {m : List γ} (hl : Pointwise P js l) (hm : Pointwise Q js m) :
    ∃ r, Pointwise R js r ∧ r.map f = l ∧ r.map g = m := by
  induction hl generalizing m with
  | nil => cases hm; exact ⟨[], .nil, rfl, rfl⟩
  | cons h1 _ ih =>
    cases hm with
    | cons h2 h3 =>
      obtain ⟨r, hr, rfl, rfl⟩ := ih (fun j hj => h j (by simp [hj])) h3
      obtain ⟨z, hz, rfl, rfl⟩ := h _ (by simp) _ _ h1 h2
      exact ⟨z :: r, .cons hz hr, rfl, rfl⟩

theorem json_has_zip {γ δ : Type} {P : Json → β → Prop} {Q : Json → γ → Prop} {R : Json → δ → Prop} (f : δ → β) (g : δ → γ)
    {es : List (Str × Json)} {key : Str} (ht : tidy (.obj es) = true)
    (h : ∀ j, tidy j = true → j ≠ .null → ∀ x y, P j x → Q j y → ∃ z, R j z ∧ f z = x ∧ g z = y)
    {l : List β} {m : List γ} (hl : Has es key (ListIs P) [] l) (hm : Has es key (ListIs Q) [] m) :
    ∃ r, Has es key (ListIs R) [] r ∧ r.map f = l ∧ r.map g = m := by
  rcases hl with ⟨h1, rfl⟩ | ⟨j, h1, hl⟩ <;> rcases hm with ⟨h3, rfl⟩ | ⟨j', h3, hm⟩
  · exact ⟨[], .inl ⟨h1, rfl⟩, rfl, rfl⟩
  · rw [h1] at h3; cases h3
  · rw [h1] at h3; cases h3
  · have ht' := tidy_entry ht h1
    rw [h1] at h3
    cases h3
    rcases hl with ⟨js, rfl, hl⟩ | ⟨rfl, rfl⟩ <;> rcases hm with ⟨js', h4, hm⟩ | ⟨h4, rfl⟩
    · cases h4
      have hn := tidy_list (by rwa [tidy] at ht')
      obtain ⟨r, hr, h5, h6⟩ := json_pointwise_zip f g (fun j hj => h j (hn j hj).1 ((hn j hj).2 rfl)) hl hm
      exact ⟨r, .inr ⟨_, h1, .inl ⟨js, rfl, hr⟩⟩, h5, h6⟩
    · cases h4
    · cases h4
    · exact ⟨[], .inr ⟨_, h1, .inr ⟨rfl, rfl⟩⟩, rfl, rfl⟩

/-! ## Relationships -/

theorem addRels_completed : ∀ (new rels : List Relationship) (index : List Str), (∀ x, x ∈ index ↔ x ∈ rels.map serializeRel) →
    (addRels index rels new).2 = completed rels new ∧
      ∀ x, x ∈ (addRels index rels new).1 ↔ x ∈ (completed rels new).map serializeRel
  | [], _, _, h => ⟨rfl, h⟩
  | r :: new, rels, index, h => by
    have hc : (rels.any fun s => linkText s = linkText r) = index.contains (serializeRel r) := by
      rw [Bool.eq_iff_iff, List.contains_iff_mem, h]
      have hl : ∀ r, linkText r = serializeRel r := fun r => (serializeRel_link r).symm
      simp [hl]
    rw [addRels, completed, List.foldl_cons, hc]
    cases hi : index.contains (serializeRel r) with
    | true => exact addRels_completed new rels index h
    | false =>
      refine addRels_completed new (rels ++ [r]) _ fun x => ?_
      simp only [List.mem_cons, h, List.map_append, List.mem_append, List.map_cons, List.map_nil, List.not_mem_nil, or_false]
      exact Or.comm

theorem hasFilesRels_map (m : List (PackageV × List DocElementID)) :
    hasFilesRels (m.map some) = (m.map ownerOf).flatMap fun o => o.2.map (ofElement o.1 g!"CONTAINS") := by
  induction m with
  | nil => rfl
  | cons a m ih =>
    obtain ⟨p, f⟩ := a
    simp only [List.map_cons, hasFilesRels, ih, List.flatMap_cons]
    rfl

theorem load_completed (id : Str) (own : List Relationship) (ds : List DocElementID) (m : List (PackageV × List DocElementID)) :
    loadRelationships id (own.map some) ds (m.map some) = completed own (ds.map (ofElement id g!"DESCRIBES") ++
      (m.map ownerOf).flatMap fun o => o.2.map (ofElement o.1 g!"CONTAINS")) := by
  unfold loadRelationships
  have ho : (own.map some).filterMap _root_.id = own := by simp [List.filterMap_map]
  rw [ho]
  obtain ⟨h1, h2⟩ := addRels_completed (describesRels id ds) own (own.map serializeRel) fun _ => Iff.rfl
  show (addRels _ _ _).2 = _
  rw [h1, (addRels_completed _ _ _ h2).1, hasFilesRels_map]
  unfold completed
  rw [List.foldl_append]
  rfl

theorem decodeDoc_iff (so : Sorter) {v : Version} {es : List (Str × Json)} {d : Doc} (ht : tidy (.obj es) = true) :
    decodeDoc so v (.obj es) = .ok d ↔ DocumentIs v es d := by
  by_cases hv : v = .v21
  · subst hv
    have hd : decodeDoc so .v21 (.obj es) = (do
        let d ← decodeFields es (docFields so .v21) {}
        let ps ← Res.ofOption (allSome d.packages)
        let rs ← Res.ofOption (allSome d.relationships)
        .ok { d.doc with packages := ps.map (·.1), relationships := rs }) := rfl
    rw [hd]
    simp only [bind_eq_ok, json_raw_iff so ht (.inl rfl)]
    constructor
    · rintro ⟨⟨d', ps, rs⟩, h, qs, h1, rs', h2, h3⟩
      obtain ⟨m, rfl, hm⟩ := (has_somes ht).1 h.packages
      obtain ⟨own, rfl, ho⟩ := (has_somes ht).1 h.relationships
      rw [allSome_somes] at h1 h2
      cases h1
      cases h2
      cases h3
      exact { h with
        packages := json_has_map Prod.fst (fun _ _ ⟨es, h1, (h2 : PackageSays _ es _)⟩ => .inl ⟨es, h1, h2.1⟩) hm
        relationships := ⟨_, ho, rfl⟩ }
    · intro h
      obtain ⟨own, ho, hr⟩ := h.relationships
      obtain ⟨m, hm, hm', -⟩ := json_has_zip (R := fun j x => ∃ es, j = .obj es ∧ PackageSays .v21 es x)
        (Q := fun _ _ => True) Prod.fst (fun _ => ()) ht
        (fun j hj hn x _ hx _ => by
          rcases hx with ⟨es, rfl, hx⟩ | ⟨rfl, _⟩
          · exact ⟨(x, []), ⟨es, rfl, hx, rfl⟩, rfl, rfl⟩
          · exact absurd rfl hn) h.packages (json_has_map (fun _ => ()) (fun _ _ _ => trivial) h.packages)
      refine ⟨⟨{ d with packages := [], relationships := [] }, m.map some, own.map some⟩,
        { h with packages := (has_somes ht).2 ⟨m, rfl, hm⟩, relationships := (has_somes ht).2 ⟨own, rfl, ho⟩, noPackages := rfl,
                 noRelationships := rfl },
        m, by rw [allSome_somes]; rfl, own, by rw [allSome_somes]; rfl, ?_⟩
      cases d
      cases hr
      cases hm'
      rfl
  · have hd : decodeDoc so v (.obj es) = (do
        let d ← decodeFields es (docFields so v) {}
        let describes ← decodeFields es docExtrasFields []
        let rels := loadRelationships d.doc.spdxId d.relationships describes d.packages
        let ps ← Res.ofOption (allSome d.packages)
        .ok { d.doc with packages := ps.map (·.1), relationships := rels }) := by
      cases v
      · exact absurd rfl hv
      · rfl
      · rfl
    have hx : ∀ x, decodeFields es docExtrasFields [] = .ok x ↔ Has es g!"documentDescribes" (ListIs RefIs) [] x := by
      intro x
      constructor
      · intro h
        obtain ⟨_, h1, h⟩ := peel_of ht h rfl (reads_list reads_ref)
        cases h
        exact h1
      · intro h
        exact unpeel ht rfl (reads_list reads_ref) h rfl
    rw [hd]
    simp only [bind_eq_ok, json_raw_iff so ht (.inl rfl), hx]
    constructor
    · rintro ⟨⟨d', ps, rs⟩, h, ds, h0, qs, h1, h3⟩
      obtain ⟨m, rfl, hm⟩ := (has_somes ht).1 h.packages
      obtain ⟨own, rfl, ho⟩ := (has_somes ht).1 h.relationships
      rw [allSome_somes] at h1
      have e : m = qs := Res.ok.inj h1
      subst e
      cases h3
      exact { h with
        packages := json_has_map Prod.fst (fun _ _ ⟨es, h1, (h2 : PackageSays _ es _)⟩ => .inl ⟨es, h1, h2.1⟩) hm
        relationships := ⟨own, ho, by
          rw [if_neg hv]
          refine ⟨ds, m.map ownerOf, h0, json_has_map ownerOf (fun _ _ ⟨es, h1, (h2 : PackageSays _ es _)⟩ =>
            .inl ⟨es, h1, h2.1.id, Eq.mp (if_neg hv) h2.2⟩) hm, load_completed _ _ _ _⟩⟩ }
    · intro h
      obtain ⟨own, ho, hr⟩ := h.relationships
      rw [if_neg hv] at hr
      obtain ⟨ds, owners, h0, hw, hr⟩ := hr
      obtain ⟨m, hm, hm', hm''⟩ := json_has_zip (R := fun j x => ∃ es, j = .obj es ∧ PackageSays v es x) Prod.fst ownerOf ht
        (fun j hj hn x y hx hy => by
          rcases hx with ⟨es, rfl, hx⟩ | ⟨rfl, _⟩
          · rcases hy with ⟨es', hes, hy⟩ | ⟨h, _⟩
            · cases hes
              refine ⟨(x, y.2), ⟨es, rfl, hx, ?_⟩, rfl, ?_⟩
              · rw [if_neg hv]; exact hy.2
              · exact Prod.ext (json_has_unique json_id_unique hx.id hy.1) rfl
            · cases h
          · exact absurd rfl hn) h.packages hw
      refine ⟨⟨{ d with packages := [], relationships := [] }, m.map some, own.map some⟩,
        { h with packages := (has_somes ht).2 ⟨m, rfl, hm⟩, relationships := (has_somes ht).2 ⟨own, rfl, ho⟩,
                 noPackages := rfl, noRelationships := rfl },
        ds, h0, m, by rw [allSome_somes]; rfl, ?_⟩
      show Res.ok { d with
        packages := m.map (·.1)
        relationships := loadRelationships d.spdxId (own.map some) ds (m.map some) } = .ok d
      rw [load_completed, hm'', ← hr]
      cases d
      cases hm'
      rfl

end Verif
