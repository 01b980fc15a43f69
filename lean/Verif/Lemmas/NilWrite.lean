import Verif.Lemmas.Sort
import Verif.Lemmas.JsonDocument
import Verif.Spec.NilEntries

/-!
# Writing documents with nil entries
-/

namespace Verif
open Spec

variable {α β γ : Type}

/-! ## Lists -/

theorem allSome_none {l : List (Option α)} : allSome l = none ↔ none ∈ l := by
  induction l with
  | nil => simp [allSome]
  | cons a l ih => cases a <;> simp [allSome, ih]

theorem allSome_some {l : List (Option α)} {m : List α} : allSome l = some m ↔ l = m.map some := by
  induction l generalizing m with
  | nil => cases m <;> simp [allSome]
  | cons a l ih =>
    cases a with
    | none => cases m <;> simp [allSome]
    | some a =>
      cases m with
      | nil => simp [allSome]
      | cons b m =>
        simp only [allSome, Option.map_eq_some_iff, ih, List.map_cons, List.cons.injEq, Option.some.injEq]
        exact ⟨fun ⟨_, h, e, e'⟩ => ⟨e, e' ▸ h⟩, fun ⟨e, h⟩ => ⟨m, h, e, rfl⟩⟩

theorem bind_ok {a : α} {f : α → Res β} : (Res.ok a >>= f) = f a := rfl

theorem bind_panic {f : α → Res β} : ((Res.panic : Res α) >>= f) = .panic := rfl

theorem mapRes_panic {f : α → Res β} {l : List α} (h : ∀ a ∈ l, f a ≠ .err) (h' : ∃ a ∈ l, f a = .panic) :
    mapRes f l = .panic := by
  induction l with
  | nil => obtain ⟨_, ha, _⟩ := h'; cases ha
  | cons x l ih =>
    cases hx : f x with
    | err => exact absurd hx (h x (.head _))
    | panic => simp only [mapRes, hx, bind_panic]
    | ok b =>
      have : mapRes f l = .panic := by
        refine ih (fun a ha => h a (.tail _ ha)) ?_
        obtain ⟨a, ha, e⟩ := h'
        rcases List.mem_cons.1 ha with rfl | ha
        · rw [hx] at e; cases e
        · exact ⟨a, ha, e⟩
      simp only [mapRes, hx, this, bind_ok, bind_panic]

theorem derefAll_eq (l : List (Option α)) : derefAll l = deref (allSome l) := by
  induction l with
  | nil => rfl
  | cons a l ih =>
    cases a with
    | none => rfl
    | some a =>
      have : derefAll (some a :: l) = (derefAll l >>= fun m => .ok (a :: m)) := rfl
      rw [this, ih]
      cases h : allSome l <;> simp only [allSome, h] <;> rfl

/-- The loops over a slice of pointers: what is done with each entry gives something or panics. -/
theorem loop_eq {w : α → Option β} {r : α → Res γ} {r' : β → γ} {l : List (Option α)}
    (hr : ∀ a, some a ∈ l → r a = deref ((w a).map r')) :
    mapRes (fun o => do let a ← deref o; r a) l = deref ((allSome (l.map fun o => o.bind w)).map (List.map r')) := by
  induction l with
  | nil => rfl
  | cons o l ih =>
    have ih := ih fun a ha => hr a (.tail _ ha)
    cases o with
    | none => rfl
    | some a =>
      have ha := hr a (.head _)
      have e : mapRes (fun o => do let a ← deref o; r a) (some a :: l) =
          (r a >>= fun c => mapRes (fun o => do let a ← deref o; r a) l >>= fun m => .ok (c :: m)) := rfl
      rw [e, ha, ih]
      cases hw : w a with
      | none => simp only [List.map_cons, Option.bind_some, hw, allSome]; rfl
      | some b =>
        simp only [List.map_cons, Option.bind_some, hw, allSome]
        cases allSome (l.map fun o => o.bind w) <;> rfl

/-! ## Sorting -/

theorem run_short (so : Sorter) (k : α → Str) {l : List α} (h : l.length ≤ 1) : so.run k l = l := by
  have hp := so.perm k l
  match l, h with
  | [], _ => exact hp.eq_nil
  | [a], _ => exact List.perm_singleton.1 hp

/-- A loop over a sorted slice of pointers. -/
theorem sorted_loop {so : Sorter} (hso : Blind so) {key : α → Str} {w : α → Option β} {key' : β → Str} {plain : α → β}
    {r : α → Res γ} {r' : β → γ} {l : List (Option α)} (hr : ∀ a, some a ∈ l → r a = deref ((w a).map r'))
    (hk : ∀ a, key' (plain a) = key a) (hp : ∀ a b, w a = some b → plain a = b) :
    (sortPointers so key l >>= fun m => mapRes (fun o => do let a ← deref o; r a) m) =
      deref ((allSome (l.map fun o => o.bind w)).map fun bs => (so.run key' bs).map r') := by
  cases hl : allSome l with
  | none =>
    have hn := allSome_none.1 hl
    have hq : allSome (l.map fun o => o.bind w) = none :=
      allSome_none.2 (List.mem_map.2 ⟨none, hn, rfl⟩)
    rw [hq]
    simp only [sortPointers]
    by_cases h1 : l.length ≤ 1
    · rw [if_pos h1, bind_ok, loop_eq hr, hq]; rfl
    · rw [if_neg h1, derefAll_eq, hl]; rfl
  | some m =>
    have e := allSome_some.1 hl
    subst e
    have hs : sortPointers so key (m.map some) = .ok ((so.run key m).map some) := by
      simp only [sortPointers]
      by_cases h1 : (m.map some).length ≤ 1
      · rw [if_pos h1, run_short so key (by simpa using h1)]
      · rw [if_neg h1, derefAll_eq, allSome_somes]; rfl
    have hr' : ∀ a, some a ∈ (so.run key m).map some → r a = deref ((w a).map r') := by
      intro a ha
      refine hr a ?_
      simp only [List.mem_map, Option.some.injEq, exists_eq_right] at ha ⊢
      exact (so.mem key m a).1 ha
    rw [hs, bind_ok, loop_eq hr']
    cases hw : allSome ((m.map some).map fun o => o.bind w) with
    | none =>
      have : allSome (((so.run key m).map some).map fun o => o.bind w) = none := by
        refine allSome_none.2 ?_
        have := allSome_none.1 hw
        simp only [List.map_map, List.mem_map] at this ⊢
        obtain ⟨a, ha, e⟩ := this
        exact ⟨a, (so.mem key m a).2 ha, e⟩
      rw [this]; rfl
    | some bs =>
      have hmap : ∀ k : List α, (∀ a ∈ k, a ∈ m) → (k.map some).map (fun o => o.bind w) = (k.map plain).map some := by
        intro k hsub
        simp only [List.map_map]
        refine List.map_congr_left fun a ha => ?_
        have := allSome_some.1 hw
        have hin : w a ∈ bs.map some := by
          rw [← this, List.map_map]
          exact List.mem_map.2 ⟨a, hsub a ha, rfl⟩
        obtain ⟨b, _, hb⟩ := List.mem_map.1 hin
        show w a = some (plain a)
        rw [hp a b hb.symm, hb]
      have hbs : bs = m.map plain := by
        have := allSome_some.1 hw
        rw [hmap m fun _ h => h] at this
        exact (List.map_inj_right fun _ _ => Option.some.inj).1 this.symm
      rw [hmap _ fun a ha => (so.mem key m a).1 ha, allSome_somes, hbs]
      have : (key' ∘ plain) = key := funext hk
      simp only [Option.map_some, hso plain key' m, this]

/-! ## Snippets -/

theorem mapGet_some {k : Str} {m : List (Str × Snippet)} : mapGet k (m.map fun e => (e.1, some e.2)) = (mapGet k m).map some := by
  induction m with
  | nil => rfl
  | cons e m ih =>
    obtain ⟨k', s⟩ := e
    simp only [List.map_cons, mapGet]
    split
    · rfl
    · exact ih

theorem mapGet_key {k : Str} {m : List (Str × α)} (h : k ∈ m.map Prod.fst) : ∃ a, mapGet k m = some a := by
  induction m with
  | nil => cases h
  | cons e m ih =>
    obtain ⟨k', s⟩ := e
    simp only [mapGet]
    split
    · exact ⟨s, rfl⟩
    · rename_i hk
      rcases List.mem_cons.1 h with rfl | h
      · exact absurd rfl hk
      · exact ih h

theorem mapGet_unique {k : Str} {a : α} {m : List (Str × α)} (hn : (m.map Prod.fst).Nodup) (h : (k, a) ∈ m) :
    mapGet k m = some a := by
  induction m with
  | nil => cases h
  | cons e m ih =>
    obtain ⟨k', b⟩ := e
    simp only [List.map_cons, List.nodup_cons] at hn
    simp only [mapGet]
    rcases List.mem_cons.1 h with e | h
    · cases e; rw [if_pos rfl]
    · rw [if_neg, ih hn.2 h]
      rintro rfl
      exact hn.1 (List.mem_map.2 ⟨_, h, rfl⟩)

theorem snippets_map {l : List (Str × Option Snippet)} {ss : List (Str × Snippet)}
    (h : allSome (l.map fun e => e.2.map fun s => (e.1, s)) = some ss) : l = ss.map fun e => (e.1, some e.2) := by
  have h := allSome_some.1 h
  induction l generalizing ss with
  | nil => cases ss with
    | nil => rfl
    | cons => cases h
  | cons e l ih =>
    cases ss with
    | nil => cases h
    | cons s ss =>
      obtain ⟨k, o⟩ := e
      simp only [List.map_cons, List.cons.injEq] at h
      cases o with
      | none => cases h.1
      | some x =>
        obtain ⟨h1, h2⟩ := h
        cases h1
        rw [ih (allSome_some.2 h2) h2]; rfl

theorem snippets_none {l : List (Str × Option Snippet)} :
    allSome (l.map fun e => e.2.map fun s => (e.1, s)) = none ↔ ∃ e ∈ l, e.2 = none := by
  rw [allSome_none, List.mem_map]
  simp only [Option.map_eq_none_iff]

theorem snippets_loop (so : Sorter) {f : NFile} (hm : SnippetMap f) : allSome (nSnippetsInOrder so f) =
    (allSome (f.snippets.map fun e => e.2.map fun s => (e.1, s))).map fun ss => snippetsInOrder so { f.file with snippets := ss } := by
  cases h : allSome (f.snippets.map fun e => e.2.map fun s => (e.1, s)) with
  | none =>
    obtain ⟨⟨k, o⟩, he, ho⟩ := snippets_none.1 h
    cases ho
    refine allSome_none.2 (List.mem_map.2 ⟨k, (so.mem id _ k).2 (List.mem_map.2 ⟨_, he, rfl⟩), ?_⟩)
    rw [mapGet_unique hm he]; rfl
  | some ss =>
    have e := snippets_map h
    simp only [nSnippetsInOrder, snippetsInOrder, Option.map_some, e]
    have hk : (ss.map fun e => ((e.1, some e.2) : Str × Option Snippet)).map Prod.fst = ss.map Prod.fst := by
      rw [List.map_map]; rfl
    rw [hk, allSome_some]
    have hin : ∀ k ∈ so.run id (ss.map Prod.fst), k ∈ ss.map Prod.fst := fun k hk => (so.mem id _ k).1 hk
    revert hin
    generalize so.run id (ss.map Prod.fst) = ks
    intro hin
    induction ks with
    | nil => rfl
    | cons k ks ih =>
      obtain ⟨a, ha⟩ := mapGet_key (hin k (.head _))
      simp only [List.map_cons, List.filterMap_cons, mapGet_some, ha, Option.map_some]
      rw [← ih fun k hk => hin k (.tail _ hk)]
      simp only [mapGet_some]; rfl

/-! ## Files, packages and documents -/

theorem nRenderFile_eq (v : Version) (so : Sorter) {f : NFile} (hm : SnippetMap f) :
    nRenderFile v so f = deref (f.whole.map (renderFile v so)) := by
  simp only [nRenderFile, derefAll_eq, snippets_loop so hm, NFile.whole]
  cases allSome f.artifacts with
  | none => rfl
  | some as =>
    cases allSome (f.snippets.map fun e => e.2.map fun s => (e.1, s)) with
    | none => rfl
    | some ss => rfl

/-- The file itself, or what is there of it. -/
def plainFile (f : NFile) : FileV := f.whole.getD f.file

/-- The package itself, or what is there of it. -/
def plainPackage (p : NPackage) : PackageV := p.whole.getD p.pkg

theorem file_whole {f : NFile} {g : FileV} (h : f.whole = some g) :
    ∃ as ss, allSome f.artifacts = some as ∧ allSome (f.snippets.map fun e => e.2.map fun s => (e.1, s)) = some ss ∧
      g = { f.file with artifactOfProjects := as, snippets := ss } := by
  simp only [NFile.whole] at h
  cases ha : allSome f.artifacts with
  | none => rw [ha] at h; cases h
  | some as =>
    cases hs : allSome (f.snippets.map fun e => e.2.map fun s => (e.1, s)) with
    | none => rw [ha, hs] at h; cases h
    | some ss =>
      rw [ha, hs] at h
      cases h
      exact ⟨as, ss, rfl, rfl, rfl⟩

theorem package_whole {p : NPackage} {q : PackageV} (h : p.whole = some q) :
    ∃ rs fs, allSome p.externalRefs = some rs ∧ allSome (p.files.map fun f => f.bind NFile.whole) = some fs ∧
      q = { p.pkg with externalRefs := rs, files := fs } := by
  simp only [NPackage.whole] at h
  cases ha : allSome p.externalRefs with
  | none => rw [ha] at h; cases h
  | some as =>
    cases hs : allSome (p.files.map fun f => f.bind NFile.whole) with
    | none => rw [ha, hs] at h; cases h
    | some ss =>
      rw [ha, hs] at h
      cases h
      exact ⟨as, ss, rfl, rfl, rfl⟩

theorem plainFile_id (f : NFile) : (plainFile f).spdxId = f.file.spdxId := by
  simp only [plainFile]
  cases h : f.whole with
  | none => rfl
  | some g => obtain ⟨_, _, _, _, rfl⟩ := file_whole h; rfl

theorem plainPackage_id (p : NPackage) : (plainPackage p).spdxId = p.pkg.spdxId := by
  simp only [plainPackage]
  cases h : p.whole with
  | none => rfl
  | some g => obtain ⟨_, _, _, _, rfl⟩ := package_whole h; rfl

theorem nRenderFiles_eq {so : Sorter} (hso : Blind so) (v : Version) {l : List (Option NFile)} (hm : ∀ f, some f ∈ l → SnippetMap f) :
    (sortPointers so (·.file.spdxId) l >>= fun fs => nRenderFiles v so fs) =
      deref ((allSome (l.map fun f => f.bind NFile.whole)).map fun fs => (so.run (·.spdxId) fs).map (renderFile v so)) :=
  sorted_loop hso (plain := plainFile) (fun f hf => nRenderFile_eq v so (hm f hf)) plainFile_id
    fun f g h => by simp only [plainFile, h]; rfl

theorem nRenderPackage_eq {so : Sorter} (hso : Blind so) (v : Version) {p : NPackage} (hm : ∀ f, some f ∈ p.files → SnippetMap f) :
    nRenderPackage v so p = deref (p.whole.map (renderPackage v so)) := by
  have e : nRenderPackage v so p = (derefAll p.externalRefs >>= fun rs =>
      (sortPointers so (·.file.spdxId) p.files >>= fun fs => nRenderFiles v so fs) >>= fun is =>
        .ok (renderPackageFields v { p.pkg with externalRefs := rs } ++ is.flatten)) := by
    simp only [nRenderPackage]
    cases derefAll p.externalRefs <;> first | rfl | skip
    cases sortPointers so (fun x => x.file.spdxId) p.files <;> rfl
  rw [e, nRenderFiles_eq hso v hm, derefAll_eq]
  simp only [NPackage.whole]
  cases allSome p.externalRefs with
  | none => rfl
  | some rs =>
    cases allSome (p.files.map fun f => f.bind NFile.whole) with
    | none => rfl
    | some fs =>
      show Res.ok _ = Res.ok _
      simp only [renderPackage, sortPackageFiles, List.flatMap]
      rfl

theorem nRenderPackages_eq {so : Sorter} (hso : Blind so) (v : Version) {l : List (Option NPackage)}
    (hm : ∀ p, some p ∈ l → ∀ f, some f ∈ p.files → SnippetMap f) :
    (sortPointers so (·.pkg.spdxId) l >>= fun ps => mapRes (nRenderPackageGroup v so) ps) =
      deref ((allSome (l.map fun p => p.bind NPackage.whole)).map fun ps => (so.run (·.spdxId) ps).map (renderPackageGroup v so)) := by
  refine sorted_loop hso (w := NPackage.whole) (plain := plainPackage) (r := fun p => do
    let is ← nRenderPackage v so p
    .ok ([.line (g!"##### Package: " ++ p.pkg.name), .line []] ++ is)) (fun p hp => ?_) plainPackage_id
    fun f g h => by simp only [plainPackage, h]; rfl
  rw [nRenderPackage_eq hso v (hm p hp)]
  cases h : p.whole with
  | none => rfl
  | some q => obtain ⟨_, _, _, _, rfl⟩ := package_whole h; rfl

theorem nWrite_eq {so : Sorter} (hso : Blind so) (v : Version) {n : NDoc} (hm : SnippetMaps n) {ci : CreationInfo}
    (hc : n.doc.creationInfo = some ci) :
    nWriteTagValue v so n = deref (n.whole.map fun d => emit (renderBody v so d ci)) := by
  have e : nWriteTagValue v so n = ((sortPointers so (·.file.spdxId) n.files >>= fun fs => nRenderFiles v so fs) >>= fun is =>
      (sortPointers so (·.pkg.spdxId) n.packages >>= fun ps => mapRes (nRenderPackageGroup v so) ps) >>= fun js =>
      derefAll n.otherLicenses >>= fun ls => derefAll n.relationships >>= fun rs => derefAll n.annotations >>= fun as =>
      derefAll n.reviews >>= fun vs =>
      .ok (emit (renderHeader so n.doc ++ renderCreationInfo ci ++ heading n.files g!"##### Unpackaged files" ++ is.flatten ++
      js.flatten ++ renderTail { n.doc with otherLicenses := ls, relationships := rs, annotations := as, reviews := vs }))) := by
    simp only [nWriteTagValue, hc]
    cases sortPointers so (fun x => x.file.spdxId) n.files <;> first | rfl | skip
    rename_i fs
    simp only [bind_ok]
    cases nRenderFiles v so fs <;> first | rfl | skip
    simp only [bind_ok]
    cases sortPointers so (fun x => x.pkg.spdxId) n.packages <;> rfl
  rw [e, nRenderFiles_eq hso v hm.1, nRenderPackages_eq hso v hm.2]
  simp only [derefAll_eq, NDoc.whole]
  have hd : ∀ fs, allSome (n.files.map fun f => f.bind NFile.whole) = some fs →
      heading n.files g!"##### Unpackaged files" = heading fs g!"##### Unpackaged files" := by
    intro fs h
    have h := allSome_some.1 h
    have : n.files = [] ↔ fs = [] := by
      have := congrArg List.length h
      simp only [List.length_map] at this
      rw [← List.length_eq_zero_iff, ← List.length_eq_zero_iff, this]
    simp only [heading]
    by_cases h1 : fs = []
    · rw [if_pos h1, if_pos (this.2 h1)]
    · rw [if_neg h1, if_neg fun h => h1 (this.1 h)]
  cases hf : allSome (n.files.map fun f => f.bind NFile.whole) with
  | none => cases allSome (n.packages.map fun f => f.bind NPackage.whole) <;> rfl
  | some fs =>
    rw [hd fs hf]
    cases allSome (n.packages.map fun f => f.bind NPackage.whole) with
    | none => rfl
    | some ps =>
      cases allSome n.otherLicenses with
      | none => rfl
      | some ls =>
        cases allSome n.relationships with
        | none => rfl
        | some rs =>
          cases allSome n.annotations with
          | none => rfl
          | some as =>
            cases allSome n.reviews with
            | none => rfl
            | some vs => rfl

/-! ## Missing entries -/

theorem file_lacks {f : NFile} : f.whole = none ↔ FileLacks f := by
  simp only [FileLacks, ← allSome_none, ← snippets_none, NFile.whole]
  cases allSome f.artifacts with
  | none => simp
  | some as => cases allSome (f.snippets.map fun e => e.2.map fun s => (e.1, s)) <;> simp

theorem bind_lacks {w : α → Option β} {l : List (Option α)} :
    allSome (l.map fun o => o.bind w) = none ↔ none ∈ l ∨ ∃ a, some a ∈ l ∧ w a = none := by
  rw [allSome_none, List.mem_map]
  constructor
  · rintro ⟨o, ho, e⟩
    cases o with
    | none => exact .inl ho
    | some a => exact .inr ⟨a, ho, e⟩
  · rintro (h | ⟨a, h, e⟩)
    · exact ⟨none, h, rfl⟩
    · exact ⟨some a, h, e⟩

theorem files_lack {l : List (Option NFile)} : allSome (l.map fun o => o.bind NFile.whole) = none ↔ FilesLack l := by
  rw [bind_lacks]; simp only [FilesLack, file_lacks]

theorem package_lacks {p : NPackage} : p.whole = none ↔ PackageLacks p := by
  simp only [PackageLacks, ← allSome_none, ← files_lack, NPackage.whole]
  cases allSome p.externalRefs with
  | none => simp
  | some as => cases allSome (p.files.map fun o => o.bind NFile.whole) <;> simp

theorem doc_lacks {n : NDoc} : n.whole = none ↔ Lacks n := by
  have hp : (none ∈ n.packages ∨ ∃ p, some p ∈ n.packages ∧ PackageLacks p) ↔
      allSome (n.packages.map fun o => o.bind NPackage.whole) = none := by
    rw [bind_lacks]; simp only [package_lacks]
  rw [Lacks, hp]
  simp only [← files_lack, ← allSome_none, NDoc.whole]
  cases allSome (n.packages.map fun o => o.bind NPackage.whole) with
  | none => simp
  | some ps =>
    cases allSome (n.files.map fun o => o.bind NFile.whole) with
    | none => simp
    | some fs =>
      cases allSome n.otherLicenses with
      | none => simp
      | some ls =>
        cases allSome n.relationships with
        | none => simp
        | some rs =>
          cases allSome n.annotations with
          | none => simp
          | some as => cases allSome n.reviews <;> simp

theorem allSome_of {f : α → β} {w : β → Option α} (h : ∀ a, w (f a) = some a) (l : List α) :
    allSome ((l.map fun a => some (f a)).map fun o => o.bind w) = some l := by
  rw [allSome_some, List.map_map]
  exact List.map_congr_left fun a _ => h a

theorem whole_ofFile (f : FileV) : (ofFile f).whole = some f := by
  have h1 : allSome (ofFile f).artifacts = some f.artifactOfProjects := allSome_somes _
  have h2 : allSome ((ofFile f).snippets.map fun e => e.2.map fun s => (e.1, s)) = some f.snippets := by
    rw [allSome_some]; simp only [ofFile, List.map_map]; rfl
  simp only [NFile.whole, h1, h2]; rfl

theorem whole_ofPackage (p : PackageV) : (ofPackage p).whole = some p := by
  have h1 : allSome (ofPackage p).externalRefs = some p.externalRefs := allSome_somes _
  have h2 : allSome ((ofPackage p).files.map fun o => o.bind NFile.whole) = some p.files := allSome_of whole_ofFile _
  simp only [NPackage.whole, h1, h2]; rfl

theorem whole_ofDoc (d : Doc) : (ofDoc d).whole = some d := by
  have h1 : allSome ((ofDoc d).packages.map fun o => o.bind NPackage.whole) = some d.packages := allSome_of whole_ofPackage _
  have h2 : allSome ((ofDoc d).files.map fun o => o.bind NFile.whole) = some d.files := allSome_of whole_ofFile _
  have h3 : allSome (ofDoc d).otherLicenses = some d.otherLicenses := allSome_somes _
  have h4 : allSome (ofDoc d).relationships = some d.relationships := allSome_somes _
  have h5 : allSome (ofDoc d).annotations = some d.annotations := allSome_somes _
  have h6 : allSome (ofDoc d).reviews = some d.reviews := allSome_somes _
  simp only [NDoc.whole, h1, h2, h3, h4, h5, h6]; rfl

/-! ## Validation -/

theorem elementIds_lacks {key : α → Str} {l : List (Option α)} : none ∈ l ↔ elementIds key l = .panic := by
  induction l with
  | nil => simp [elementIds]
  | cons o l ih =>
    cases o with
    | none => simp [elementIds, deref]
    | some a =>
      simp only [List.mem_cons, reduceCtorEq, false_or, ih, elementIds, deref]
      cases elementIds key l <;> simp <;> rfl

/-! ## Sorting without looking -/

theorem insertBy_map (f : α → β) (k : β → Str) (x : α) (l : List α) :
    insertBy k (f x) (l.map f) = (insertBy (k ∘ f) x l).map f := by
  induction l with
  | nil => rfl
  | cons y l ih =>
    simp only [List.map_cons, insertBy, Function.comp]
    split
    · rfl
    · rw [ih]; rfl

theorem insertion_blind : Blind insertionSorter := by
  intro α β f k l
  simp only [insertionSorter]
  induction l with
  | nil => rfl
  | cons x l ih => simp only [List.map_cons, List.foldr_cons, ih, insertBy_map]

end Verif
