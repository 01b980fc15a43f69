import Verif.Lemmas.NilWrite
import Verif.Lemmas.Streams
import Verif.Model.NilPrint
import Verif.Spec.NilPrint

/-!
# Lemmas: what is printed before a nil pointer is met
-/

namespace Verif
open Spec

variable {α β : Type}

/-! ## When the writer comes to its end -/

theorem then_done (a b : Printed) : (a.andThen b).done = (a.done && b.done) := by
  unfold Printed.andThen
  cases h : a.done <;> simp [h]

theorem say_done (is : List Item) : (say is).done = true := rfl

theorem over_done {body : α → Printed} {l : List (Option α)} :
    (overAll body l).done = true ↔ none ∉ l ∧ ∀ a, some a ∈ l → (body a).done = true := by
  induction l with
  | nil => simp [overAll, say]
  | cons o l ih =>
    cases o with
    | none => simp [overAll]
    | some a =>
      simp only [overAll, then_done, Bool.and_eq_true, ih, List.mem_cons, reduceCtorEq, false_or, Option.some.injEq]
      constructor
      · rintro ⟨h1, h2, h3⟩
        refine ⟨h2, fun b hb => ?_⟩
        rcases hb with rfl | hb
        · exact h1
        · exact h3 b hb
      · rintro ⟨h1, h2⟩
        exact ⟨h2 a (.inl rfl), h1, fun b hb => h2 b (.inr hb)⟩

theorem over_say_done {r : α → List Item} {l : List (Option α)} : (overAll (fun a => say (r a)) l).done = true ↔ none ∉ l := by
  rw [over_done]
  exact ⟨And.left, fun h => ⟨h, fun _ _ => rfl⟩⟩

theorem sortPointers_somes (so : Sorter) (key : α → Str) (m : List α) : sortPointers so key (m.map some) = .ok ((so.run key m).map some) := by
  simp only [sortPointers]
  by_cases h1 : (m.map some).length ≤ 1
  · rw [if_pos h1, run_short so key (by simpa using h1)]
  · rw [if_neg h1, derefAll_eq, allSome_somes]; rfl

theorem somes_of {l : List (Option α)} (h : none ∉ l) : ∃ m : List α, l = m.map some := by
  cases hl : allSome l with
  | none => exact absurd (allSome_none.1 hl) h
  | some m => exact ⟨m, allSome_some.1 hl⟩

theorem sortPointers_none {so : Sorter} {key : α → Str} {l : List (Option α)} (h : none ∈ l) :
    sortPointers so key l = .panic ∨ l = [none] := by
  simp only [sortPointers]
  by_cases h1 : l.length ≤ 1
  · right
    match l, h, h1 with
    | [o], h, _ => simp at h; rw [← h]
  · left
    rw [if_neg h1, derefAll_eq, allSome_none.2 h]; rfl

theorem sorted_done {so : Sorter} {key : α → Str} {body : α → Printed} {l : List (Option α)} :
    (sortedOverAll so key body l).done = true ↔ none ∉ l ∧ ∀ a, some a ∈ l → (body a).done = true := by
  by_cases h : none ∈ l
  · have : (sortedOverAll so key body l).done = false := by
      rcases sortPointers_none (so := so) (key := key) h with hs | rfl
      · simp only [sortedOverAll, hs]
      · simp [sortedOverAll, sortPointers, overAll]
    simp [this, h]
  · obtain ⟨m, rfl⟩ := somes_of h
    simp only [sortedOverAll, sortPointers_somes, over_done]
    simp [so.mem]

theorem snippets_in_order {so : Sorter} {f : NFile} (h : none ∈ nSnippetsInOrder so f) : ∃ e ∈ f.snippets, e.2 = none := by
  obtain ⟨k, hk, h⟩ := List.mem_map.1 h
  obtain ⟨o, ho⟩ := mapGet_key ((so.mem id _ k).1 hk)
  rw [ho] at h
  have hm : ∀ {m : List (Str × Option Snippet)}, mapGet k m = some o → (k, o) ∈ m := by
    intro m
    induction m with
    | nil => intro h; cases h
    | cons e m ih =>
      obtain ⟨k', o'⟩ := e
      intro h
      simp only [mapGet] at h
      split at h
      · rename_i hk
        simp only [Option.some.injEq] at h
        subst h
        first | (subst hk; exact List.mem_cons_self) | (have := eq_of_beq hk; subst this; exact List.mem_cons_self)
      · exact List.mem_cons_of_mem _ (ih h)
  exact ⟨_, hm ho, h⟩

theorem file_done {v : Version} {so : Sorter} {f : NFile} (h : ¬ FileLacks f) : (printFile v so f).done = true := by
  simp only [printFile, then_done, say_done, Bool.true_and, Bool.and_eq_true, over_say_done]
  exact ⟨fun ha => h (.inl ha), fun ha => h (.inr (snippets_in_order ha))⟩

theorem file_stops {v : Version} {so : Sorter} {f : NFile} (hm : SnippetMap f) (h : FileLacks f) : (printFile v so f).done = false := by
  rw [← Bool.not_eq_true]
  simp only [printFile, then_done, say_done, Bool.true_and, Bool.and_eq_true, over_say_done]
  rintro ⟨h1, h2⟩
  rcases h with h | ⟨⟨k, o⟩, he, ho⟩
  · exact h1 h
  · cases ho
    refine h2 (List.mem_map.2 ⟨k, (so.mem id _ k).2 (List.mem_map.2 ⟨_, he, rfl⟩), ?_⟩)
    rw [mapGet_unique hm he]; rfl

theorem files_done {v : Version} {so : Sorter} {l : List (Option NFile)} (hm : ∀ f, some f ∈ l → SnippetMap f) :
    (sortedOverAll so (·.file.spdxId) (printFile v so) l).done = true ↔ ¬ FilesLack l := by
  rw [sorted_done]
  constructor
  · rintro ⟨h1, h2⟩ (h | ⟨f, hf, h⟩)
    · exact h1 h
    · have := h2 f hf
      rw [file_stops (hm f hf) h] at this
      cases this
  · intro h
    exact ⟨fun hn => h (.inl hn), fun f hf => file_done fun hl => h (.inr ⟨f, hf, hl⟩)⟩

theorem package_done {v : Version} {so : Sorter} {p : NPackage} (hm : ∀ f, some f ∈ p.files → SnippetMap f) :
    (printPackageGroup v so p).done = true ↔ ¬ PackageLacks p := by
  simp only [printPackageGroup, printPackage, then_done, say_done, Bool.true_and, Bool.and_eq_true, over_say_done, files_done hm, PackageLacks,
    not_or]

theorem document_done {v : Version} {so : Sorter} {n : NDoc} {ci : CreationInfo} (hm : SnippetMaps n) :
    (printWhole v so n ci).done = true ↔ ¬ Lacks n := by
  have hp : (sortedOverAll so (·.pkg.spdxId) (printPackageGroup v so) n.packages).done = true ↔
      ¬ (none ∈ n.packages ∨ ∃ p, some p ∈ n.packages ∧ PackageLacks p) := by
    rw [sorted_done, not_or, not_exists]
    constructor
    · rintro ⟨h1, h2⟩
      exact ⟨h1, fun p ⟨hp, hl⟩ => (package_done (hm.2 p hp)).1 (h2 p hp) hl⟩
    · rintro ⟨h1, h2⟩
      exact ⟨h1, fun p hp => (package_done (hm.2 p hp)).2 fun hl => h2 p ⟨hp, hl⟩⟩
  simp only [printWhole, printRelationships, then_done, say_done, Bool.true_and, Bool.and_true, Bool.and_eq_true, over_say_done, files_done hm.1, hp, Lacks, not_or]

/-! ## What is printed begins every text of a document with the gaps filled -/

/-- The beginning of `is`, and all of it if the function returned. -/
def Begins (p : Printed) (is : List Item) : Prop := p.items <+: is ∧ (p.done = true → p.items = is)

theorem begins_say (is : List Item) : Begins (say is) is := ⟨List.prefix_refl _, fun _ => rfl⟩

theorem begins_stopped (is : List Item) : Begins ⟨[], false⟩ is := ⟨List.nil_prefix, by simp⟩

theorem begins_then {a b : Printed} {x y : List Item} (ha : Begins a x) (hb : Begins b y) : Begins (a.andThen b) (x ++ y) := by
  unfold Printed.andThen
  cases h : a.done with
  | false => exact ⟨ha.1.trans (List.prefix_append _ _), by simp [h]⟩
  | true =>
    have := ha.2 h
    subst this
    exact ⟨List.prefix_append_right_inj _ |>.2 hb.1, fun hd => by rw [← hb.2 hd]; rfl⟩

theorem begins_over {R : α → β → Prop} {body : α → Printed} {r : β → List Item} (hr : ∀ a b, R a b → Begins (body a) (r b)) {l : List (Option α)}
    {m : List β} (h : Filled R l m) : Begins (overAll body l) (m.flatMap r) := by
  induction h with
  | nil => exact begins_say []
  | @cons o b l m ho _ ih =>
    cases o with
    | none => exact begins_stopped _
    | some a =>
      rw [List.flatMap_cons]
      exact begins_then (hr a b (ho a rfl)) ih

theorem begins_over_say {r : α → List Item} {l : List (Option α)} {m : List α} (h : Filled Eq l m) :
    Begins (overAll (fun a => say (r a)) l) (m.flatMap r) :=
  begins_over (R := Eq) (fun a b e => by subst e; exact begins_say _) h

theorem filled_zip {R : α → β → Prop} {m : List α} {m' : List β} (h : Filled R (m.map some) m') :
    ∃ z : List (α × β), m = z.map Prod.fst ∧ m' = z.map Prod.snd ∧ ∀ e ∈ z, R e.1 e.2 := by
  induction m generalizing m' with
  | nil => cases h; exact ⟨[], rfl, rfl, by simp⟩
  | cons a m ih =>
    cases h with
    | @cons _ b _ m' h1 h2 =>
      obtain ⟨z, rfl, rfl, hz⟩ := ih h2
      refine ⟨(a, b) :: z, rfl, rfl, fun e he => ?_⟩
      rcases List.mem_cons.1 he with rfl | he
      · exact h1 a rfl
      · exact hz e he

theorem filled_of_zip {R : α → β → Prop} {z : List (α × β)} (h : ∀ e ∈ z, R e.1 e.2) : Filled R ((z.map Prod.fst).map some) (z.map Prod.snd) := by
  induction z with
  | nil => exact .nil
  | cons e z ih =>
    refine .cons (fun a ha => ?_) (ih fun x hx => h x (List.mem_cons_of_mem _ hx))
    cases ha
    exact h e List.mem_cons_self

theorem run_congr {so : Sorter} {k k' : α → Str} {l : List α} (hso : Blind so) (h : ∀ a ∈ l, k a = k' a) : so.run k l = so.run k' l := by
  have e : l = (l.attach.map Subtype.val) := by simp
  have e2 : (k ∘ Subtype.val : {x // x ∈ l} → Str) = k' ∘ Subtype.val := funext fun x => h x.1 x.2
  rw [e, hso, hso, e2]

theorem begins_sorted {so : Sorter} (hso : Blind so) {key : α → Str} {key' : β → Str} {R : α → β → Prop} {body : α → Printed}
    {r : β → List Item} (hk : ∀ a b, R a b → key a = key' b) (hr : ∀ a b, R a b → Begins (body a) (r b)) {l : List (Option α)} {m : List β}
    (h : Filled R l m) : Begins (sortedOverAll so key body l) ((so.run key' m).flatMap r) := by
  by_cases hn : none ∈ l
  · rcases sortPointers_none (so := so) (key := key) hn with hs | rfl
    · simp only [sortedOverAll, hs]
      exact begins_stopped _
    · have : sortPointers so key [none] = .ok [none] := rfl
      simp only [sortedOverAll, this]
      exact begins_stopped _
  · obtain ⟨l', rfl⟩ := somes_of hn
    obtain ⟨z, rfl, rfl, hz⟩ := filled_zip h
    simp only [sortedOverAll, sortPointers_somes]
    rw [hso Prod.fst key z, hso Prod.snd key' z, run_congr hso (k := key ∘ Prod.fst) (k' := key' ∘ Prod.snd) (fun e he => hk _ _ (hz e he))]
    exact begins_over hr (filled_of_zip fun e he => hz e ((so.mem _ _ _).1 he))

theorem snippets_filled {so : Sorter} {n : NFile} {f : FileV}
    (h : Pointwise (fun o b => o.1 = b.1 ∧ ∀ a, o.2 = some a → a = b.2) n.snippets f.snippets) :
    Filled Eq (nSnippetsInOrder so n) (snippetsInOrder so f) := by
  have keys : n.snippets.map Prod.fst = f.snippets.map Prod.fst := by
    revert h
    generalize n.snippets = l
    generalize f.snippets = m
    intro h
    induction h with
    | nil => rfl
    | cons h _ ih => rw [List.map_cons, List.map_cons, ih, h.1]
  have get : ∀ k s, mapGet k f.snippets = some s → ∀ a, (mapGet k n.snippets).join = some a → a = s := by
    intro k
    revert h
    generalize n.snippets = l
    generalize f.snippets = m
    intro h
    induction h with
    | nil => intro s h; cases h
    | @cons o b l m h _ ih =>
      obtain ⟨k', o⟩ := o
      obtain ⟨k'', b⟩ := b
      obtain ⟨h1, h2⟩ := h
      cases h1
      intro s hs a ha
      simp only [mapGet] at hs ha
      split at hs
      · rename_i hk
        rw [if_pos hk] at ha
        simp only [Option.some.injEq] at hs
        subst hs
        exact h2 a ha
      · rename_i hk
        rw [if_neg hk] at ha
        exact ih s hs a ha
  have step : ∀ ks : List Str, (∀ k ∈ ks, k ∈ f.snippets.map Prod.fst) →
      Filled Eq (ks.map fun k => (mapGet k n.snippets).join) (ks.filterMap fun k => mapGet k f.snippets) := by
    intro ks
    induction ks with
    | nil => intro _; exact .nil
    | cons k ks ih =>
      intro hk
      obtain ⟨s, hs⟩ := mapGet_key (hk k List.mem_cons_self)
      rw [List.map_cons, List.filterMap_cons, hs]
      exact .cons (get k s hs) (ih fun x hx => hk x (List.mem_cons_of_mem _ hx))
  rw [nSnippetsInOrder, snippetsInOrder, keys]
  exact step _ fun k hk => (so.mem id _ k).1 hk

theorem begins_file (v : Version) (so : Sorter) {n : NFile} {f : FileV} (h : FilledFile n f) : Begins (printFile v so n) (renderFile v so f) := by
  obtain ⟨h1, h2, h3⟩ := h
  have e : renderFile v so f = fileFieldsBefore n.file ++ (f.artifactOfProjects.flatMap renderArtifact ++ (fileFieldsAfter v n.file ++
      (snippetsInOrder so f).flatMap (renderSnippet v))) := by
    have : renderFileFields v f = fileFieldsBefore n.file ++ (f.artifactOfProjects.flatMap renderArtifact ++ fileFieldsAfter v n.file) := by
      rw [h1]
      simp only [renderFileFields, fileFieldsBefore, fileFieldsAfter, List.append_assoc]
    rw [renderFile, this]
    simp only [List.append_assoc]
  rw [e]
  exact begins_then (begins_say _) (begins_then (begins_over_say h2) (begins_then (begins_say _) (begins_over_say (snippets_filled h3))))

theorem filled_file_id {n : NFile} {f : FileV} (h : FilledFile n f) : n.file.spdxId = f.spdxId := by
  have := congrArg (fun x : FileV => x.spdxId) h.1
  exact this.symm

theorem filled_package_id {n : NPackage} {p : PackageV} (h : FilledPackage n p) : n.pkg.spdxId = p.spdxId ∧ n.pkg.name = p.name := by
  have h1 := congrArg (fun x : PackageV => x.spdxId) h.1
  have h2 := congrArg (fun x : PackageV => x.name) h.1
  exact ⟨h1.symm, h2.symm⟩

theorem begins_files {so : Sorter} (hso : Blind so) (v : Version) {l : List (Option NFile)} {m : List FileV} (h : Filled FilledFile l m) :
    Begins (sortedOverAll so (·.file.spdxId) (printFile v so) l) ((so.run (·.spdxId) m).flatMap (renderFile v so)) :=
  begins_sorted hso (key := fun n : NFile => n.file.spdxId) (key' := fun f : FileV => f.spdxId) (fun _ _ h => filled_file_id h) (fun _ _ => begins_file v so) h

theorem package_fields_eq (v : Version) (p : PackageV) :
    renderPackageFields v p = packageFieldsBefore v p ++ (p.externalRefs.flatMap renderExternalRef ++ packageFieldsAfter v p) := by
  have key : ∀ A B C D : List Item, A ++ B ++ C ++ D = A ++ (B ++ (C ++ D)) := by simp
  exact key _ _ _ _

theorem package_before {v : Version} {p q : PackageV} {rs : List PackageExternalRef} {fs : List FileV}
    (h : p = { q with externalRefs := rs, files := fs }) : packageFieldsBefore v p = packageFieldsBefore v q := by
  subst h
  cases q
  rfl

theorem package_after {v : Version} {p q : PackageV} {rs : List PackageExternalRef} {fs : List FileV}
    (h : p = { q with externalRefs := rs, files := fs }) : packageFieldsAfter v p = packageFieldsAfter v q := by
  subst h
  cases q
  rfl

theorem begins_package {so : Sorter} (hso : Blind so) (v : Version) {n : NPackage} {p : PackageV} (h : FilledPackage n p) :
    Begins (printPackageGroup v so n) (renderPackageGroup v so p) := by
  have en : p.name = n.pkg.name := (filled_package_id h).2.symm
  obtain ⟨h1, h2, h3⟩ := h
  have e : renderPackage v so p = packageFieldsBefore v n.pkg ++ (p.externalRefs.flatMap renderExternalRef ++ (packageFieldsAfter v n.pkg ++
      (so.run (·.spdxId) p.files).flatMap (renderFile v so))) := by
    have : renderPackageFields v p = packageFieldsBefore v n.pkg ++ (p.externalRefs.flatMap renderExternalRef ++ packageFieldsAfter v n.pkg) := by
      rw [package_fields_eq, package_before h1, package_after h1]
    rw [renderPackage, this]
    simp only [List.append_assoc]
    rfl
  rw [renderPackageGroup, e, en]
  exact begins_then (begins_say _) (begins_then (begins_say _) (begins_then (begins_over_say h2) (begins_then (begins_say _) (begins_files hso v h3))))

theorem filled_heading {R : α → β → Prop} {l : List (Option α)} {m : List β} (h : Filled R l m) (t : Str) : heading l t = heading m t := by
  cases h <;> simp [heading]

theorem begins_relationships {l : List (Option Relationship)} {m : List Relationship} (h : Filled Eq l m) :
    Begins (printRelationships l) (renderRelationships m) := by
  have e : (if l = [] then [] else [Item.line []]) = if m = [] then [] else [.line []] := by cases h <;> simp
  rw [printRelationships, filled_heading h, e, renderRelationships, List.append_assoc]
  exact begins_then (begins_say _) (begins_then (begins_over_say h) (begins_say _))

theorem body_eq (v : Version) (so : Sorter) (d : Doc) (ci : CreationInfo) : renderBody v so d ci =
    (renderHeader so d ++ renderCreationInfo ci ++ heading d.files g!"##### Unpackaged files") ++
    ((so.run (·.spdxId) d.files).flatMap (renderFile v so) ++
    ((so.run (·.spdxId) d.packages).flatMap (renderPackageGroup v so) ++
    (heading d.otherLicenses g!"##### Other Licenses" ++
    (d.otherLicenses.flatMap renderOtherLicense ++
    (renderRelationships d.relationships ++
    (heading d.annotations g!"##### Annotations" ++
    (d.annotations.flatMap (fun a => renderAnnotation a ++ [.line []]) ++
    (heading d.reviews g!"##### Reviews" ++
    d.reviews.flatMap renderReview)))))))) := by
  simp only [renderBody, renderTail, List.append_assoc]

theorem head_same {n : NDoc} {d : Doc} (h : SameHead n d) (so : Sorter) : renderHeader so d = renderHeader so n.doc := by
  conv => lhs; rw [h]
  simp only [renderHeader]

theorem begins_document {so : Sorter} (hso : Blind so) (v : Version) {n : NDoc} {d : Doc} (ci : CreationInfo) (h : FilledDoc n d) :
    Begins (printWhole v so n ci) (renderBody v so d ci) := by
  rw [body_eq, head_same h.doc]
  simp only [printWhole]
  rw [filled_heading h.files, filled_heading h.otherLicenses, filled_heading h.annotations, filled_heading h.reviews]
  exact begins_then (begins_say _) (begins_then (begins_files hso v h.files)
    (begins_then (begins_sorted hso (key := fun n : NPackage => n.pkg.spdxId) (key' := fun p : PackageV => p.spdxId) (fun _ _ h => (filled_package_id h).1) (fun _ _ => begins_package hso v) h.packages)
    (begins_then (begins_say _) (begins_then (begins_over_say h.otherLicenses) (begins_then (begins_relationships h.relationships)
    (begins_then (begins_say _) (begins_then (begins_over_say h.annotations) (begins_then (begins_say _) (begins_over_say h.reviews)))))))))

/-! ## What is before the first gap is printed -/

theorem filled_map {R : α → β → Prop} {g : β → α} (h : ∀ b, R (g b) b) (m : List β) : Filled R (m.map fun b => some (g b)) m := by
  induction m with
  | nil => exact .nil
  | cons b m ih => exact .cons (fun a ha => by cases ha; exact h b) ih

theorem filled_ofFile (f : FileV) : FilledFile (ofFile f) f := by
  refine ⟨rfl, filled_map (g := id) (fun _ => rfl) _, ?_⟩
  simp only [ofFile]
  induction f.snippets with
  | nil => exact .nil
  | cons e m ih => exact .cons ⟨rfl, fun a ha => by cases ha; rfl⟩ ih

theorem filled_ofPackage (p : PackageV) : FilledPackage (ofPackage p) p :=
  ⟨rfl, filled_map (g := id) (fun _ => rfl) _, filled_map filled_ofFile _⟩

theorem whole_files {so : Sorter} (hso : Blind so) (v : Version) {l : List (Option NFile)} {m : List FileV} (h : WholeFiles l m) :
    sortedOverAll so (·.file.spdxId) (printFile v so) l = say ((so.run (·.spdxId) m).flatMap (renderFile v so)) := by
  have hd : (sortedOverAll so (·.file.spdxId) (printFile v so) l).done = true := by
    rw [sorted_done, h]
    refine ⟨by simp, fun f hf => ?_⟩
    obtain ⟨g, -, hg⟩ := List.mem_map.1 hf
    cases hg
    exact file_done (by simp [FileLacks, ofFile])
  have hb := (begins_files hso v (h ▸ filled_map filled_ofFile m : Filled FilledFile l m)).2 hd
  generalize sortedOverAll so (·.file.spdxId) (printFile v so) l = p at hd hb
  cases p
  simp only [say, Printed.mk.injEq] at hd hb ⊢
  exact ⟨hb, hd⟩

theorem whole_packages {so : Sorter} (hso : Blind so) (v : Version) {l : List (Option NPackage)} {m : List PackageV} (h : WholePackages l m) :
    sortedOverAll so (·.pkg.spdxId) (printPackageGroup v so) l = say ((so.run (·.spdxId) m).flatMap (renderPackageGroup v so)) := by
  have hd : (sortedOverAll so (·.pkg.spdxId) (printPackageGroup v so) l).done = true := by
    rw [sorted_done, h]
    refine ⟨by simp, fun f hf => ?_⟩
    obtain ⟨g, -, hg⟩ := List.mem_map.1 hf
    cases hg
    simp only [printPackageGroup, printPackage, then_done, say_done, Bool.true_and, Bool.and_eq_true, over_say_done]
    refine ⟨by simp [ofPackage], ?_⟩
    rw [whole_files hso v (m := g.files) (by simp [WholeFiles, ofPackage])]
    rfl
  have hb := (begins_sorted hso (key := fun n : NPackage => n.pkg.spdxId) (key' := fun p : PackageV => p.spdxId) (fun _ _ h => (filled_package_id h).1) (fun _ _ => begins_package hso v)
    (h ▸ filled_map filled_ofPackage m : Filled FilledPackage l m)).2 hd
  generalize sortedOverAll so (·.pkg.spdxId) (printPackageGroup v so) l = p at hd hb
  cases p
  simp only [say, Printed.mk.injEq] at hd hb ⊢
  exact ⟨hb, hd⟩

theorem over_somes (r : α → List Item) (m : List α) : overAll (fun a => say (r a)) (m.map some) = say (m.flatMap r) := by
  induction m with
  | nil => rfl
  | cons a m ih =>
    rw [List.map_cons, overAll, ih]
    rfl

theorem then_items (is : List Item) (p : Printed) : ((say is).andThen p).items = is ++ p.items := rfl

theorem then_prefix (a b : Printed) : a.items <+: (a.andThen b).items := by
  unfold Printed.andThen
  split
  · exact List.prefix_append _ _
  · exact List.prefix_refl _

theorem over_prefix (r : α → List Item) {l : List (Option α)} {m : List α} (h : m.map some <+: l) :
    m.flatMap r <+: (overAll (fun a => say (r a)) l).items := by
  obtain ⟨t, rfl⟩ := h
  induction m with
  | nil => exact List.nil_prefix
  | cons a m ih =>
    rw [List.map_cons, List.cons_append, overAll, then_items, List.flatMap_cons]
    exact (List.prefix_append_right_inj _).2 ih

theorem heading_nil (t : Str) : heading ([] : List α) t = [] := rfl

theorem heading_somes (m : List α) (t : Str) : heading (m.map some) t = heading m t := by
  cases m <;> simp [heading]

theorem group_prefix (r : α → List Item) {l : List (Option α)} {m : List α} (t : Str) (h : m.map some <+: l) (rest : Printed) :
    heading m t ++ m.flatMap r <+: ((say (heading l t)).andThen ((overAll (fun a => say (r a)) l).andThen rest)).items := by
  rw [then_items]
  cases m with
  | nil => exact List.nil_prefix
  | cons a m =>
    have e : heading l t = heading (a :: m) t := by
      obtain ⟨u, rfl⟩ := h
      simp [heading]
    rw [e]
    exact (List.prefix_append_right_inj _).2 ((over_prefix r h).trans (then_prefix _ _))

theorem nil_or_prefix {l : List (Option α)} {m : List α} {P : Prop} (h : m = [] ∨ (P ∧ m.map some <+: l)) : m.map some <+: l := by
  rcases h with rfl | h
  · exact List.nil_prefix
  · exact h.2

theorem head_of_files {l : List (Option NFile)} {m : List FileV} (h : WholeFiles l m) (t : Str) : heading l t = heading m t := by
  rw [h]
  cases m <;> simp [heading]

/-- The items of the part, but a blank line at the end, begin what is printed. -/
theorem part_printed {so : Sorter} (hso : Blind so) (v : Version) {n : NDoc} {d : Doc} (ci : CreationInfo) (h : PartBefore n d) :
    ∃ y, (renderBody v so d ci = y ∨ renderBody v so d ci = y ++ [.line []]) ∧ y <+: (printWhole v so n ci).items := by
  have hnil : ∀ {β γ : Type} (key : β → Str) (r : β → List γ), (so.run key []).flatMap r = [] := by
    intro β γ key r
    rw [(so.eq_nil key []).2 rfl]
    rfl
  rw [body_eq, head_same h.doc]
  simp only [printWhole]
  by_cases hf : WholeFiles n.files d.files
  case neg =>
    have e1 := h.files.resolve_right hf
    have e2 := h.packages.resolve_right fun x => hf x.1
    have e3 := h.otherLicenses.resolve_right fun x => hf x.1
    have e4 := h.relationships.resolve_right fun x => hf x.1
    have e5 := h.annotations.resolve_right fun x => hf x.1
    have e6 := h.reviews.resolve_right fun x => hf x.1
    refine ⟨_, .inl rfl, ?_⟩
    rw [e1, e2, e3, e4, e5, e6, hnil, hnil, then_items, List.append_assoc (_ ++ _)]
    simp only [heading, renderRelationships, List.flatMap_nil, if_true, List.append_nil]
    rw [List.append_assoc]
    exact List.prefix_append _ _
  rw [whole_files hso v hf, head_of_files hf, then_items, then_items]
  by_cases hp : WholePackages n.packages d.packages
  case neg =>
    have e2 := h.packages.resolve_right fun x => hp x.2
    have e3 := h.otherLicenses.resolve_right fun x => hp x.2.1
    have e4 := h.relationships.resolve_right fun x => hp x.2.1
    have e5 := h.annotations.resolve_right fun x => hp x.2.1
    have e6 := h.reviews.resolve_right fun x => hp x.2.1
    refine ⟨_, .inl rfl, ?_⟩
    rw [e2, e3, e4, e5, e6, hnil]
    simp only [heading, renderRelationships, List.flatMap_nil, if_true, List.append_nil]
    rw [← List.append_assoc]
    exact List.prefix_append _ _
  rw [whole_packages hso v hp, then_items]
  by_cases hl : n.otherLicenses = d.otherLicenses.map some
  case neg =>
    have e4 := h.relationships.resolve_right fun x => hl x.2.2.1
    have e5 := h.annotations.resolve_right fun x => hl x.2.2.1
    have e6 := h.reviews.resolve_right fun x => hl x.2.2.1
    refine ⟨_, .inl rfl, ?_⟩
    rw [e4, e5, e6]
    simp only [heading_nil, renderRelationships, List.flatMap_nil, if_true, List.append_nil]
    refine (List.prefix_append_right_inj _).2 ((List.prefix_append_right_inj _).2 ((List.prefix_append_right_inj _).2 ?_))
    exact group_prefix _ _ (nil_or_prefix (h.otherLicenses.imp_right fun x => ⟨x.1, x.2.2⟩)) _
  rw [hl, over_somes, heading_somes, then_items, then_items]
  by_cases hr : n.relationships = d.relationships.map some
  case neg =>
    have e5 := h.annotations.resolve_right fun x => hr x.2.2.2.1
    have e6 := h.reviews.resolve_right fun x => hr x.2.2.2.1
    rw [e5, e6]
    simp only [heading_nil, List.flatMap_nil, List.append_nil]
    have hpre := nil_or_prefix (h.relationships.imp_right fun x => ⟨x.1, x.2.2.2⟩)
    generalize renderHeader so n.doc ++ renderCreationInfo ci ++ heading d.files g!"##### Unpackaged files" = A
    generalize (so.run (·.spdxId) d.files).flatMap (renderFile v so) = B
    generalize (so.run (·.spdxId) d.packages).flatMap (renderPackageGroup v so) = C
    generalize heading d.otherLicenses g!"##### Other Licenses" = D
    generalize d.otherLicenses.flatMap renderOtherLicense = E
    refine ⟨A ++ (B ++ (C ++ (D ++ (E ++ (heading d.relationships g!"##### Relationships" ++ d.relationships.flatMap renderRelationship))))), ?_, ?_⟩
    · cases hd : d.relationships with
      | nil => left; simp [renderRelationships, heading]
      | cons r rs => right; simp [renderRelationships, heading]
    · refine (List.prefix_append_right_inj _).2 ((List.prefix_append_right_inj _).2 ((List.prefix_append_right_inj _).2
        ((List.prefix_append_right_inj _).2 ((List.prefix_append_right_inj _).2 ?_))))
      exact (group_prefix _ _ hpre _).trans (then_prefix _ _)
  have hrel : printRelationships n.relationships = say (renderRelationships d.relationships) := by
    rw [hr, printRelationships, over_somes, heading_somes, renderRelationships]
    simp [say, Printed.andThen]
  rw [hrel, then_items]
  refine ⟨_, .inl rfl, ?_⟩
  refine (List.prefix_append_right_inj _).2 ((List.prefix_append_right_inj _).2 ((List.prefix_append_right_inj _).2
        ((List.prefix_append_right_inj _).2 ((List.prefix_append_right_inj _).2 ((List.prefix_append_right_inj _).2 ?_)))))
  by_cases ha : n.annotations = d.annotations.map some
  case neg =>
    have e6 := h.reviews.resolve_right fun x => ha x.2.2.2.2.1
    rw [e6]
    simp only [heading_nil, List.flatMap_nil, List.append_nil]
    exact group_prefix _ _ (nil_or_prefix (h.annotations.imp_right fun x => ⟨x.1, x.2.2.2.2⟩)) _
  rw [ha, over_somes, heading_somes, then_items, then_items]
  refine (List.prefix_append_right_inj _).2 ((List.prefix_append_right_inj _).2 ?_)
  have := group_prefix renderReview g!"##### Reviews" (nil_or_prefix (h.reviews.imp_right fun x => ⟨x.1, x.2.2.2.2.2⟩)) (say [])
  have e : ∀ p : Printed, (p.andThen (say [])).items = p.items := by
    intro p
    unfold Printed.andThen say
    cases h : p.done <;> simp
  have e' : ((say (heading n.reviews g!"##### Reviews")).andThen ((overAll (fun a => say (renderReview a)) n.reviews).andThen (say []))).items =
      ((say (heading n.reviews g!"##### Reviews")).andThen (overAll (fun a => say (renderReview a)) n.reviews)).items := by
    rw [then_items, then_items, e]
  rw [e'] at this
  exact this

end Verif
