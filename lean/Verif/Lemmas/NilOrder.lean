import Verif.Lemmas.NilPrint
import Verif.Spec.NilOrder
import Verif.Props.C89_Words

/-!
# Lemmas: files and packages before a gap
-/

namespace Verif
open Spec

variable {α β : Type}

theorem not_le_of_before {a b : Str} (h : Before a b) : strLe b a = false := by
  rw [← Bool.not_eq_true]
  intro hl
  have h1 := (C89_order a b).2.2 (.inr h)
  obtain rfl := strLe_antisymm h1 hl
  have h2 := (C89_order a a).1.2 h
  have : strLt a a = false := by
    simp [strLt]
  rw [this] at h2
  cases h2

/-- What has the smaller keys stands first. -/
theorem split_sorted {k : α → Str} {l A B : List α} (hs : SortedBy k l) (hp : l.Perm (A ++ B))
    (hlt : ∀ a ∈ A, ∀ b ∈ B, strLe (k b) (k a) = false) : ∃ l1 l2, l = l1 ++ l2 ∧ l1.Perm A ∧ l2.Perm B := by
  let p : α → Bool := fun x => B.all fun b => !strLe (k b) (k x)
  have hsplit : ∀ {l : List α}, SortedBy k l → l = l.filter p ++ l.filter fun x => !p x := by
    intro l
    induction l with
    | nil => intro _; rfl
    | cons x l ih =>
      intro h
      obtain ⟨h1, h2⟩ := List.pairwise_cons.1 h
      cases hx : p x with
      | true => rw [List.filter_cons_of_pos hx, List.filter_cons_of_neg (by simp [hx]), List.cons_append, ← ih h2]
      | false =>
        have hy : ∀ y ∈ l, p y = false := by
          intro y hy
          rw [← Bool.not_eq_true] at hx ⊢
          intro hpy
          apply hx
          simp only [p, List.all_eq_true, Bool.not_eq_true', ← Bool.not_eq_true] at hpy ⊢
          exact fun b hb hle => hpy b hb (strLe_trans hle (h1 y hy))
        have e1 : l.filter p = [] := List.filter_eq_nil_iff.2 fun y h => by simp [hy y h]
        have e2 : (l.filter fun x => !p x) = l := List.filter_eq_self.2 fun y h => by simp [hy y h]
        rw [List.filter_cons_of_neg (by simp [hx]), List.filter_cons_of_pos (by simp [hx]), e1, e2]
        rfl
  have hA : ∀ a ∈ A, p a = true := fun a ha => by
    simp only [p, List.all_eq_true, Bool.not_eq_true']
    exact fun b hb => hlt a ha b hb
  have hB : ∀ b ∈ B, p b = false := fun b hb => by
    rw [← Bool.not_eq_true]
    intro h
    simp only [p, List.all_eq_true, Bool.not_eq_true'] at h
    have := h b hb
    rw [strLe_refl] at this
    cases this
  refine ⟨l.filter p, l.filter fun x => !p x, hsplit hs, ?_, ?_⟩
  · have e1 : A.filter p = A := List.filter_eq_self.2 hA
    have e2 : B.filter p = [] := List.filter_eq_nil_iff.2 fun b hb => by simp [hB b hb]
    have := hp.filter p
    rwa [List.filter_append, e1, e2, List.append_nil] at this
  · have e1 : (A.filter fun x => !p x) = [] := List.filter_eq_nil_iff.2 fun a ha => by simp [hA a ha]
    have e2 : (B.filter fun x => !p x) = B := List.filter_eq_self.2 fun b hb => by simp [hB b hb]
    have := hp.filter fun x => !p x
    rwa [List.filter_append, e1, e2, List.nil_append] at this

theorem sortedBy_left {k : α → Str} {l m : List α} (h : SortedBy k (l ++ m)) : SortedBy k l := (List.pairwise_append.1 h).1

theorem sortedBy_right {k : α → Str} {l m : List α} (h : SortedBy k (l ++ m)) : SortedBy k m := (List.pairwise_append.1 h).2.1

/-- A sorted list of what has distinct keys is the sorted list. -/
theorem run_of_sorted (so : Sorter) {k : α → Str} {l m : List α} (hs : SortedBy k l) (hp : l.Perm m) (hd : (m.map k).Nodup) : l = so.run k m :=
  sorted_unique (hp.trans (so.perm k m).symm) hs (so.sorted k m) ((hp.map k).nodup_iff.2 hd)

theorem over_append (body : α → Printed) (l m : List (Option α)) : overAll body (l ++ m) = (overAll body l).andThen (overAll body m) := by
  induction l with
  | nil => simp [overAll, Printed.andThen, say]
  | cons o l ih =>
    cases o with
    | none => simp [overAll, Printed.andThen]
    | some a =>
      simp only [List.cons_append, overAll, ih]
      unfold Printed.andThen
      cases h : (body a).done <;> simp [h]
      cases h2 : (overAll body l).done <;> simp [h2]

/-- A sorted loop over what has the smaller keys and the rest. -/
theorem sorted_over_split (so : Sorter) {k : α → Str} (body : α → Printed) {l : List (Option α)} {A B : List α}
    (hp : l.Perm (A.map some ++ B.map some)) (hlt : ∀ a ∈ A, ∀ b ∈ B, strLe (k b) (k a) = false) (hd : (A.map k).Nodup) :
    ∃ B', B'.Perm B ∧ SortedBy k B' ∧ sortedOverAll so k body l = (overAll body ((so.run k A).map some)).andThen (overAll body (B'.map some)) := by
  have hn : none ∉ l := by
    intro h
    have := hp.mem_iff.1 h
    simp at this
  obtain ⟨m, rfl⟩ := somes_of hn
  have hm : m.Perm (A ++ B) := by
    have := hp.filterMap id
    simpa [List.filterMap_append, List.filterMap_map] using this
  obtain ⟨l1, l2, e, h1, h2⟩ := split_sorted (so.sorted k m) ((so.perm k m).trans hm) hlt
  have hs := so.sorted k m
  rw [e] at hs
  refine ⟨l2, h2, sortedBy_right hs, ?_⟩
  simp only [sortedOverAll, sortPointers_somes]
  rw [e, run_of_sorted so (sortedBy_left hs) h1 hd, List.map_append, over_append]

theorem whole_over {so : Sorter} (hso : Blind so) {key : α → Str} {key' : β → Str} {of : β → α} (hk : ∀ b, key (of b) = key' b) {body : α → Printed}
    {r : β → List Item} (hr : ∀ b, body (of b) = say (r b)) (m : List β) :
    overAll body ((so.run key (m.map of)).map some) = say ((so.run key' m).flatMap r) := by
  rw [hso of key m, show key ∘ of = key' from funext hk]
  generalize so.run key' m = m
  induction m with
  | nil => rfl
  | cons b m ih =>
    simp only [List.map_cons, overAll, hr, ih, List.flatMap_cons]
    rfl

theorem file_printed (v : Version) (so : Sorter) (f : FileV) : printFile v so (ofFile f) = say (renderFile v so f) := by
  have hd : (printFile v so (ofFile f)).done = true := file_done (by simp [FileLacks, ofFile])
  have hb := (begins_file v so (filled_ofFile f)).2 hd
  generalize printFile v so (ofFile f) = p at hd hb
  cases p
  simp only [say, Printed.mk.injEq] at hd hb ⊢
  exact ⟨hb, hd⟩

theorem package_printed {so : Sorter} (hso : Blind so) (v : Version) (p : PackageV) : printPackageGroup v so (ofPackage p) = say (renderPackageGroup v so p) := by
  have hd : (printPackageGroup v so (ofPackage p)).done = true := by
    simp only [printPackageGroup, printPackage, then_done, say_done, Bool.true_and, Bool.and_eq_true, over_say_done]
    refine ⟨by simp [ofPackage], ?_⟩
    rw [whole_files hso v (m := p.files) (by simp [WholeFiles, ofPackage])]
    rfl
  have hb := (begins_package hso v (filled_ofPackage p)).2 hd
  generalize printPackageGroup v so (ofPackage p) = p at hd hb
  cases p
  simp only [say, Printed.mk.injEq] at hd hb ⊢
  exact ⟨hb, hd⟩

theorem sooner_files {so : Sorter} (hso : Blind so) (v : Version) {l : List (Option NFile)} {m : List FileV} (h : SoonerFiles l m) :
    (so.run (·.spdxId) m).flatMap (renderFile v so) <+: (sortedOverAll so (·.file.spdxId) (printFile v so) l).items := by
  obtain ⟨rest, hp, hlt, hd⟩ := h
  obtain ⟨B, -, -, e⟩ := sorted_over_split so (k := fun f : NFile => f.file.spdxId) (printFile v so) (A := m.map ofFile) (B := rest)
    (by simpa [List.map_map, Function.comp_def] using hp)
    (fun a ha b hb => by
      obtain ⟨f, hf, rfl⟩ := List.mem_map.1 ha
      exact not_le_of_before (hlt f hf b hb))
    (by simpa [List.map_map, Function.comp_def, ofFile] using hd)
  rw [e, whole_over hso (key := fun f : NFile => f.file.spdxId) (key' := fun f : FileV => f.spdxId) (of := ofFile) (fun _ => rfl) (file_printed v so)]
  exact then_prefix (say _) _

theorem begun_package {so : Sorter} (hso : Blind so) (v : Version) {n : NPackage} {q : PackageV} (h : BegunPackage n q) :
    renderPackageGroup v so q <+: (printPackageGroup v so n).items := by
  obtain ⟨h1, h2, h3⟩ := h
  have en : q.name = n.pkg.name := by
    have := congrArg (fun x : PackageV => x.name) h1
    exact this
  have e : renderPackage v so q = packageFieldsBefore v n.pkg ++ (q.externalRefs.flatMap renderExternalRef ++ (packageFieldsAfter v n.pkg ++
      (so.run (·.spdxId) q.files).flatMap (renderFile v so))) := by
    have : renderPackageFields v q = packageFieldsBefore v n.pkg ++ (q.externalRefs.flatMap renderExternalRef ++ packageFieldsAfter v n.pkg) := by
      rw [package_fields_eq, package_before h1, package_after h1]
    rw [renderPackage, this]
    simp only [List.append_assoc]
    rfl
  rw [renderPackageGroup, e, en]
  simp only [printPackageGroup, printPackage]
  rw [h2, over_somes]
  simp only [then_items]
  exact (List.prefix_append_right_inj _).2 ((List.prefix_append_right_inj _).2 ((List.prefix_append_right_inj _).2
    ((List.prefix_append_right_inj _).2 (sooner_files hso v h3))))

theorem sooner_packages {so : Sorter} (hso : Blind so) (v : Version) {l : List (Option NPackage)} {m : List PackageV} (h : SoonerPackages l m) :
    (so.run (·.spdxId) m).flatMap (renderPackageGroup v so) <+: (sortedOverAll so (·.pkg.spdxId) (printPackageGroup v so) l).items := by
  obtain ⟨whole, next, rest, rfl, hp, hb, h1, h2, h3, hd⟩ := h
  obtain ⟨B, hB, hs, e⟩ := sorted_over_split so (k := fun p : NPackage => p.pkg.spdxId) (printPackageGroup v so) (A := whole.map ofPackage)
    (B := next.toList.map Prod.fst ++ rest)
    (by simpa [List.map_map, Function.comp_def] using hp)
    (fun a ha b hb => by
      obtain ⟨p, hp, rfl⟩ := List.mem_map.1 ha
      rcases List.mem_append.1 hb with hb | hb
      · obtain ⟨x, hx, rfl⟩ := List.mem_map.1 hb
        exact not_le_of_before (h1 x (Option.mem_toList.1 hx) p hp)
      · exact not_le_of_before (h3 p hp b hb))
    (by simpa [List.map_map, Function.comp_def, ofPackage] using hd)
  rw [e, whole_over hso (key := fun p : NPackage => p.pkg.spdxId) (key' := fun p : PackageV => p.spdxId) (of := ofPackage) (fun _ => rfl) (package_printed hso v)]
  cases next with
  | none =>
    simp only [Option.toList_none, List.map_nil, List.append_nil]
    exact then_prefix (say _) _
  | some x =>
    obtain ⟨n, q⟩ := x
    have hq := hb _ rfl
    have eid : q.spdxId = n.pkg.spdxId := by
      have := congrArg (fun x : PackageV => x.spdxId) hq.1
      exact this
    obtain ⟨l1, l2, rfl, p1, -⟩ := split_sorted hs hB fun a ha b hb' => by
      simp only [Option.toList_some, List.map_cons, List.map_nil, List.mem_singleton] at ha
      subst ha
      exact not_le_of_before (h2 _ rfl b hb')
    obtain rfl : l1 = [n] := List.perm_singleton.1 p1
    have hrun : so.run (fun p : PackageV => p.spdxId) (whole ++ [q]) = so.run (fun p : PackageV => p.spdxId) whole ++ [q] := by
      refine (run_of_sorted so ?_ ((so.perm _ whole).append_right [q]) ?_).symm
      · refine List.pairwise_append.2 ⟨so.sorted _ whole, List.pairwise_singleton _ _, fun a ha b hb' => ?_⟩
        obtain rfl := List.mem_singleton.1 hb'
        have := h1 _ rfl a ((so.mem _ _ _).1 ha)
        rw [← eid] at this
        exact (C89_order _ _).2.2 (.inr this)
      · rw [List.map_append]
        refine List.nodup_append.2 ⟨hd, by simp, fun a ha b hb' e => ?_⟩
        obtain ⟨p, hp, rfl⟩ := List.mem_map.1 ha
        simp only [List.map_cons, List.map_nil, List.mem_singleton] at hb'
        subst hb'
        have := not_le_of_before (h1 _ rfl p hp)
        rw [← eid, ← e, strLe_refl] at this
        cases this
    show (so.run (fun p : PackageV => p.spdxId) (whole ++ [q])).flatMap _ <+: _
    rw [hrun, List.flatMap_append, then_items, List.map_append, over_append]
    refine (List.prefix_append_right_inj _).2 ?_
    have : overAll (printPackageGroup v so) ([n].map some) = (printPackageGroup v so n).andThen (say []) := rfl
    rw [this, List.flatMap_singleton]
    exact ((begun_package hso v hq).trans (then_prefix _ _)).trans (then_prefix _ _)

theorem sooner_printed {so : Sorter} (hso : Blind so) (v : Version) {n : NDoc} {d : Doc} (ci : CreationInfo) (h : SoonerDoc n d) :
    renderBody v so d ci <+: (printWhole v so n ci).items := by
  obtain ⟨e3, e4, e5, e6⟩ := h.rest
  rw [body_eq, head_same h.doc, e3, e4, e5, e6]
  simp only [printWhole, heading_nil, renderRelationships, List.flatMap_nil, if_true, List.append_nil]
  rcases h.sections with ⟨hf, hp⟩ | ⟨hf, hp⟩
  · rw [hp, (so.eq_nil (fun p : PackageV => p.spdxId) []).2 rfl, List.flatMap_nil, List.append_nil, then_items]
    cases hm : d.files with
    | nil =>
      rw [(so.eq_nil (fun p : FileV => p.spdxId) []).2 rfl, List.flatMap_nil, List.append_nil, heading_nil, List.append_nil, List.append_assoc]
      exact List.prefix_append _ _
    | cons f fs =>
      have hh : ∀ t, heading n.files t = heading (f :: fs) t := by
        intro t
        have : n.files ≠ [] := by
          rintro he
          obtain ⟨rest, hperm, -⟩ := hf
          rw [he, hm] at hperm
          have := hperm.length_eq
          simp at this
        simp [heading, this]
      rw [hh, ← hm]
      exact (List.prefix_append_right_inj _).2 ((sooner_files hso v hf).trans (then_prefix _ _))
  · rw [whole_files hso v hf, head_of_files hf, then_items, then_items]
    exact (List.prefix_append_right_inj _).2 ((List.prefix_append_right_inj _).2 ((sooner_packages hso v hp).trans (then_prefix _ _)))

end Verif
