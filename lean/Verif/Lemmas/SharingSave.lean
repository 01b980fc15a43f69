import Verif.Lemmas.Sharing

/-!
# What saving does to memory
-/

namespace Verif
open Spec

theorem pointwise_map_map {α β γ : Type} {R : β → γ → Prop} {f : α → β} {g : α → γ} (h : ∀ a, R (f a) (g a)) (l : List α) :
    Pointwise R (l.map f) (l.map g) := by
  induction l with
  | nil => exact .nil
  | cons a l ih => exact .cons (h a) ih

/-- In every slice the elements are the same, in some order. -/
structure Shuffled (h : Heap) (D : DocObj → Prop) (m m' : Mem) : Prop where
  refs : ∀ d, D d → (d.refs.contents .ref m').Perm (d.refs.contents .ref m)
  packages : ∀ d, D d → (d.packages.contents .package m').Perm (d.packages.contents .package m)
  files : ∀ s, FileSlice h D s → (s.contents .file m').Perm (s.contents .file m)

theorem Shuffled.refl (h : Heap) (D : DocObj → Prop) (m : Mem) : Shuffled h D m m :=
  ⟨fun _ _ => .refl _, fun _ _ => .refl _, fun _ _ => .refl _⟩

theorem Shuffled.trans {h : Heap} {D : DocObj → Prop} {m m' m'' : Mem} (a : Shuffled h D m m') (b : Shuffled h D m' m'') :
    Shuffled h D m m'' :=
  ⟨fun d hd => (b.refs d hd).trans (a.refs d hd), fun d hd => (b.packages d hd).trans (a.packages d hd),
    fun s hs => (b.files s hs).trans (a.files s hs)⟩

theorem Shuffled.sameFiles {h : Heap} {D : DocObj → Prop} {m m' : Mem} (a : Shuffled h D m m') {s : Slice}
    (hs : FileSlice h D s) : SameFiles ((s.contents .file m).map h.files) ((s.contents .file m').map h.files) :=
  ⟨_, ((a.files s hs).symm.map h.files), pointwise_map_map (f := h.files) (g := h.files) (fun _ => ⟨rfl, .refl _⟩) _⟩

theorem Shuffled.samePackage {h : Heap} {D : DocObj → Prop} {m m' : Mem} (a : Shuffled h D m m') (p : Nat) :
    SamePackage (h.package m p) (h.package m' p) :=
  ⟨rfl, a.sameFiles (.inr ⟨p, rfl⟩)⟩

/-- The documents are the same up to order. -/
theorem Shuffled.sameDoc {h : Heap} {D : DocObj → Prop} {m m' : Mem} (a : Shuffled h D m m') {d : DocObj} (hd : D d) :
    SameDoc (h.doc m d) (h.doc m' d) where
  rest := rfl
  refs := ((a.refs d hd).map h.refs).symm
  files := a.sameFiles (.inl ⟨d, hd, rfl⟩)
  packages := ⟨_, ((a.packages d hd).map (h.package m)).symm, pointwise_map_map (fun p => a.samePackage p) _⟩

/-! ## The sorts -/

theorem sort_ref_shuffled {h : Heap} {D : DocObj → Prop} (t : Tidy h D) (so : SliceSorter) (key : Nat → Str) {d : DocObj}
    (hd : D d) (m : Mem) : Shuffled h D m ((so.sort .ref key d.refs).run m).2 where
  refs e he := sort_shuffles so key m (t.refs d e hd he)
  packages e _ := by rw [sort_other so (by decide)]
  files s _ := by rw [sort_other so (by decide)]

theorem sort_package_shuffled {h : Heap} {D : DocObj → Prop} (t : Tidy h D) (so : SliceSorter) (key : Nat → Str)
    {d : DocObj} (hd : D d) (m : Mem) : Shuffled h D m ((so.sort .package key d.packages).run m).2 where
  refs e _ := by rw [sort_other so (by decide)]
  packages e he := sort_shuffles so key m (t.packages d e hd he)
  files s _ := by rw [sort_other so (by decide)]

theorem sort_file_shuffled {h : Heap} {D : DocObj → Prop} (t : Tidy h D) (so : SliceSorter) (key : Nat → Str)
    {s : Slice} (hs : FileSlice h D s) (m : Mem) : Shuffled h D m ((so.sort .file key s).run m).2 where
  refs e _ := by rw [sort_other so (by decide)]
  packages e _ := by rw [sort_other so (by decide)]
  files s' hs' := sort_shuffles so key m (t.files s s' hs hs')

/-- What is printed for elements in the order of the slice is what is printed for any sorted list of them, if the keys
are distinct. -/
theorem sorted_items {α : Type} (so : SliceSorter) (sn : Sorter) (k : Kind) (s : Slice) (val : Nat → α) (key : α → Str)
    (m : Mem) {l : List Nat} (hl : (s.contents k m).Perm l) (hd : ((l.map val).map key).Nodup) :
    (s.contents k ((so.sort k (fun x => key (val x)) s).run m).2).map val = sn.run key (l.map val) := by
  have hp := ((so.perm k (fun x => key (val x)) s m).trans hl).map val
  refine sorted_unique (k := key) (hp.trans (sn.perm key _).symm) ?_ (sn.sorted key _) ?_
  · exact List.pairwise_map.2 (so.sorted k (fun x => key (val x)) s m)
  · exact (hp.map key).nodup_iff.2 hd

/-! ## Files -/

section
variable (h : Heap) (v : Version) (so : SliceSorter) (sn : Sorter)

/-- Memory after the files of a slice are saved. -/
theorem saveFiles_run (s : Slice) (m : Mem) : (saveFiles h v so sn s).run m =
    let m' := ((so.sort .file (fun f => (h.files f).spdxId) s).run m).2
    ((s.contents .file m').flatMap (fun f => renderFile v sn (h.files f)), m') := by
  unfold saveFiles
  rw [run_bind, forSlice_pure]

theorem saveFiles_touches (s : Slice) (m : Mem) : (saveFiles h v so sn s).Touches (s.Cell .file) m :=
  touches_bind (so.touches ..) (forSlice_pure_touches ..)

theorem saveFiles_shuffled {D : DocObj → Prop} (t : Tidy h D) {s : Slice} (hs : FileSlice h D s) (m : Mem) :
    Shuffled h D m ((saveFiles h v so sn s).run m).2 := by
  rw [saveFiles_run]
  exact sort_file_shuffled t so _ hs m

theorem saveFiles_items (s : Slice) (m : Mem) {l : List Nat} (hl : (s.contents .file m).Perm l)
    (hd : ((l.map h.files).map (·.spdxId)).Nodup) :
    ((saveFiles h v so sn s).run m).1 = (sn.run (·.spdxId) (l.map h.files)).flatMap (renderFile v sn) := by
  rw [saveFiles_run]
  rw [← sorted_items so sn .file s h.files (·.spdxId) m hl hd, List.flatMap_map]

/-! ## Packages -/

theorem savePackage_mem (p : Nat) (m : Mem) :
    ((savePackage h v so sn p).run m).2 = ((saveFiles h v so sn (h.packages p).files).run m).2 := by
  unfold savePackage
  rw [run_bind, run_pure]

theorem savePackage_touches (p : Nat) (m : Mem) : (savePackage h v so sn p).Touches ((h.packages p).files.Cell .file) m :=
  touches_bind (saveFiles_touches ..) trivial

theorem savePackage_shuffled {D : DocObj → Prop} (t : Tidy h D) (p : Nat) (m : Mem) :
    Shuffled h D m ((savePackage h v so sn p).run m).2 := by
  rw [savePackage_mem]
  exact saveFiles_shuffled h v so sn t (.inr ⟨p, rfl⟩) m

theorem savePackage_packages (p : Nat) (m : Mem) (s : Slice) :
    s.contents .package ((savePackage h v so sn p).run m).2 = s.contents .package m := by
  apply contents_agree
  rintro l ⟨hl, -⟩
  refine (savePackage_touches h v so sn p m).outside ?_
  rintro ⟨hl', -⟩
  rw [hl] at hl'
  cases hl'

theorem savePackage_items {D : DocObj → Prop} {m0 m : Mem} (a : Shuffled h D m0 m) (p : Nat)
    (hd : ((h.package m0 p).files.map (·.spdxId)).Nodup) :
    ((savePackage h v so sn p).run m).1 = renderPackageGroup v sn (h.package m0 p) := by
  unfold savePackage
  rw [run_bind, run_pure]
  simp only
  rw [saveFiles_items h v so sn _ m (a.files _ (.inr ⟨p, rfl⟩)) hd]
  unfold renderPackageGroup renderPackage sortPackageFiles
  rw [← List.append_assoc]
  rfl

/-! ## The document -/

/-- The stages of saving a document: memory after the references, after the files, and after the packages are sorted. -/
def saveMem1 (d : DocObj) (m : Mem) : Mem := ((so.sort .ref (fun r => (h.refs r).documentRefID) d.refs).run m).2
def saveMem2 (d : DocObj) (m : Mem) : Mem :=
  ((saveUnpackaged h v so sn d.files).run (saveMem1 h so d m)).2
def saveMem3 (d : DocObj) (m : Mem) : Mem :=
  ((so.sort .package (fun p => (h.packages p).fields.spdxId) d.packages).run (saveMem2 h v so sn d m)).2

theorem saveUnpackaged_run (s : Slice) (m : Mem) : (saveUnpackaged h v so sn s).run m =
    if 0 < s.len then
      ([.line g!"##### Unpackaged files", .line []] ++ ((saveFiles h v so sn s).run m).1, ((saveFiles h v so sn s).run m).2)
    else ([], m) := by
  unfold saveUnpackaged
  split
  · rw [run_bind, run_pure]
  · rfl

theorem saveUnpackaged_touches (s : Slice) (m : Mem) : (saveUnpackaged h v so sn s).Touches (s.Cell .file) m := by
  unfold saveUnpackaged
  split
  · exact touches_bind (saveFiles_touches ..) trivial
  · trivial

theorem save_run (d : DocObj) (m : Mem) : (save h v so sn d).run m =
    match d.fields.creationInfo with
    | none => (.err, m)
    | some ci =>
      let loop := (forSlice .package d.packages fun p => savePackage h v so sn p).run (saveMem3 h v so sn d m)
      (.ok (emit (
        opt g!"SPDXVersion" d.fields.spdxVersion ++
        opt g!"DataLicense" d.fields.dataLicense ++
        optId g!"SPDXID" d.fields.spdxId ++
        opt g!"DocumentName" d.fields.name ++
        opt g!"DocumentNamespace" d.fields.namespace_ ++
        (d.refs.contents .ref (saveMem1 h so d m)).flatMap (fun r => renderExternalDocRef (h.refs r)) ++
        optText g!"DocumentComment" d.fields.comment ++
        renderCreationInfo ci ++
        ((saveUnpackaged h v so sn d.files).run (saveMem1 h so d m)).1 ++
        loop.1 ++
        renderTail d.fields)), loop.2) := by
  unfold save
  cases d.fields.creationInfo with
  | none => rfl
  | some ci =>
    simp only [run_bind, forSlice_pure]
    rfl

theorem saveMem2_shuffled {D : DocObj → Prop} (t : Tidy h D) {d : DocObj} (hd : D d) (m : Mem) :
    Shuffled h D m (saveMem2 h v so sn d m) := by
  have h1 : Shuffled h D m (saveMem1 h so d m) := sort_ref_shuffled t so _ hd m
  unfold saveMem2
  rw [saveUnpackaged_run]
  split
  · exact h1.trans (saveFiles_shuffled h v so sn t (.inl ⟨d, hd, rfl⟩) _)
  · exact h1

theorem saveMem3_shuffled {D : DocObj → Prop} (t : Tidy h D) {d : DocObj} (hd : D d) (m : Mem) :
    Shuffled h D m (saveMem3 h v so sn d m) :=
  (saveMem2_shuffled h v so sn t hd m).trans (sort_package_shuffled t so _ hd _)

/-- Saving only shuffles slices. -/
theorem save_shuffled {D : DocObj → Prop} (t : Tidy h D) {d : DocObj} (hd : D d) (m : Mem) :
    Shuffled h D m ((save h v so sn d).run m).2 := by
  rw [save_run]
  cases d.fields.creationInfo with
  | none => exact .refl h D m
  | some ci =>
    have h3 := saveMem3_shuffled h v so sn t hd m
    simp only
    have key : ∀ (n i a : Nat) (m' : Mem), Shuffled h D m m' →
        Shuffled h D m ((forCells .package a (fun p => savePackage h v so sn p) i n).run m').2 := by
      intro n
      induction n with
      | zero => intro i a m' hm'; exact hm'
      | succ n ih =>
        intro i a m' hm'
        show Shuffled h D m (((savePackage h v so sn (m' ⟨.package, a, i⟩)) >>= fun is =>
          (forCells .package a (fun p => savePackage h v so sn p) (i + 1) n) >>= fun js => pure (is ++ js)).run m').2
        rw [run_bind, run_bind, run_pure]
        exact ih _ _ _ (hm'.trans (savePackage_shuffled h v so sn t _ m'))
    exact key _ _ _ _ h3

/-- The text is the one that is written for the document in memory. -/
theorem save_text {D : DocObj → Prop} (t : Tidy h D) {d : DocObj} (hd : D d) (m : Mem) (di : DistinctIds (h.doc m d)) :
    ((save h v so sn d).run m).1 = writeTagValue v sn (h.doc m d) := by
  rw [save_run]
  unfold writeTagValue renderDocument
  have hci : (h.doc m d).creationInfo = d.fields.creationInfo := rfl
  rw [hci]
  cases d.fields.creationInfo with
  | none => rfl
  | some ci =>
    simp only [Res.bind_ok]
    have e1 : (d.refs.contents .ref (saveMem1 h so d m)).flatMap (fun r => renderExternalDocRef (h.refs r)) =
        (sn.run (·.documentRefID) (h.doc m d).externalDocumentRefs).flatMap renderExternalDocRef := by
      have := sorted_items so sn .ref d.refs h.refs (·.documentRefID) m (.refl _) di.refs
      show _ = (sn.run _ ((d.refs.contents .ref m).map h.refs)).flatMap _
      rw [← this, List.flatMap_map]
      rfl
    have h1 : Shuffled h D m (saveMem1 h so d m) := sort_ref_shuffled t so _ hd m
    have h2 := saveMem2_shuffled h v so sn t hd m
    have h3 := saveMem3_shuffled h v so sn t hd m
    have e2 : ((saveUnpackaged h v so sn d.files).run (saveMem1 h so d m)).1 = heading (h.doc m d).files g!"##### Unpackaged files" ++
        (sn.run (·.spdxId) (h.doc m d).files).flatMap (renderFile v sn) := by
      rw [saveUnpackaged_run]
      have hlen : (h.doc m d).files.length = d.files.len := by
        show ((d.files.contents .file m).map h.files).length = _
        rw [List.length_map, contents_length]
      split
      · rename_i hpos
        simp only
        rw [saveFiles_items h v so sn _ _ (h1.files _ (.inl ⟨d, hd, rfl⟩)) di.files]
        unfold heading
        rw [if_neg]
        · rfl
        · intro hn
          rw [hn] at hlen
          simp at hlen
          omega
      · rename_i hpos
        have hn : (h.doc m d).files = [] := List.eq_nil_of_length_eq_zero (by omega)
        have : sn.run (·.spdxId) (h.doc m d).files = [] := by
          have := sn.perm (·.spdxId) (h.doc m d).files
          rw [hn] at this ⊢
          exact this.eq_nil
        rw [this, hn]
        rfl
    have e3 : ((forSlice .package d.packages fun p => savePackage h v so sn p).run (saveMem3 h v so sn d m)).1 =
        (sn.run (·.spdxId) (h.doc m d).packages).flatMap (renderPackageGroup v sn) := by
      have hmem : ∀ x ∈ d.packages.contents .package (saveMem3 h v so sn d m),
          ((h.package m x).files.map (·.spdxId)).Nodup := by
        intro x hx
        exact di.packageFiles _ (List.mem_map.2 ⟨x, (h3.packages d hd).mem_iff.1 hx, rfl⟩)
      have := forSlice_run (k := .package) (s := d.packages) (f := fun p => savePackage h v so sn p)
        (fun m' => Shuffled h D m m' ∧
          d.packages.contents .package m' = d.packages.contents .package (saveMem3 h v so sn d m))
        (fun p => renderPackageGroup v sn (h.package m p)) (saveMem3 h v so sn d m) ⟨h3, rfl⟩ (fun _ hm => hm.2)
        (fun m' hm x hx => ⟨savePackage_items h v so sn hm.1 x (hmem x hx),
          hm.1.trans (savePackage_shuffled h v so sn t x m'), by rw [savePackage_packages, hm.2]⟩)
      rw [this.1]
      have := sorted_items so sn .package d.packages (h.package m) (·.spdxId) (saveMem2 h v so sn d m)
        (h2.packages d hd) di.packages
      show _ = (sn.run _ ((d.packages.contents .package m).map (h.package m))).flatMap _
      rw [← this, List.flatMap_map]
      rfl
    rw [e1, e2, e3]
    unfold renderBody renderHeader
    simp only [List.append_assoc]
    rfl

/-- Saving touches only the slices of the document and of its packages. -/
theorem save_touches (d : DocObj) (m : Mem) : (save h v so sn d).Touches (Owns h m d) m := by
  unfold save
  cases d.fields.creationInfo with
  | none => trivial
  | some ci =>
    refine touches_bind ((so.touches ..).mono fun l hl => .inl hl) (touches_bind ((forSlice_pure_touches ..).mono
      fun l hl => .inl hl) ?_)
    rw [forSlice_pure]
    simp only
    have hp1 : d.packages.contents .package (saveMem1 h so d m) = d.packages.contents .package m :=
      sort_other so (by decide) _ _
    have hp2 : d.packages.contents .package (saveMem2 h v so sn d m) = d.packages.contents .package m := by
      refine Eq.trans (contents_agree ?_) hp1
      rintro l ⟨hl, -⟩
      refine (saveUnpackaged_touches h v so sn d.files _).outside ?_
      rintro ⟨hl', -⟩
      rw [hl] at hl'
      cases hl'
    have last : ∀ (m2 : Mem), d.packages.contents .package m2 = d.packages.contents .package m →
        ∀ (f : List Item → Prog (Res Str)), (∀ is m', (f is).Touches (Owns h m d) m') →
        (so.sort .package (fun p => (h.packages p).fields.spdxId) d.packages >>= fun _ =>
          (forSlice .package d.packages fun p => savePackage h v so sn p) >>= f).Touches (Owns h m d) m2 := by
      intro m2 hm2 f hf
      refine touches_bind ((so.touches ..).mono fun l hl => .inr (.inr (.inl hl))) (touches_bind ?_ (hf _ _))
      refine forSlice_touches
        (fun m' => (d.packages.contents .package m').Perm (d.packages.contents .package m)) (fun l hl => .inr (.inr (.inl hl)))
        (fun m' hm' x hx => ⟨?_, ?_⟩) _ ?_
      · exact (savePackage_touches h v so sn x m').mono fun l hl => .inr (.inr (.inr ⟨x, hm'.mem_iff.1 hx, hl⟩))
      · rw [savePackage_packages]; exact hm'
      · have := so.perm .package (fun p => (h.packages p).fields.spdxId) d.packages m2
        rw [hm2] at this
        exact this
    exact touches_bind ((saveUnpackaged_touches ..).mono fun l hl => .inr (.inl hl)) (last _ hp2 _ (fun _ _ => trivial))
end

end Verif
