import Verif.Lemmas.SharingSort
import Verif.Props.C13_C14_Writer

/-!
# C72: saving documents that share memory, one after the other or in parallel

Saving a document as tag-value sorts its slices in place.  Documents may share packages, files and whole slices.
-/

namespace Verif
open Spec

theorem pointwise_mem_right {α β : Type} {R : α → β → Prop} {l : List α} {m : List β} (h : Pointwise R l m) {b : β}
    (hb : b ∈ m) : ∃ a ∈ l, R a b := by
  induction h with
  | nil => cases hb
  | cons h _ ih =>
    rcases List.mem_cons.1 hb with rfl | hb
    · exact ⟨_, by simp, h⟩
    · obtain ⟨a, ha, hab⟩ := ih hb
      exact ⟨a, by simp [ha], hab⟩

theorem pointwise_keys {α β γ : Type} {R : α → β → Prop} {f : α → γ} {g : β → γ} (hR : ∀ a b, R a b → g b = f a) {l : List α}
    {m : List β} (h : Pointwise R l m) : m.map g = l.map f := by
  induction h with
  | nil => rfl
  | cons h _ ih => rw [List.map_cons, List.map_cons, ih, hR _ _ h]

theorem sameFiles_ids {l m : List FileV} (h : SameFiles l m) (hd : (l.map (·.spdxId)).Nodup) : (m.map (·.spdxId)).Nodup := by
  obtain ⟨l', hp, hw⟩ := h
  rw [pointwise_keys (f := (·.spdxId)) (g := (·.spdxId)) (fun a b hab => by rw [hab.1]) hw]
  exact (hp.map _).nodup_iff.1 hd

theorem sameFiles_mem {l m : List FileV} (h : SameFiles l m) {f : FileV} (hf : f ∈ m) : ∃ g ∈ l, SameFile g f := by
  obtain ⟨l', hp, hw⟩ := h
  obtain ⟨g, hg, hgf⟩ := pointwise_mem_right hw hf
  exact ⟨g, hp.mem_iff.2 hg, hgf⟩

/-- Whether identifiers are distinct does not depend on the order. -/
theorem distinctIds_same {d e : Doc} (h : SameDoc d e) (hd : DistinctIds d) : DistinctIds e := by
  have pk : ∀ q ∈ e.packages, ∃ p ∈ d.packages, SamePackage p q := by
    intro q hq
    obtain ⟨l', hp, hw⟩ := h.packages
    obtain ⟨p, hp', hpq⟩ := pointwise_mem_right hw hq
    exact ⟨p, hp.mem_iff.2 hp', hpq⟩
  have sn : ∀ {f g : FileV}, SameFile g f → (g.snippets.map (·.1)).Nodup → (f.snippets.map (·.1)).Nodup :=
    fun hs hn => (hs.2.map _).nodup_iff.1 hn
  refine ⟨(h.refs.map _).nodup_iff.1 hd.refs, sameFiles_ids h.files hd.files, ?_, ?_, ?_⟩
  · obtain ⟨l', hp, hw⟩ := h.packages
    rw [pointwise_keys (f := (·.spdxId)) (g := (·.spdxId)) (fun a b hab => by rw [hab.1]) hw]
    exact (hp.map _).nodup_iff.1 hd.packages
  · intro q hq
    obtain ⟨p, hp, hpq⟩ := pk q hq
    exact sameFiles_ids hpq.2 (hd.packageFiles p hp)
  · intro f hf
    rcases List.mem_append.1 hf with hf | hf
    · obtain ⟨g, hg, hgf⟩ := sameFiles_mem h.files hf
      exact sn hgf (hd.snippets g (by simp [hg]))
    · obtain ⟨q, hq, hf⟩ := List.mem_flatMap.1 hf
      obtain ⟨p, hp, hpq⟩ := pk q hq
      obtain ⟨g, hg, hgf⟩ := sameFiles_mem hpq.2 hf
      exact sn hgf (hd.snippets g (List.mem_append.2 (.inr (List.mem_flatMap.2 ⟨p, hp, hg⟩))))

/-- **C72.** The text saved is the one that is written for the document that memory holds (whatever sorting routine is
used), if the identifiers that decide on the order are distinct. So what the writer sees of pointers and slices is
what the model of the writer says, which knows none. -/
theorem C72_text (h : Heap) (m : Mem) (v : Version) (so : SliceSorter) (sn so' : Sorter) (d : DocObj)
    (tidy : Tidy h (· = d)) (distinct : DistinctIds (h.doc m d)) :
    ((save h v so sn d).run m).1 = writeTagValue v so' (h.doc m d) := by
  rw [save_text h v so sn tidy rfl m distinct]
  exact C13_output_independent_of_order v sn so' _ _
    ⟨rfl, .refl _, ⟨_, .refl _, Pointwise.refl (fun _ => ⟨rfl, .refl _⟩) _⟩, ⟨_, .refl _, Pointwise.refl SamePackage.refl _⟩⟩ distinct

/-- **C72.** Saving one document leaves all documents as they are, up to order, however they share packages, files and
slices, if no two slices overlap in part. -/
theorem C72_others_kept (h : Heap) (m : Mem) (v : Version) (so : SliceSorter) (sn : Sorter) (D : DocObj → Prop)
    (tidy : Tidy h D) (d : DocObj) (hd : D d) (e : DocObj) (he : D e) :
    SameDoc (h.doc m e) (h.doc ((save h v so sn d).run m).2 e) :=
  (save_shuffled h v so sn tidy hd m).sameDoc he

theorem saveAll_run (h : Heap) (so : SliceSorter) (sn : Sorter) (D : DocObj → Prop) (tidy : Tidy h D)
    (jobs : List (Version × DocObj)) (hj : ∀ j ∈ jobs, D j.2) (m m' : Mem) (hm : Shuffled h D m m') :
    Shuffled h D m ((saveAll h so sn jobs).run m').2 ∧
    ((∀ j ∈ jobs, DistinctIds (h.doc m j.2)) → ∀ so' : Sorter,
      ((saveAll h so sn jobs).run m').1 = jobs.map fun j => writeTagValue j.1 so' (h.doc m j.2)) := by
  induction jobs generalizing m' with
  | nil => exact ⟨hm, fun _ _ => rfl⟩
  | cons j js ih =>
    have hd := hj j (by simp)
    have h1 := hm.trans (save_shuffled h j.1 so sn tidy hd m')
    obtain ⟨i1, i2⟩ := ih (fun j hj' => hj j (by simp [hj'])) _ h1
    have e : (saveAll h so sn (j :: js)).run m' =
        (((save h j.1 so sn j.2).run m').1 :: ((saveAll h so sn js).run ((save h j.1 so sn j.2).run m').2).1,
          ((saveAll h so sn js).run ((save h j.1 so sn j.2).run m').2).2) := by
      show (save h j.1 so sn j.2 >>= fun text => saveAll h so sn js >>= fun texts => pure (text :: texts)).run m' = _
      rw [run_bind, run_bind, run_pure]
    rw [e]
    refine ⟨i1, fun hdi so' => ?_⟩
    have hs := hm.sameDoc hd
    have di := distinctIds_same hs (hdi j (by simp))
    rw [i2 (fun j hj' => hdi j (by simp [hj'])) so', List.map_cons, save_text h j.1 so sn tidy hd m' di,
      C13_output_independent_of_order j.1 so' sn _ _ hs (hdi j (by simp))]

/-- **C72.** Any documents are saved one after the other, some of them many times over and as different versions. Each
text is the one that would have been written for the document at the start, and in the end all documents are as they
were, up to order. -/
theorem C72_history (h : Heap) (m : Mem) (so : SliceSorter) (sn so' : Sorter) (D : DocObj → Prop) (tidy : Tidy h D)
    (jobs : List (Version × DocObj)) (hj : ∀ j ∈ jobs, D j.2) :
    ((∀ j ∈ jobs, DistinctIds (h.doc m j.2)) →
      ((saveAll h so sn jobs).run m).1 = jobs.map fun j => writeTagValue j.1 so' (h.doc m j.2)) ∧
    ∀ e, D e → SameDoc (h.doc m e) (h.doc ((saveAll h so sn jobs).run m).2 e) := by
  obtain ⟨h1, h2⟩ := saveAll_run h so sn D tidy jobs hj m m (.refl h D m)
  exact ⟨fun hd => h2 hd so', fun e he => h1.sameDoc he⟩

/-! ## In parallel -/

section
variable (h : Heap) (m : Mem) (so : SliceSorter) (sn : Sorter) (jobs : List (Version × DocObj))

/-- The cells of the document that a goroutine saves. -/
def jobCells (t : Nat) (l : Loc) : Prop := ∃ j, jobs[t]? = some j ∧ Owns h m j.2 l

theorem saving_undisturbed (apart : NothingShared h m jobs) (sched : List Nat) :
    Undisturbed (jobCells h m jobs) (startSaving h so sn jobs m) (Running.after sched (startSaving h so sn jobs m)) sched := by
  have := undisturbed (jobCells h m jobs) (startSaving h so sn jobs m) ?_ sched _ [] (undisturbed_start _ _ ?_)
  · exact this
  · intro t u ht hu htu l
    rintro ⟨⟨j, hj, h1⟩, k, hk, h2⟩
    simp only [startSaving, List.length_map] at ht hu
    rw [List.getElem?_eq_getElem ht] at hj
    rw [List.getElem?_eq_getElem hu] at hk
    cases hj
    cases hk
    exact apart t u ht hu htu l ⟨h1, h2⟩
  · intro t p hp
    simp only [startSaving, List.getElem?_map] at hp
    cases hj : jobs[t]? with
    | none => rw [hj] at hp; cases hp
    | some j =>
      rw [hj] at hp
      cases hp
      exact (save_touches h j.1 so sn j.2 m).mono fun l hl => ⟨j, hj, hl⟩

/-- **C72.** Documents that have no slice and no package in common are saved by goroutines at the same time. For every
schedule, a goroutine that has finished has written the text of its document. -/
theorem C72_parallel_text (apart : NothingShared h m jobs) (tidy : ∀ j ∈ jobs, Tidy h (· = j.2)) (sched : List Nat)
    (t : Nat) (j : Version × DocObj) (hj : jobs[t]? = some j) (distinct : DistinctIds (h.doc m j.2)) (so' : Sorter)
    (text : Res Str) (finished : (Running.after sched (startSaving h so sn jobs m)).progs[t]? = some (.ret text)) :
    text = writeTagValue j.1 so' (h.doc m j.2) := by
  have hs : (startSaving h so sn jobs m).progs[t]? = some (save h j.1 so sn j.2) := by
    simp [startSaving, hj]
  obtain ⟨-, h2, -⟩ := (saving_undisturbed h m so sn jobs apart sched).progs t _ _ hs finished
  rw [← C72_text h m j.1 so sn so' j.2 (tidy j (List.mem_of_getElem? hj)) distinct]
  exact h2

/-- **C72.** No goroutine waits for another: each of them finishes after a number of steps of its own, whatever the
others do. -/
theorem C72_parallel_finish (apart : NothingShared h m jobs) (t : Nat) (ht : t < jobs.length) :
    ∃ n, ∀ sched : List Nat, n ≤ sched.count t →
      ∃ text, (Running.after sched (startSaving h so sn jobs m)).progs[t]? = some (.ret text) := by
  refine ⟨(save h jobs[t].1 so sn jobs[t].2).steps m, fun sched hn => ?_⟩
  have inv := saving_undisturbed h m so sn jobs apart sched
  have hs : (startSaving h so sn jobs m).progs[t]? = some (save h jobs[t].1 so sn jobs[t].2) := by
    simp [startSaving, List.getElem?_eq_getElem ht]
  have hl : t < (Running.after sched (startSaving h so sn jobs m)).progs.length := by
    rw [inv.length]; simpa [startSaving] using ht
  obtain ⟨-, -, -, h4⟩ := inv.progs t _ _ hs (List.getElem?_eq_getElem hl)
  rw [List.getElem?_eq_getElem hl]
  have h0 : ((Running.after sched (startSaving h so sn jobs m)).progs[t]).steps
      (Running.after sched (startSaving h so sn jobs m)).mem = 0 := by
    rw [h4]; exact Nat.sub_eq_zero_of_le hn
  generalize (Running.after sched (startSaving h so sn jobs m)).progs[t] = p at h0
  cases p with
  | ret a => exact ⟨a, rfl⟩
  | read l k => cases h0
  | write l x k => cases h0

/-- **C72.** When all goroutines have finished, all documents are as they were, up to order; also documents that
share slices with those that were saved. -/
theorem C72_parallel_kept (apart : NothingShared h m jobs) (D : DocObj → Prop) (tidy : Tidy h D) (hj : ∀ j ∈ jobs, D j.2)
    (sched : List Nat)
    (finished : ∀ p ∈ (Running.after sched (startSaving h so sn jobs m)).progs, ∃ text, p = .ret text)
    (e : DocObj) (he : D e) :
    SameDoc (h.doc m e) (h.doc (Running.after sched (startSaving h so sn jobs m)).mem e) := by
  have inv := saving_undisturbed h m so sn jobs apart sched
  generalize hr : Running.after sched (startSaving h so sn jobs m) = r at inv finished
  -- the cells of a job are as after saving alone
  have mine : ∀ (t : Nat) (j : Version × DocObj), jobs[t]? = some j → ∀ l, Owns h m j.2 l →
      r.mem l = ((save h j.1 so sn j.2).run m).2 l := by
    intro t j hj' l hl
    have hs : (startSaving h so sn jobs m).progs[t]? = some (save h j.1 so sn j.2) := by simp [startSaving, hj']
    have ht : t < r.progs.length := by
      rw [inv.length]
      have := List.getElem?_eq_some_iff.1 hj'
      simpa [startSaving] using this.1
    obtain ⟨text, hp⟩ := finished _ (List.getElem_mem ht)
    obtain ⟨-, -, h3, -⟩ := inv.progs t _ _ hs (List.getElem?_eq_getElem ht)
    have := h3 l ⟨j, hj', hl⟩
    rw [hp] at this
    exact this
  have others : ∀ l, (∀ j ∈ jobs, ¬ Owns h m j.2 l) → r.mem l = m l := by
    intro l hl
    apply inv.rest l
    rintro t - ⟨j, hj', ho⟩
    exact hl j (List.mem_of_getElem? hj') ho
  -- a slice is a slice of a job, or has no cell in common with any job
  have slice : ∀ (k : Kind) (s : Slice),
      (∀ j ∈ jobs, (∀ l, s.Cell k l → ¬ Owns h m j.2 l) ∨ ((∀ l, s.Cell k l → Owns h m j.2 l) ∧
        (s.contents k ((save h j.1 so sn j.2).run m).2).Perm (s.contents k m))) →
      (s.contents k r.mem).Perm (s.contents k m) := by
    intro k s hs
    by_cases hex : ∃ j ∈ jobs, ¬ ∀ l, s.Cell k l → ¬ Owns h m j.2 l
    · obtain ⟨j, hjm, hno⟩ := hex
      obtain ⟨h1, h2⟩ := (hs j hjm).resolve_left hno
      obtain ⟨t, ht⟩ := List.mem_iff_getElem?.1 hjm
      rw [contents_agree (m := ((save h j.1 so sn j.2).run m).2) fun l hl => mine t j ht l (h1 l hl)]
      exact h2
    · rw [contents_agree]
      intro l hl
      apply others l
      intro j hjm ho
      exact hex ⟨j, hjm, fun h' => h' l hl ho⟩
  have sh : Shuffled h D m r.mem := by
    refine ⟨?_, ?_, ?_⟩
    · intro d hd
      apply slice
      intro j hjm
      by_cases hl : ∃ l, d.refs.Cell .ref l ∧ Owns h m j.2 l
      · obtain ⟨l, h1, h2⟩ := hl
        have := owns_refs tidy (hj j hjm) hd h1 h2
        exact .inr ⟨fun l hl => .inl (this ▸ hl), (save_shuffled h j.1 so sn tidy (hj j hjm) m).refs d hd⟩
      · exact .inl fun l h1 h2 => hl ⟨l, h1, h2⟩
    · intro d hd
      apply slice
      intro j hjm
      by_cases hl : ∃ l, d.packages.Cell .package l ∧ Owns h m j.2 l
      · obtain ⟨l, h1, h2⟩ := hl
        have := owns_packages tidy (hj j hjm) hd h1 h2
        exact .inr ⟨fun l hl => .inr (.inr (.inl (this ▸ hl))), (save_shuffled h j.1 so sn tidy (hj j hjm) m).packages d hd⟩
      · exact .inl fun l h1 h2 => hl ⟨l, h1, h2⟩
    · intro s hs
      apply slice
      intro j hjm
      by_cases hl : ∃ l, s.Cell .file l ∧ Owns h m j.2 l
      · obtain ⟨l, h1, h2⟩ := hl
        refine .inr ⟨?_, (save_shuffled h j.1 so sn tidy (hj j hjm) m).files s hs⟩
        rcases owns_files tidy (hj j hjm) hs h1 h2 with rfl | ⟨p, hp, rfl⟩
        · exact fun l hl => .inr (.inl hl)
        · exact fun l hl => .inr (.inr (.inr ⟨p, hp, hl⟩))
      · exact .inl fun l h1 h2 => hl ⟨l, h1, h2⟩
  exact sh.sameDoc he
end

/-! ## Documents that share memory -/

/-- A way to check that slices are apart. -/
theorem apart_slices {k : Kind} {s t : Slice} (h : s = t ∨ s.array ≠ t.array ∨ s.off + s.len ≤ t.off ∨ t.off + t.len ≤ s.off ∨
    s.len = 0 ∨ t.len = 0) : Apart k s t := by
  rcases h with h | h
  · exact .inl h
  · refine .inr ?_
    rintro l ⟨⟨-, h1, h2, h3⟩, -, h4, h5, h6⟩
    have : ¬ s.array ≠ t.array := fun h => h (h1.symm.trans h4)
    omega

/-- Files 1, 2, … with identifiers `1`, `2`, …; packages 1 and 2 share a slice of files; package 3 has files in
another part of the same array. -/
def C72_heap : Heap where
  refs r := { documentRefID := natDigits r }
  files f := { name := g!"file", spdxId := natDigits f }
  packages p :=
    if p = 1 then { fields := { name := g!"one", spdxId := g!"p1" }, files := ⟨0, 0, 2⟩ }
    else if p = 2 then { fields := { name := g!"two", spdxId := g!"p2" }, files := ⟨0, 0, 2⟩ }
    else if p = 3 then { fields := { name := g!"three", spdxId := g!"p3" }, files := ⟨0, 2, 2⟩ }
    else {}

/-- The arrays. -/
def C72_mem : Mem
  | ⟨.file, 0, i⟩ => [2, 1, 4, 3].getD i 0
  | ⟨.package, 0, i⟩ => [2, 1].getD i 0
  | ⟨.package, 1, i⟩ => [2].getD i 0
  | ⟨.package, 2, i⟩ => [3].getD i 0
  | _ => 0

/-- Packages 2 and 1. -/
def C72_a : DocObj := { fields := { creationInfo := some {} }, packages := ⟨0, 0, 2⟩ }
/-- Package 2. -/
def C72_b : DocObj := { fields := { creationInfo := some {} }, packages := ⟨1, 0, 1⟩ }
/-- Package 3. -/
def C72_c : DocObj := { fields := { creationInfo := some {} }, packages := ⟨2, 0, 1⟩ }

theorem C72_fileSlice {s : Slice} (h : FileSlice C72_heap (fun d => d = C72_a ∨ d = C72_b ∨ d = C72_c) s) :
    s ∈ [({} : Slice), ⟨0, 0, 2⟩, ⟨0, 2, 2⟩] := by
  rcases h with ⟨d, rfl | rfl | rfl, rfl⟩ | ⟨p, rfl⟩
  · decide
  · decide
  · decide
  · unfold C72_heap
    simp only
    split
    · decide
    · split
      · decide
      · split <;> decide

/-- The three documents are tidy, although the first two share a package and the first has two packages with one slice
of files. -/
theorem C72_tidy : Tidy C72_heap (fun d => d = C72_a ∨ d = C72_b ∨ d = C72_c) where
  refs := by rintro d e (rfl | rfl | rfl) (rfl | rfl | rfl) <;> exact apart_slices (by decide)
  packages := by rintro d e (rfl | rfl | rfl) (rfl | rfl | rfl) <;> exact apart_slices (by decide)
  files := by
    intro s t hs ht
    have : ∀ s ∈ [({} : Slice), ⟨0, 0, 2⟩, ⟨0, 2, 2⟩], ∀ t ∈ [({} : Slice), ⟨0, 0, 2⟩, ⟨0, 2, 2⟩],
      s = t ∨ s.array ≠ t.array ∨ s.off + s.len ≤ t.off ∨ t.off + t.len ≤ s.off ∨ s.len = 0 ∨ t.len = 0 := by decide
    exact apart_slices (this s (C72_fileSlice hs) t (C72_fileSlice ht))

theorem C72_distinct (d : DocObj) (h : d = C72_a ∨ d = C72_b ∨ d = C72_c) : DistinctIds (C72_heap.doc C72_mem d) := by
  rcases h with rfl | rfl | rfl <;> exact ⟨by decide, by decide, by decide, by decide, by decide⟩

/-- Saving the documents in some order, some of them twice: the hypotheses are met, and memory does change. -/
theorem C72_history_sample :
    let jobs := [(Version.v23, C72_b), (.v22, C72_a), (.v23, C72_c), (.v23, C72_b)]
    ((saveAll C72_heap (sliceSorter insertionSorter) insertionSorter jobs).run C72_mem).1 =
      jobs.map (fun j => writeTagValue j.1 insertionSorter (C72_heap.doc C72_mem j.2)) ∧
    (C72_heap.doc C72_mem C72_b).packages.map (fun p => p.files.map (·.spdxId)) = [[g!"2", g!"1"]] ∧
    (C72_heap.doc ((saveAll C72_heap (sliceSorter insertionSorter) insertionSorter jobs).run C72_mem).2 C72_b).packages.map
      (fun p => p.files.map (·.spdxId)) = [[g!"1", g!"2"]] := by
  refine ⟨(C72_history C72_heap C72_mem _ _ insertionSorter _ C72_tidy _ ?_).1 ?_, by decide +kernel, by decide +kernel⟩
  · intro j hj
    simp only [List.mem_cons, List.not_mem_nil, or_false] at hj
    rcases hj with rfl | rfl | rfl | rfl <;> simp
  · intro j hj
    simp only [List.mem_cons, List.not_mem_nil, or_false] at hj
    rcases hj with rfl | rfl | rfl | rfl <;> exact C72_distinct _ (by simp)

/-- The first and the third document can be saved at the same time: they have no cell in common, although the files of
their packages are in one array. -/
theorem C72_parallel_sample : NothingShared C72_heap C72_mem [(Version.v23, C72_a), (.v22, C72_c)] := by
  have cells : ∀ l, Owns C72_heap C72_mem C72_a l → Owns C72_heap C72_mem C72_c l → False := by
    have e1 : C72_a.packages.contents .package C72_mem = [2, 1] := by decide
    have e2 : C72_c.packages.contents .package C72_mem = [3] := by decide
    intro l h1 h2
    unfold Owns at h1 h2
    rw [e1] at h1
    rw [e2] at h2
    simp only [Slice.Cell, C72_a, C72_c, C72_heap, List.mem_cons, List.not_mem_nil, or_false, exists_eq_or_imp,
      exists_eq_left] at h1 h2
    rcases h1 with h1 | h1 | h1 | h1 | h1 <;> rcases h2 with h2 | h2 | h2 | h2 <;> simp at h1 h2 <;> first
      | omega
      | (have := h1.1.symm.trans h2.1; cases this; done)
      | (have := h1.2.1.symm.trans h2.2.1; omega)
  intro i j hi hj hij l
  rintro ⟨h1, h2⟩
  simp only [List.length_cons, List.length_nil] at hi hj
  have : (i = 0 ∧ j = 1) ∨ (i = 1 ∧ j = 0) := by omega
  rcases this with ⟨rfl, rfl⟩ | ⟨rfl, rfl⟩
  · exact cells l h1 h2
  · exact cells l h2 h1

/-- The result of a program that has finished. -/
def Prog.result {α : Type} : Prog α → Option α
  | .ret a => some a
  | _ => none

theorem Prog.result_some {α : Type} {p : Prog α} (h : p.result.isSome = true) : ∃ a, p = .ret a := by
  cases p with
  | ret a => exact ⟨a, rfl⟩
  | read l k => cases h
  | write l x k => cases h

/-- Saving one document in two goroutines at the same time is not safe: there is a schedule after which a package is
lost, although both goroutines have finished. (Two goroutines swap the same two packages.) -/
theorem C72_same_document_false :
    ¬ ∀ sched : List Nat, let r := Running.after sched (startSaving C72_heap (sliceSorter insertionSorter) insertionSorter
        [(.v23, C72_a), (.v23, C72_a)] C72_mem)
      (∀ p ∈ r.progs, ∃ text, p = .ret text) → SameDoc (C72_heap.doc C72_mem C72_a) (C72_heap.doc r.mem C72_a) := by
  intro h
  have h1 := h ([0, 0, 0, 1, 1, 0, 1, 1] ++ List.replicate 30 0 ++ List.replicate 30 1) ?_
  · obtain ⟨l', hp, hw⟩ := h1.packages
    have h2 := pointwise_keys (f := (·.spdxId)) (g := (·.spdxId)) (fun a b (hab : SamePackage a b) => by rw [hab.1]) hw
    have h3 := (hp.map (·.spdxId)).trans (List.Perm.of_eq h2.symm)
    revert h3
    decide +kernel
  · intro p hp
    apply Prog.result_some
    revert p
    decide +kernel

/-- Slices that overlap in part are not safe: two packages with the files 2, 1 and 1, 0 in one array. Saving a document
with the first package changes the files of the second. -/
theorem C72_overlap_false :
    let h : Heap := { C72_heap with packages := fun p =>
      if p = 1 then { fields := { spdxId := g!"p1" }, files := ⟨0, 0, 2⟩ }
      else { fields := { spdxId := g!"p2" }, files := ⟨0, 1, 2⟩ } }
    let m : Mem
      | ⟨.file, 0, i⟩ => [2, 1, 0].getD i 0
      | ⟨.package, a, _⟩ => a
      | _ => 0
    let d (a : Nat) : DocObj := { fields := { creationInfo := some {} }, packages := ⟨a, 0, 1⟩ }
    ¬ SameDoc (h.doc m (d 2)) (h.doc ((save h .v23 (sliceSorter insertionSorter) insertionSorter (d 1)).run m).2 (d 2)) := by
  intro h m d hs
  obtain ⟨l', hp, hw⟩ := hs.packages
  have h1 : ∃ p ∈ (h.doc m (d 2)).packages, ∃ q ∈ (h.doc ((save h .v23 (sliceSorter insertionSorter) insertionSorter
      (d 1)).run m).2 (d 2)).packages, SamePackage p q := by
    have hq : (h.doc ((save h .v23 (sliceSorter insertionSorter) insertionSorter (d 1)).run m).2 (d 2)).packages ≠ [] := by
      intro hn
      have := congrArg List.length hn
      simp [Heap.doc, contents_length, d] at this
    obtain ⟨q, hq⟩ := List.exists_mem_of_ne_nil _ hq
    obtain ⟨p, hp', hpq⟩ := pointwise_mem_right hw hq
    exact ⟨p, hp.mem_iff.2 hp', q, hq, hpq⟩
  obtain ⟨p, hp, q, hq, hpq⟩ := h1
  have e1 : ∀ p ∈ (h.doc m (d 2)).packages, p.files.map (·.spdxId) = [g!"1", g!"0"] := by decide +kernel
  have e2 : ∀ q ∈ (h.doc ((save h .v23 (sliceSorter insertionSorter) insertionSorter (d 1)).run m).2 (d 2)).packages,
      q.files.map (·.spdxId) = [g!"2", g!"0"] := by decide +kernel
  obtain ⟨l, hl, hw'⟩ := hpq.2
  have h2 := pointwise_keys (f := (·.spdxId)) (g := (·.spdxId)) (fun a b (hab : SameFile a b) => by rw [hab.1]) hw'
  have h3 := (hl.map (·.spdxId)).trans (List.Perm.of_eq h2.symm)
  rw [e1 p hp, e2 q hq] at h3
  revert h3
  decide

end Verif
