import Verif.Model.TVWrite
import Verif.Lemmas.Sort

/-!
# The writer and the order of lists
-/

namespace Verif
open Spec

theorem Spec.SameFile.refl (f : FileV) : SameFile f f := ⟨rfl, .refl _⟩
theorem Spec.SamePackage.refl (p : PackageV) : SamePackage p p :=
  ⟨rfl, p.files, .refl _, Pointwise.refl SameFile.refl _⟩

theorem renderFile_same {v : Version} (so so' : Sorter) {f g : FileV} (h : SameFile f g)
    (hd : (f.snippets.map (·.1)).Nodup) : renderFile v so f = renderFile v so' g := by
  obtain ⟨h1, h2⟩ := h
  have e1 : renderFileFields v g = renderFileFields v f := by rw [h1]; rfl
  have e2 : snippetsInOrder so f = snippetsInOrder so' g := by
    unfold snippetsInOrder
    rw [sort_keys_eq so so' (h2.map Prod.fst)]
    congr 1
    funext k
    exact mapGet_perm h2 hd k
  unfold renderFile
  rw [e1, e2]

theorem Spec.SameFiles.sorted {l m : List FileV} (so so' : Sorter) (h : SameFiles l m) (hd : (l.map (·.spdxId)).Nodup) :
    Pointwise SameFile (so.run (·.spdxId) l) (so'.run (·.spdxId) m) := by
  obtain ⟨l', hp, hw⟩ := h
  refine sort_pointwise so so' hp hw ?_ hd
  intro a b h; rw [h.1]

theorem Spec.SameFiles.eq_nil {l m : List FileV} (h : SameFiles l m) : l = [] ↔ m = [] := by
  obtain ⟨l', hp, hw⟩ := h
  constructor
  · rintro rfl; have := hp.symm.eq_nil; subst this; cases hw; rfl
  · rintro rfl; cases hw; exact hp.eq_nil

theorem renderFiles_same {v : Version} (so so' : Sorter) {l m : List FileV} (h : SameFiles l m)
    (hd : (l.map (·.spdxId)).Nodup) (hs : ∀ f ∈ l, (f.snippets.map (·.1)).Nodup) :
    (so.run (·.spdxId) l).flatMap (renderFile v so) = (so'.run (·.spdxId) m).flatMap (renderFile v so') := by
  apply (h.sorted so so' hd).flatMap_eq
  intro a ha b _ hab
  exact renderFile_same so so' hab (hs a ((so.mem _ _ _).1 ha))

theorem renderPackage_same {v : Version} (so so' : Sorter) {p q : PackageV} (h : SamePackage p q)
    (hd : (p.files.map (·.spdxId)).Nodup) (hs : ∀ f ∈ p.files, (f.snippets.map (·.1)).Nodup) :
    renderPackageGroup v so p = renderPackageGroup v so' q := by
  obtain ⟨h1, h2⟩ := h
  have e1 : renderPackageFields v q = renderPackageFields v p := by rw [h1]; rfl
  have e3 : q.name = p.name := by rw [h1]
  have e2 := renderFiles_same (v := v) so so' h2 hd hs
  unfold renderPackageGroup renderPackage sortPackageFiles
  simp only [e1, e2, e3]

theorem Spec.SamePackages.sorted {l m : List PackageV} (so so' : Sorter) (h : SamePackages l m)
    (hd : (l.map (·.spdxId)).Nodup) :
    Pointwise SamePackage (so.run (·.spdxId) l) (so'.run (·.spdxId) m) := by
  obtain ⟨l', hp, hw⟩ := h
  refine sort_pointwise so so' hp hw ?_ hd
  intro a b h; rw [h.1]

theorem renderBody_same {v : Version} (so so' : Sorter) {d e : Doc} (h : SameDoc d e) (hd : DistinctIds d)
    (ci : CreationInfo) : renderBody v so d ci = renderBody v so' e ci := by
  have hr := h.rest
  have e1 : renderHeader so d = renderHeader so' e := by
    unfold renderHeader
    rw [sort_eq so so' h.refs hd.refs]
    rw [hr]
  have e2 : heading d.files g!"##### Unpackaged files" = heading e.files g!"##### Unpackaged files" := by
    unfold heading
    by_cases hn : d.files = []
    · simp [hn, h.files.eq_nil.1 hn]
    · have : e.files ≠ [] := fun x => hn (h.files.eq_nil.2 x)
      simp [hn, this]
  have e3 := renderFiles_same (v := v) so so' h.files hd.files (fun f hf => hd.snippets f (by simp [hf]))
  have e4 : (so.run (·.spdxId) d.packages).flatMap (renderPackageGroup v so) =
      (so'.run (·.spdxId) e.packages).flatMap (renderPackageGroup v so') := by
    apply (h.packages.sorted so so' hd.packages).flatMap_eq
    intro a ha b _ hab
    have ha := (so.mem _ _ _).1 ha
    refine renderPackage_same so so' hab (hd.packageFiles a ha) fun f hf => hd.snippets f ?_
    exact List.mem_append.2 (.inr (List.mem_flatMap.2 ⟨a, ha, hf⟩))
  have e5 : renderTail d = renderTail e := by rw [hr]; rfl
  unfold renderBody
  rw [e1, e2, e3, e4, e5]

end Verif
