import Verif.Props.C24_C26_SpdxLib

/-!
# C99: validation and described packages of a document that is changed
-/

namespace Verif
open Spec

/-- **C99.** What a valid document describes is in it: every identifier found is that of the document, a package or a file. -/
theorem C99_in_document (so : Sorter) (ps : List PackageV) (fs : List FileV) (rs : List Relationship) (ids : List Str)
    (valid : validateDocument (ps.map some) (fs.map some) (rs.map some) = .ok ())
    (h : getDescribedPackageIDs so (ps.map some) (rs.map some) = .ok ids) : ∀ id ∈ ids, Known ps fs id := by
  have hv := (C24_valid_iff ps fs rs).1.1 valid
  intro id hi
  match ps, h with
  | [p], h =>
    cases (show Res.ok [p.spdxId] = Res.ok ids from h)
    exact .inr (.inl ⟨p, by simp, (List.mem_singleton.1 hi).symm⟩)
  | p :: q :: ps, h =>
    obtain ⟨r, hr, k⟩ := (((C25_described so (some p) (some q) (ps.map some) rs).1 ids h).2.2 id).1 hi
    rcases k with ⟨-, -, rfl⟩ | ⟨-, -, rfl⟩
    · exact (hv r hr).2
    · exact (hv r hr).1

theorem known_more {ps ps' : List PackageV} {fs fs' : List FileV} (hp : ∀ p ∈ ps, p ∈ ps') (hf : ∀ f ∈ fs, f ∈ fs') {id : Str}
    (h : Known ps fs id) : Known ps' fs' id := by
  rcases h with h | ⟨p, h, e⟩ | ⟨f, h, e⟩
  · exact .inl h
  · exact .inr (.inl ⟨p, hp p h, e⟩)
  · exact .inr (.inr ⟨f, hf f h, e⟩)

/-- **C99.** A valid document stays valid if packages and files are added, and if relationships are removed. -/
theorem C99_grow (ps ps' : List PackageV) (fs fs' : List FileV) (rs rs' : List Relationship)
    (hp : ∀ p ∈ ps, p ∈ ps') (hf : ∀ f ∈ fs, f ∈ fs') (hr : ∀ r ∈ rs', r ∈ rs)
    (valid : validateDocument (ps.map some) (fs.map some) (rs.map some) = .ok ()) :
    validateDocument (ps'.map some) (fs'.map some) (rs'.map some) = .ok () := by
  have hv := (C24_valid_iff ps fs rs).1.1 valid
  exact (C24_valid_iff ps' fs' rs').1.2 fun r h => ⟨known_more hp hf (hv r (hr r h)).1, known_more hp hf (hv r (hr r h)).2⟩

/-- **C99.** Two valid documents put together are valid. -/
theorem C99_merge (ps ps' : List PackageV) (fs fs' : List FileV) (rs rs' : List Relationship)
    (valid : validateDocument (ps.map some) (fs.map some) (rs.map some) = .ok ())
    (valid' : validateDocument (ps'.map some) (fs'.map some) (rs'.map some) = .ok ()) :
    validateDocument ((ps ++ ps').map some) ((fs ++ fs').map some) ((rs ++ rs').map some) = .ok () := by
  have h := C99_grow ps (ps ++ ps') fs (fs ++ fs') rs rs (by simp +contextual) (by simp +contextual) (by simp) valid
  have h' := C99_grow ps' (ps ++ ps') fs' (fs ++ fs') rs' rs' (by simp +contextual) (by simp +contextual) (by simp) valid'
  refine (C24_valid_iff _ _ _).1.2 fun r hr => ?_
  rcases List.mem_append.1 hr with hr | hr
  · exact (C24_valid_iff _ _ _).1.1 h r hr
  · exact (C24_valid_iff _ _ _).1.1 h' r hr

/-- **C99.** Whether a relationship may be added to a valid document depends on its two ends only. -/
theorem C99_relate (ps : List PackageV) (fs : List FileV) (rs rs' : List Relationship) (r : Relationship)
    (valid : validateDocument (ps.map some) (fs.map some) ((rs ++ rs').map some) = .ok ()) :
    validateDocument (ps.map some) (fs.map some) ((rs ++ r :: rs').map some) = .ok () ↔
      Known ps fs r.refA.elementRefID ∧ Known ps fs r.refB.elementRefID := by
  have hv := (C24_valid_iff ps fs (rs ++ rs')).1.1 valid
  rw [(C24_valid_iff ps fs (rs ++ r :: rs')).1]
  refine ⟨fun h => h r (by simp), fun h s hs => ?_⟩
  rcases List.mem_append.1 hs with hs | hs
  · exact hv s (by simp [hs])
  · rcases List.mem_cons.1 hs with rfl | hs
    · exact h
    · exact hv s (by simp [hs])

/-- **C99.** A package may be removed from a valid document exactly if no relationship has its identifier at an end, or the document or
something else in it has that identifier, too. -/
theorem C99_remove_package (ps ps' : List PackageV) (p : PackageV) (fs : List FileV) (rs : List Relationship)
    (valid : validateDocument ((ps ++ p :: ps').map some) (fs.map some) (rs.map some) = .ok ()) :
    validateDocument ((ps ++ ps').map some) (fs.map some) (rs.map some) = .ok () ↔
      (∀ r ∈ rs, r.refA.elementRefID ≠ p.spdxId ∧ r.refB.elementRefID ≠ p.spdxId) ∨ Known (ps ++ ps') fs p.spdxId := by
  have hv := (C24_valid_iff (ps ++ p :: ps') fs rs).1.1 valid
  rw [(C24_valid_iff (ps ++ ps') fs rs).1]
  have less : ∀ id, Known (ps ++ p :: ps') fs id → id = p.spdxId ∨ Known (ps ++ ps') fs id := by
    rintro id (h | ⟨q, hq, rfl⟩ | h)
    · exact .inr (.inl h)
    · simp only [List.mem_append, List.mem_cons] at hq
      rcases hq with hq | rfl | hq
      · exact .inr (.inr (.inl ⟨q, by simp [hq], rfl⟩))
      · exact .inl rfl
      · exact .inr (.inr (.inl ⟨q, by simp [hq], rfl⟩))
    · exact .inr (.inr (.inr h))
  constructor
  · intro h
    by_cases hk : Known (ps ++ ps') fs p.spdxId
    · exact .inr hk
    · exact .inl fun r hr => ⟨fun e => hk (e ▸ (h r hr).1), fun e => hk (e ▸ (h r hr).2)⟩
  · rintro (h | h) r hr
    · exact ⟨(less _ (hv r hr).1).resolve_left (h r hr).1, (less _ (hv r hr).2).resolve_left (h r hr).2⟩
    · exact ⟨(less _ (hv r hr).1).elim (fun e => e ▸ h) id, (less _ (hv r hr).2).elim (fun e => e ▸ h) id⟩

/-- **C99.** So may a file. -/
theorem C99_remove_file (ps : List PackageV) (fs fs' : List FileV) (f : FileV) (rs : List Relationship)
    (valid : validateDocument (ps.map some) ((fs ++ f :: fs').map some) (rs.map some) = .ok ()) :
    validateDocument (ps.map some) ((fs ++ fs').map some) (rs.map some) = .ok () ↔
      (∀ r ∈ rs, r.refA.elementRefID ≠ f.spdxId ∧ r.refB.elementRefID ≠ f.spdxId) ∨ Known ps (fs ++ fs') f.spdxId := by
  have hv := (C24_valid_iff ps (fs ++ f :: fs') rs).1.1 valid
  rw [(C24_valid_iff ps (fs ++ fs') rs).1]
  have less : ∀ id, Known ps (fs ++ f :: fs') id → id = f.spdxId ∨ Known ps (fs ++ fs') id := by
    rintro id (h | h | ⟨q, hq, rfl⟩)
    · exact .inr (.inl h)
    · exact .inr (.inr (.inl h))
    · simp only [List.mem_append, List.mem_cons] at hq
      rcases hq with hq | rfl | hq
      · exact .inr (.inr (.inr ⟨q, by simp [hq], rfl⟩))
      · exact .inl rfl
      · exact .inr (.inr (.inr ⟨q, by simp [hq], rfl⟩))
  constructor
  · intro h
    by_cases hk : Known ps (fs ++ fs') f.spdxId
    · exact .inr hk
    · exact .inl fun r hr => ⟨fun e => hk (e ▸ (h r hr).1), fun e => hk (e ▸ (h r hr).2)⟩
  · rintro (h | h) r hr
    · exact ⟨(less _ (hv r hr).1).resolve_left (h r hr).1, (less _ (hv r hr).2).resolve_left (h r hr).2⟩
    · exact ⟨(less _ (hv r hr).1).elim (fun e => e ▸ h) id, (less _ (hv r hr).2).elim (fun e => e ▸ h) id⟩

/-- **C99.** Of two documents with two or more packages each, put together, the described elements are those of either. -/
theorem C99_merge_described (so : Sorter) (ps ps' : List PackageV) (rs rs' : List Relationship) (ids ids' ids'' : List Str)
    (two : 2 ≤ ps.length) (two' : 2 ≤ ps'.length)
    (h : getDescribedPackageIDs so (ps.map some) (rs.map some) = .ok ids) (h' : getDescribedPackageIDs so (ps'.map some) (rs'.map some) = .ok ids')
    (h'' : getDescribedPackageIDs so ((ps ++ ps').map some) ((rs ++ rs').map some) = .ok ids'') : ∀ id, id ∈ ids'' ↔ id ∈ ids ∨ id ∈ ids' := by
  match ps, ps', two, two' with
  | p :: q :: ps, p' :: q' :: ps', _, _ =>
    intro id
    rw [((C25_described so (some p) (some q) (ps.map some) rs).1 ids h).2.2 id,
      ((C25_described so (some p') (some q') (ps'.map some) rs').1 ids' h').2.2 id,
      ((C25_described so (some p) (some q) ((ps ++ p' :: q' :: ps').map some) (rs ++ rs')).1 ids'' h'').2.2 id]
    simp only [List.mem_append, or_and_right, exists_or]

/-! ## Examples and counterexamples -/

/-- The document describes the package. -/
def describes99 (id : Str) : Relationship := { refA := refDocument, refB := { elementRefID := id }, relationship := g!"DESCRIBES" }

/-- Non-vacuity: two valid documents with two packages each, which describe a package; put together, they describe both.  Without the
package `a` the first is not valid any more; without `b` it is. -/
theorem C99_sample :
    validateDocument [some (C24_pkg g!"a"), some (C24_pkg g!"b")] [] [some (describes99 g!"a")] = .ok () ∧
    validateDocument [some (C24_pkg g!"c"), some (C24_pkg g!"d")] [] [some (describes99 g!"d")] = .ok () ∧
    getDescribedPackageIDs insertionSorter [some (C24_pkg g!"a"), some (C24_pkg g!"b")] [some (describes99 g!"a")] = .ok [g!"a"] ∧
    getDescribedPackageIDs insertionSorter [some (C24_pkg g!"c"), some (C24_pkg g!"d")] [some (describes99 g!"d")] = .ok [g!"d"] ∧
    getDescribedPackageIDs insertionSorter ([g!"a", g!"b", g!"c", g!"d"].map fun x => some (C24_pkg x)) [some (describes99 g!"a"), some (describes99 g!"d")] =
      .ok [g!"a", g!"d"] ∧
    validateDocument [some (C24_pkg g!"b")] [] [some (describes99 g!"a")] = .err ∧
    validateDocument [some (C24_pkg g!"a")] [] [some (describes99 g!"a")] = .ok () := by decide +kernel

/-- C99: "adding a package keeps the described packages" is false: the only package of a document counts as described, whatever the
relationships say, and with a second one it does not. -/
theorem C99_second_package_false :
    getDescribedPackageIDs insertionSorter [some (C24_pkg g!"a")] [] = .ok [g!"a"] ∧
    getDescribedPackageIDs insertionSorter [some (C24_pkg g!"a"), some (C24_pkg g!"b")] [] = .err ∧
    getDescribedPackageIDs insertionSorter [some (C24_pkg g!"a")] [some (describes99 g!"b")] = .ok [g!"a"] ∧
    getDescribedPackageIDs insertionSorter [some (C24_pkg g!"a"), some (C24_pkg g!"b")] [some (describes99 g!"b")] = .ok [g!"b"] := by
  decide +kernel

/-- C99: "what a valid document describes are packages" is false: it may be a file, or the document itself. -/
theorem C99_package_false :
    validateDocument [some (C24_pkg g!"a"), some (C24_pkg g!"b")] [some (C24_file g!"f")] [some (describes99 g!"f"), some (describes99 g!"DOCUMENT")] = .ok () ∧
    getDescribedPackageIDs insertionSorter [some (C24_pkg g!"a"), some (C24_pkg g!"b")] [some (describes99 g!"f"), some (describes99 g!"DOCUMENT")] =
      .ok [g!"DOCUMENT", g!"f"] := by decide +kernel

end Verif
