import Verif.Model.SpdxLib
import Verif.Spec.SpdxLib
import Verif.Lemmas.Sort

/-!
# C24, C25, C26: validation, described packages, filtering
-/

namespace Verif
open Spec

theorem elementIds_some {α : Type} (id : α → Str) (l : List α) : elementIds id (l.map some) = .ok (l.map id) := by
  induction l with
  | nil => rfl
  | cons a l ih => simp [elementIds, deref, ih]

theorem elementIds_nil {α : Type} (id : α → Str) (l : List (Option α)) (h : none ∈ l) : elementIds id l = .panic := by
  induction l with
  | nil => simp at h
  | cons a l ih =>
    cases a with
    | none => rfl
    | some a =>
      have : elementIds id l = .panic := ih (by simpa using h)
      simp [elementIds, deref, this]

theorem checkRelationships_iff (valid : List Str) (rs : List Relationship) :
    checkRelationships valid (rs.map some) =
      if ∀ r ∈ rs, r.refA.elementRefID ∈ valid ∧ r.refB.elementRefID ∈ valid then .ok () else .err := by
  induction rs with
  | nil => simp [checkRelationships]
  | cons r rs ih =>
    simp only [List.map_cons, checkRelationships, deref, Res.bind_ok]
    by_cases h1 : r.refA.elementRefID ∈ valid
    · by_cases h2 : r.refB.elementRefID ∈ valid
      · simp [h1, h2, ih]
      · simp [h1, h2]
    · simp [h1]

/-- **C24.** Validation succeeds exactly if the element of every relationship end is the document, one of
its packages or one of its files; otherwise it reports an error. -/
theorem C24_valid_iff (packages : List PackageV) (files : List FileV) (rels : List Relationship) :
    (validateDocument (packages.map some) (files.map some) (rels.map some) = .ok () ↔
      ∀ r ∈ rels, Known packages files r.refA.elementRefID ∧ Known packages files r.refB.elementRefID) ∧
    (validateDocument (packages.map some) (files.map some) (rels.map some) = .err ↔
      ∃ r ∈ rels, ¬ (Known packages files r.refA.elementRefID ∧ Known packages files r.refB.elementRefID)) := by
  have hk : ∀ id, id ∈ refDocument.elementRefID :: (files.map (·.spdxId) ++ packages.map (·.spdxId)) ↔
      Known packages files id := by
    intro id
    simp only [List.mem_cons, List.mem_append, List.mem_map, Known, refDocument]
    exact or_congr_right or_comm
  simp only [validateDocument, elementIds_some, Res.bind_ok, checkRelationships_iff]
  have he : (∀ r ∈ rels, r.refA.elementRefID ∈ refDocument.elementRefID :: (files.map (·.spdxId) ++ packages.map (·.spdxId)) ∧
      r.refB.elementRefID ∈ refDocument.elementRefID :: (files.map (·.spdxId) ++ packages.map (·.spdxId))) ↔
      ∀ r ∈ rels, Known packages files r.refA.elementRefID ∧ Known packages files r.refB.elementRefID :=
    forall_congr' fun r => imp_congr_right fun _ => and_congr (hk _) (hk _)
  by_cases h : ∀ r ∈ rels, Known packages files r.refA.elementRefID ∧ Known packages files r.refB.elementRefID
  · rw [if_pos (he.2 h)]
    refine ⟨by simpa using h, ?_⟩
    simp only [reduceCtorEq, false_iff]
    rintro ⟨r, hr, hn⟩
    exact hn (h r hr)
  · rw [if_neg (mt he.1 h)]
    refine ⟨by simpa using h, ?_⟩
    simp only [true_iff]
    exact Classical.byContradiction fun hn => h fun r hr => Classical.byContradiction fun hx => hn ⟨r, hr, hx⟩

/-- **C24.** The order of packages, of files and of relationships is irrelevant. -/
theorem C24_order (ps ps' : List PackageV) (fs fs' : List FileV) (rs rs' : List Relationship)
    (hp : ps.Perm ps') (hf : fs.Perm fs') (hr : rs.Perm rs') :
    validateDocument (ps.map some) (fs.map some) (rs.map some) =
      validateDocument (ps'.map some) (fs'.map some) (rs'.map some) := by
  have hk : ∀ id, Known ps fs id ↔ Known ps' fs' id := fun id => by
    simp [Known, hp.mem_iff, hf.mem_iff]
  have h1 := C24_valid_iff ps fs rs
  have h2 := C24_valid_iff ps' fs' rs'
  by_cases h : ∀ r ∈ rs, Known ps fs r.refA.elementRefID ∧ Known ps fs r.refB.elementRefID
  · rw [h1.1.2 h, h2.1.2 fun r hr' => by simpa [← hk] using h r (hr.mem_iff.2 hr')]
  · have h' : ∃ r ∈ rs, ¬ (Known ps fs r.refA.elementRefID ∧ Known ps fs r.refB.elementRefID) :=
      Classical.byContradiction fun hn => h fun r hr => Classical.byContradiction fun hx => hn ⟨r, hr, hx⟩
    obtain ⟨r, hr1, hx⟩ := h'
    rw [h1.2.2 ⟨r, hr1, hx⟩, h2.2.2 ⟨r, hr.mem_iff.1 hr1, by simpa [← hk] using hx⟩]

/-- **C24.** A missing (nil) package or file makes validation panic. -/
theorem C24_nil (packages : List (Option PackageV)) (files : List FileV) (rels : List (Option Relationship))
    (h : none ∈ packages) : validateDocument packages (files.map some) rels = .panic := by
  simp [validateDocument, elementIds_nil _ _ h]

def C24_pkg (id : Str) : PackageV := { spdxId := id }
def C24_file (id : Str) : FileV := { spdxId := id }

example : validateDocument [some (C24_pkg g!"a"), some (C24_pkg g!"b")] [some (C24_file g!"f")]
    [some { refA := refDocument, refB := { elementRefID := g!"b" }, relationship := g!"DESCRIBES" },
     some { refA := { elementRefID := g!"a" }, refB := { elementRefID := g!"f" }, relationship := g!"CONTAINS" }] =
      .ok () := by decide +kernel
example : validateDocument [some (C24_pkg g!"a")] [some (C24_file g!"f")]
    [some { refA := { elementRefID := g!"a" }, refB := { elementRefID := g!"g" }, relationship := g!"CONTAINS" }] =
      .err := by decide +kernel

/-- The names NONE and NOASSERTION, which the format allows, are rejected. -/
theorem C24_none_rejected_false :
    validateDocument [some (C24_pkg g!"a")] []
      [some { refA := { elementRefID := g!"a" }, refB := { specialID := g!"NONE" }, relationship := g!"CONTAINS" }] = .err := by
  decide +kernel

/-- An element of another document is looked up in this one: a dangling reference is accepted, and a
correct one rejected. -/
theorem C24_other_document_false :
    validateDocument [some (C24_pkg g!"a")] []
      [some { refA := { elementRefID := g!"a" }, refB := { documentRefID := g!"x", elementRefID := g!"a" },
              relationship := g!"DEPENDS_ON" }] = .ok () ∧
    validateDocument [some (C24_pkg g!"a")] []
      [some { refA := { elementRefID := g!"a" }, refB := { documentRefID := g!"x", elementRefID := g!"b" },
              relationship := g!"DEPENDS_ON" }] = .err := by
  decide +kernel

/-- A file that belongs to a package is not known. -/
theorem C24_package_file_false :
    validateDocument [some { spdxId := g!"a", files := [C24_file g!"f"] }] []
      [some { refA := { elementRefID := g!"a" }, refB := { elementRefID := g!"f" }, relationship := g!"CONTAINS" }] = .err := by
  decide +kernel

/-! ## C26 -/

theorem filter_spec {σ : Type} (f : σ → Option Relationship → Res (Option Str × σ)) (rs : List (Option Relationship)) :
    ∀ (s : σ) (ids : List Str) (t : σ), filterRelationships f s rs = .ok (ids, t) ↔
      ∃ out, Calls f s rs out t ∧ ids = out.filterMap id := by
  induction rs with
  | nil =>
    intro s ids t
    simp only [filterRelationships, Res.ok.injEq, Prod.mk.injEq]
    constructor
    · rintro ⟨rfl, rfl⟩; exact ⟨[], .nil _, rfl⟩
    · rintro ⟨out, h, rfl⟩; cases h; simp
  | cons r rs ih =>
    intro s ids t
    rw [filterRelationships]
    cases hf : f s r with
    | err => simp; rintro out h; cases h with | cons h1 _ => rw [hf] at h1; cases h1
    | panic => simp; rintro out h; cases h with | cons h1 _ => rw [hf] at h1; cases h1
    | ok x =>
      obtain ⟨b, s'⟩ := x
      simp only [Res.bind_ok]
      cases hr : filterRelationships f s' rs with
      | ok y =>
        obtain ⟨ids', t'⟩ := y
        obtain ⟨out, h1, h2⟩ := (ih s' ids' t').1 hr
        constructor
        · intro h
          refine ⟨b :: out, ?_, ?_⟩ <;> cases b <;> simp [pure] at h <;> obtain ⟨rfl, rfl⟩ := h
          · exact .cons hf h1
          · exact .cons hf h1
          · simp [h2]
          · simp [h2]
        · rintro ⟨out2, h3, rfl⟩
          cases h3 with
          | cons h4 h5 =>
            rw [hf] at h4
            simp only [Res.ok.injEq, Prod.mk.injEq] at h4
            obtain ⟨rfl, rfl⟩ := h4
            have := (ih s' _ t).2 ⟨_, h5, rfl⟩
            rw [hr] at this
            simp only [Res.ok.injEq, Prod.mk.injEq] at this
            obtain ⟨rfl, rfl⟩ := this
            cases b <;> rfl
      | err =>
        simp
        rintro out h
        cases h with
        | cons h4 h5 =>
          rw [hf] at h4
          simp only [Res.ok.injEq, Prod.mk.injEq] at h4
          obtain ⟨rfl, rfl⟩ := h4
          rw [(ih s' _ t).2 ⟨_, h5, rfl⟩] at hr
          cases hr
      | panic =>
        simp
        rintro out h
        cases h with
        | cons h4 h5 =>
          rw [hf] at h4
          simp only [Res.ok.injEq, Prod.mk.injEq] at h4
          obtain ⟨rfl, rfl⟩ := h4
          rw [(ih s' _ t).2 ⟨_, h5, rfl⟩] at hr
          cases hr

/-- **C26.** Filtering calls the closure once for each relationship, in order, and returns the identifiers
it returned, in that order and with repetitions. -/
theorem C26_filter {σ : Type} (f : σ → Option Relationship → Res (Option Str × σ)) (s t : σ)
    (rels : List (Option Relationship)) (ids : List Str) :
    filterRelationships f s rels = .ok (ids, t) ↔ ∃ out, Calls f s rels out t ∧ ids = out.filterMap id :=
  filter_spec f rels s ids t

/-- **C26.** With a closure that never panics filtering succeeds. -/
theorem C26_succeeds {σ : Type} (f : σ → Option Relationship → Res (Option Str × σ))
    (total : ∀ s r, (f s r).isOk = true) (s : σ) (rels : List (Option Relationship)) :
    ∃ ids t, filterRelationships f s rels = .ok (ids, t) := by
  induction rels generalizing s with
  | nil => exact ⟨[], s, rfl⟩
  | cons r rs ih =>
    have h := total s r
    cases hf : f s r with
    | err => simp [hf, Res.isOk] at h
    | panic => simp [hf, Res.isOk] at h
    | ok x =>
      obtain ⟨b, s'⟩ := x
      obtain ⟨ids, t, hr⟩ := ih s'
      cases b with
      | none => exact ⟨ids, t, by simp [filterRelationships, hf, hr]⟩
      | some b => exact ⟨b :: ids, t, by simp [filterRelationships, hf, hr]⟩

/-- **C26.** For a closure without side effects: the identifiers of the relationships it accepts. -/
theorem C26_pure (g : Relationship → Option Str) (rels : List Relationship) :
    filterRelationships (fun (_ : Unit) r => do return (g (← deref r), ())) () (rels.map some) =
      .ok (rels.filterMap g, ()) := by
  induction rels with
  | nil => rfl
  | cons r rs ih =>
    rw [List.map_cons, filterRelationships]
    show (filterRelationships _ () (rs.map some) >>= _) = _
    rw [ih]
    cases hg : g r with
    | none => simp [hg]
    | some a => simp [hg]

/-- A closure that counts its calls and accepts every second one. -/
def C26_alternate (n : Nat) (_ : Option Relationship) : Res (Option Str × Nat) :=
  .ok (if n % 2 = 0 then some (natDigits n) else none, n + 1)

example : filterRelationships C26_alternate 0 [none, none, none] = .ok ([g!"0", g!"2"], 3) ∧
    (∀ s r, (C26_alternate s r).isOk = true) := ⟨by decide +kernel, fun _ _ => rfl⟩

/-! ## C25 -/

theorem describedBy_eq (u : Unit) (r : Relationship) : ∃ o, describedBy u (some r) = .ok (o, ()) ∧
    ∀ id, o = some id ↔ Says r id := by
  simp only [describedBy, deref, Res.bind_ok]
  have hd : thisDocument = refDocument := rfl
  by_cases h1 : r.relationship = g!"DESCRIBES" ∧ r.refA = refDocument
  · refine ⟨some r.refB.elementRefID, by rw [if_pos h1]; rfl, fun id => ?_⟩
    simp only [Option.some.injEq, Says, hd, h1.1, h1.2, true_and]
    constructor
    · exact .inl
    · rintro (h | ⟨h, -⟩)
      · exact h
      · exact absurd h (by decide)
  · by_cases h2 : r.relationship = g!"DESCRIBED_BY" ∧ r.refB = refDocument
    · refine ⟨some r.refA.elementRefID, by rw [if_neg h1, if_pos h2]; rfl, fun id => ?_⟩
      simp only [Option.some.injEq, Says, hd, h2.1, h2.2, true_and]
      constructor
      · exact .inr
      · rintro (⟨h, -⟩ | h)
        · exact absurd h (by decide)
        · exact h
    · refine ⟨none, by rw [if_neg h1, if_neg h2]; rfl, fun id => ⟨by simp, ?_⟩⟩
      rintro (h | h)
      · exact absurd ⟨h.1, h.2.1⟩ h1
      · exact absurd ⟨h.1, h.2.1⟩ h2

theorem filter_describes (rels : List Relationship) :
    ∃ ids, filterRelationships describedBy () (rels.map some) = .ok (ids, ()) ∧
      (∀ id, id ∈ ids ↔ ∃ r ∈ rels, Says r id) ∧
      (∀ id, ids.count id ≥ 2 → ¬ rels.Pairwise fun a b => ¬ (Says a id ∧ Says b id)) := by
  induction rels with
  | nil => exact ⟨[], rfl, by simp, by simp⟩
  | cons r rs ih =>
    obtain ⟨ids, h1, h2, h3⟩ := ih
    obtain ⟨o, h4, h5⟩ := describedBy_eq () r
    cases o with
    | none =>
      refine ⟨ids, by simp [filterRelationships, h4, h1], fun id => ?_, fun id hc hp => h3 id hc hp.of_cons⟩
      rw [h2]
      have := mt (h5 id).2 (by simp)
      simp [this]
    | some x =>
      refine ⟨x :: ids, by simp [filterRelationships, h4, h1], fun id => ?_, fun id hc hp => ?_⟩
      · simp only [List.mem_cons, h2, exists_eq_or_imp, ← h5, Option.some.injEq]
        exact or_congr_left eq_comm
      · rw [List.count_cons] at hc
        by_cases hx : x = id
        · subst hx
          have h6 : x ∈ ids := by simp at hc; exact hc
          obtain ⟨r', hr', hs⟩ := (h2 x).1 h6
          exact (List.pairwise_cons.1 hp).1 r' hr' ⟨(h5 x).1 rfl, hs⟩
        · have : (x == id) = false := by simpa using hx
          simp [this] at hc
          exact h3 id hc hp.of_cons

/-- **C25.** For two or more packages the query returns, sorted, exactly the elements that the document is
stated to describe; it fails exactly if there is none. -/
theorem C25_described (so : Sorter) (p q : Option PackageV) (ps : List (Option PackageV)) (rels : List Relationship) :
    (∀ ids, getDescribedPackageIDs so (p :: q :: ps) (rels.map some) = .ok ids →
      ids ≠ [] ∧ ids.Pairwise (fun a b => strLe a b = true) ∧ ∀ id, id ∈ ids ↔ ∃ r ∈ rels, Says r id) ∧
    (getDescribedPackageIDs so (p :: q :: ps) (rels.map some) = .err ↔ ¬ ∃ r ∈ rels, ∃ id, Says r id) ∧
    getDescribedPackageIDs so (p :: q :: ps) (rels.map some) ≠ .panic := by
  obtain ⟨ids, h1, h2, -⟩ := filter_describes rels
  rw [getDescribedPackageIDs]
  by_cases hr : rels = []
  · subst hr
    simp
  · have hr' : rels.map some ≠ [] := by simpa using hr
    rw [if_neg hr', h1, Res.bind_ok]
    simp only
    by_cases hi : ids = []
    · subst hi
      simp only [if_true]
      refine ⟨by simp, ?_, by simp⟩
      simp only [true_iff]
      rintro ⟨r, hr, id, hs⟩
      have := (h2 id).2 ⟨r, hr, hs⟩
      simp at this
    · rw [if_neg hi]
      simp only [pure, Res.ok.injEq, reduceCtorEq, false_iff, Classical.not_not, ne_eq, not_false_eq_true, and_true]
      refine ⟨?_, ?_⟩
      · rintro _ rfl
        refine ⟨fun h => hi ((so.eq_nil id ids).1 h), so.sorted id ids, fun i => ?_⟩
        rw [sortElementIDs, so.mem, h2]
      · obtain ⟨x, hx⟩ := List.exists_mem_of_ne_nil ids hi
        obtain ⟨r, hr, hs⟩ := (h2 x).1 hx
        exact ⟨r, hr, x, hs⟩

/-- **C25.** If no two relationships state the same element as described, the answer repeats nothing. -/
theorem C25_no_repetition (so : Sorter) (p q : Option PackageV) (ps : List (Option PackageV))
    (rels : List Relationship) (ids : List Str)
    (h : getDescribedPackageIDs so (p :: q :: ps) (rels.map some) = .ok ids)
    (hd : ∀ id, rels.Pairwise fun a b => ¬ (Says a id ∧ Says b id)) : ids.Nodup := by
  obtain ⟨ids', h1, h2, h3⟩ := filter_describes rels
  rw [getDescribedPackageIDs] at h
  split at h
  · cases h
  · rw [h1, Res.bind_ok] at h
    simp only at h
    split at h
    · cases h
    · simp only [pure, Res.ok.injEq] at h
      subst h
      refine (so.perm id ids').nodup_iff.2 ?_
      rw [List.nodup_iff_count]
      intro a
      refine Classical.byContradiction fun hc => h3 a (by omega) (hd a)

/-- **C25.** The single package is returned, whatever the relationships say; without packages the query
fails. -/
theorem C25_single (so : Sorter) (p : PackageV) (rels : List (Option Relationship)) :
    getDescribedPackageIDs so [some p] rels = .ok [p.spdxId] ∧ getDescribedPackageIDs so [] rels = .err := ⟨rfl, rfl⟩

/-- Two packages, both described, once in each direction. -/
def C25_sample : List Relationship :=
  [{ refA := refDocument, refB := { elementRefID := g!"b" }, relationship := g!"DESCRIBES" },
   { refA := { elementRefID := g!"b" }, refB := { elementRefID := g!"c" }, relationship := g!"DESCRIBES" },
   { refA := { elementRefID := g!"a" }, refB := refDocument, relationship := g!"DESCRIBED_BY" }]

example : getDescribedPackageIDs insertionSorter [some (C24_pkg g!"b"), some (C24_pkg g!"a")] (C25_sample.map some) =
    .ok [g!"a", g!"b"] := by decide +kernel

/-- The comment in the code says the identifiers are verified to be packages of the document.  They are
not: an unknown element, and an element of another document, are returned. -/
theorem C25_unverified_false :
    getDescribedPackageIDs insertionSorter [some (C24_pkg g!"a"), some (C24_pkg g!"b")]
      [some { refA := refDocument, refB := { elementRefID := g!"zzz" }, relationship := g!"DESCRIBES" }] = .ok [g!"zzz"] ∧
    getDescribedPackageIDs insertionSorter [some (C24_pkg g!"a"), some (C24_pkg g!"b")]
      [some { refA := refDocument, refB := { documentRefID := g!"other", elementRefID := g!"a" },
              relationship := g!"DESCRIBES" }] = .ok [g!"a"] := by decide +kernel

/-- An element described twice is returned twice. -/
theorem C25_repetition_false :
    getDescribedPackageIDs insertionSorter [some (C24_pkg g!"a"), some (C24_pkg g!"b")]
      [some { refA := refDocument, refB := { elementRefID := g!"a" }, relationship := g!"DESCRIBES" },
       some { refA := { elementRefID := g!"a" }, refB := refDocument, relationship := g!"DESCRIBED_BY" }] =
    .ok [g!"a", g!"a"] := by decide +kernel

end Verif
