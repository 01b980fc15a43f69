import Verif.Model.Examples
import Verif.Spec.Examples
import Verif.Props.C24_C26_SpdxLib
import Verif.Props.C29_Printed

/-!
# C75: the example programs that compare and report licenses
-/

namespace Verif
open Spec

theorem findPackage_absent {id : Str} {ps : List PackageV} (h : findPackage id ps = none) : NoPackage ps id := by
  induction ps with
  | nil => intro p hp; simp at hp
  | cons p ps ih =>
    rw [findPackage] at h
    split at h
    · cases h
    · next hp =>
      intro q hq
      rcases List.mem_cons.1 hq with rfl | hq
      · exact hp
      · exact ih h q hq

theorem findPackage_present {id : Str} {ps : List PackageV} {p : PackageV} (h : findPackage id ps = some p) :
    PackageOf ps id p := by
  induction ps with
  | nil => cases h
  | cons q ps ih =>
    rw [findPackage] at h
    split at h
    · next hq => cases h; exact ⟨[], ps, rfl, hq, by intro x hx; simp at hx⟩
    · next hq =>
      obtain ⟨b, a, rfl, hp, hn⟩ := ih h
      refine ⟨q :: b, a, rfl, hp, fun x hx => ?_⟩
      rcases List.mem_cons.1 hx with rfl | hx
      · exact hq
      · exact hn x hx

theorem countOf_keys {α : Type} (m : List (Str × α)) (P : Str → Prop) (hn : (m.map (·.1)).Nodup)
    (h : ∀ n, (∃ v, mapGet n m = some v) ↔ P n) : CountOf P m.length :=
  ⟨m.map (·.1), hn, fun n => (mem_keys_iff n m).trans (h n), by simp⟩

theorem countOf_unique {P : Str → Prop} {a b : Nat} (ha : CountOf P a) (hb : CountOf P b) : a = b := by
  obtain ⟨l, h1, h2, rfl⟩ := ha
  obtain ⟨m, h3, h4, rfl⟩ := hb
  exact ((List.perm_ext_iff_of_nodup h1 h3).2 fun x => (h2 x).trans (h4 x).symm).length_eq

/-- The four numbers of a comparison. -/
theorem compared_results (po : PairOrder) (files1 files2 : List FileV) :
    ∃ m, makePairs (files1.map some) (files2.map some) = .ok m ∧
      Compared files1 files2 (makeResults (po.order m)).inFirstOnly.length (makeResults (po.order m)).inSecondOnly.length
        (makeResults (po.order m)).inBothChanged.length (makeResults (po.order m)).inBothSame.length := by
  obtain ⟨m, e, hn, hk, hv⟩ := C27_pairs files1 files2
  have hp := po.perm m
  have hn' : ((po.order m).map (·.1)).Nodup := (hp.map _).nodup_iff.2 hn
  have g := (makeResults_grouped (po.order m) hn').nodup
  have hg : ∀ n, mapGet n (po.order m) = mapGet n m := fun n => mapGet_perm hp hn' n
  have hh : ∀ {n l}, l ≠ [] → Shows files1 n l → HasFile files1 n := fun hl hs => by
    rcases hs with hs | hs
    · exact concludes_has hs
    · exact absurd hs.2 hl
  have hh' : ∀ {n l}, l ≠ [] → Shows files2 n l → HasFile files2 n := fun hl hs => by
    rcases hs with hs | hs
    · exact concludes_has hs
    · exact absurd hs.2 hl
  refine ⟨m, e, ?_, ?_, ?_, ?_⟩
  · refine countOf_keys _ _ g.2.2.1 fun n => ?_
    simp only [(C28_groups _ hn' n).2.2.1, hg, hv]
    exact ⟨fun ⟨l, ⟨_, h1, h2⟩, h3⟩ => ⟨l, h3, h1, h2⟩, fun ⟨l, h1, h2, h3⟩ => ⟨l, ⟨.inl (hh h1 h2), h2, h3⟩, h1⟩⟩
  · refine countOf_keys _ _ g.2.2.2 fun n => ?_
    simp only [(C28_groups _ hn' n).2.2.2, hg, hv]
    exact ⟨fun ⟨l, ⟨_, h1, h2⟩, h3⟩ => ⟨l, h3, h1, h2⟩, fun ⟨l, h1, h2, h3⟩ => ⟨l, ⟨.inr (hh' h1 h3), h2, h3⟩, h1⟩⟩
  · refine countOf_keys _ _ g.2.1 fun n => ?_
    simp only [(C28_groups _ hn' n).2.1, hg]
    constructor
    · rintro ⟨⟨a, b⟩, h1, h2, h3, h4⟩
      obtain ⟨-, h5, h6⟩ := (hv n a b).1 h1
      exact ⟨a, b, h3, h4, h2, h5, h6⟩
    · rintro ⟨a, b, h1, h2, h3, h4, h5⟩
      exact ⟨⟨a, b⟩, (hv n a b).2 ⟨.inl (hh h1 h4), h4, h5⟩, h3, h1, h2⟩
  · refine countOf_keys _ _ g.1 fun n => ?_
    simp only [(C28_groups _ hn' n).1, hg, hv]
    exact ⟨fun ⟨l, h1, h2, h3⟩ => ⟨h1, l, h2, h3⟩, fun ⟨h1, l, h2, h3⟩ => ⟨l, h1, h2, h3⟩⟩

theorem diffFirst_section (po : PairOrder) (d1 d2 : Doc) (id : Str) :
    ∃ s, diffFirst po d1 d2 id = .ok s ∧ FirstSection d1.packages d2.packages id s := by
  rw [diffFirst]
  cases h1 : findPackage id d1.packages with
  | none => exact ⟨_, rfl, .missing (findPackage_absent h1)⟩
  | some p =>
    simp only
    cases h2 : findPackage id d2.packages with
    | none => exact ⟨_, rfl, .alone (findPackage_present h1) (findPackage_absent h2)⟩
    | some q =>
      obtain ⟨m, e, hc⟩ := compared_results po p.files q.files
      refine ⟨_, ?_, .both (findPackage_present h1) (findPackage_present h2) hc⟩
      simp only [e, Res.bind_ok, Res.pure_eq]
      rfl

theorem diffSecond_section (d1 d2 : Doc) (id : Str) :
    SecondSection d1.packages d2.packages id (diffSecond d1 d2 id) := by
  rw [diffSecond]
  cases h2 : findPackage id d2.packages with
  | none => exact .missing (findPackage_absent h2)
  | some q =>
    simp only
    cases h1 : findPackage id d1.packages with
    | none => exact .alone (findPackage_present h2) (findPackage_absent h1)
    | some p => exact .shared (findPackage_present h1) (findPackage_present h2)

theorem diffAllFirst_sections (po : PairOrder) (d1 d2 : Doc) (ids : List Str) :
    ∃ ss, diffAllFirst po d1 d2 ids = .ok ss.flatten ∧ Pointwise (FirstSection d1.packages d2.packages) ids ss := by
  induction ids with
  | nil => exact ⟨[], rfl, .nil⟩
  | cons id ids ih =>
    obtain ⟨s, e, h⟩ := diffFirst_section po d1 d2 id
    obtain ⟨ss, e', h'⟩ := ih
    exact ⟨s :: ss, by simp [diffAllFirst, e, e'], .cons h h'⟩

theorem diffSecond_sections (d1 d2 : Doc) (ids : List Str) :
    Pointwise (SecondSection d1.packages d2.packages) ids (ids.map (diffSecond d1 d2)) := by
  induction ids with
  | nil => exact .nil
  | cons id ids ih => exact .cons (diffSecond_section d1 d2 id) ih

/-- **C75.** The program that compares two documents prints, if the described packages of both can be determined,
one section for each element that the first document describes, and then one for each element that the second
one describes and that is missing in one of the two. -/
theorem C75_diff (so : Sorter) (po : PairOrder) (d1 d2 : Doc) (ids1 ids2 : List Str)
    (h1 : getDescribedPackageIDs so (d1.packages.map some) (d1.relationships.map some) = .ok ids1)
    (h2 : getDescribedPackageIDs so (d2.packages.map some) (d2.relationships.map some) = .ok ids2) :
    ∃ ss1 ss2, diffProgram so po d1 d2 = .ok (ss1.flatten ++ ss2.flatten) ∧
      Pointwise (FirstSection d1.packages d2.packages) ids1 ss1 ∧
      Pointwise (SecondSection d1.packages d2.packages) ids2 ss2 := by
  obtain ⟨ss, e, h⟩ := diffAllFirst_sections po d1 d2 ids1
  refine ⟨ss, _, ?_, h, diffSecond_sections d1 d2 ids2⟩
  simp [diffProgram, h1, h2, e, List.flatMap]

/-- **C75.** The program neither panics nor fails for another reason. -/
theorem C75_diff_error (so : Sorter) (po : PairOrder) (d1 d2 : Doc) :
    diffProgram so po d1 d2 ≠ .panic ∧ (diffProgram so po d1 d2 = .err ↔
      getDescribedPackageIDs so (d1.packages.map some) (d1.relationships.map some) = .err ∨
      getDescribedPackageIDs so (d2.packages.map some) (d2.relationships.map some) = .err) := by
  have np : ∀ d : Doc, getDescribedPackageIDs so (d.packages.map some) (d.relationships.map some) ≠ .panic := fun d => by
    cases hp : d.packages with
    | nil => simp [getDescribedPackageIDs]
    | cons p ps =>
      cases ps with
      | nil => simp [getDescribedPackageIDs, deref]
      | cons q ps => exact (C25_described so (some p) (some q) (ps.map some) d.relationships).2.2
  cases h1 : getDescribedPackageIDs so (d1.packages.map some) (d1.relationships.map some) with
  | panic => exact absurd h1 (np d1)
  | err => simp [diffProgram, h1]
  | ok ids1 =>
    cases h2 : getDescribedPackageIDs so (d2.packages.map some) (d2.relationships.map some) with
    | panic => exact absurd h2 (np d2)
    | err => simp [diffProgram, h1, h2]
    | ok ids2 =>
      obtain ⟨_, _, e, -, -⟩ := C75_diff so po d1 d2 ids1 ids2 h1 h2
      simp [e]

theorem packageOf_unique {ps : List PackageV} {id : Str} {p q : PackageV} (hp : PackageOf ps id p) (hq : PackageOf ps id q) :
    p = q := by
  obtain ⟨b, a, rfl, h1, h2⟩ := hp
  obtain ⟨b', a', e, h3, h4⟩ := hq
  rcases List.append_eq_append_iff.1 e with ⟨c, e1, e2⟩ | ⟨c, e1, e2⟩
  · cases c with
    | nil => exact (List.cons.inj e2).1
    | cons x c =>
      have : x = p := (List.cons.inj e2).1.symm
      subst this e1
      exact absurd h1 (h4 _ (by simp))
  · cases c with
    | nil => exact (List.cons.inj e2).1.symm
    | cons x c =>
      have : x = q := (List.cons.inj e2).1.symm
      subst this e1
      exact absurd h3 (h2 _ (by simp))

theorem packageOf_not_none {ps : List PackageV} {id : Str} {p : PackageV} (h : PackageOf ps id p) : ¬ NoPackage ps id := by
  obtain ⟨b, a, rfl, e, -⟩ := h
  exact fun hn => hn p (by simp) e

/-- **C75.** A section is determined by the packages. -/
theorem C75_section_unique (ps1 ps2 : List PackageV) (id s t : Str) (hs : FirstSection ps1 ps2 id s)
    (ht : FirstSection ps1 ps2 id t) : s = t := by
  cases hs with
  | missing h =>
    cases ht with
    | missing _ => rfl
    | alone h' _ => exact absurd h (packageOf_not_none h')
    | both h' _ _ => exact absurd h (packageOf_not_none h')
  | alone h1 h2 =>
    cases ht with
    | missing h' => exact absurd h' (packageOf_not_none h1)
    | alone h1' _ => rw [packageOf_unique h1 h1']
    | both _ h2' _ => exact absurd h2 (packageOf_not_none h2')
  | both h1 h2 c =>
    cases ht with
    | missing h' => exact absurd h' (packageOf_not_none h1)
    | alone _ h2' => exact absurd h2' (packageOf_not_none h2)
    | both h1' h2' c' =>
      cases packageOf_unique h1 h1'
      cases packageOf_unique h2 h2'
      cases countOf_unique c.first c'.first
      cases countOf_unique c.second c'.second
      cases countOf_unique c.changed c'.changed
      cases countOf_unique c.same c'.same
      rfl

/-- **C75.** What is printed does not depend on the order in which the maps are walked. -/
theorem C75_diff_order (so : Sorter) (po po' : PairOrder) (d1 d2 : Doc) : diffProgram so po d1 d2 = diffProgram so po' d1 d2 := by
  have h : ∀ ids, diffAllFirst po d1 d2 ids = diffAllFirst po' d1 d2 ids := fun ids => by
    induction ids with
    | nil => rfl
    | cons id ids ih =>
      obtain ⟨s, e, h⟩ := diffFirst_section po d1 d2 id
      obtain ⟨t, e', h'⟩ := diffFirst_section po' d1 d2 id
      rw [diffAllFirst, diffAllFirst, ih, e, e', C75_section_unique _ _ _ _ _ h h']
  simp only [diffProgram, h]

theorem shows_some (files : List FileV) (n : Str) : ∃ l, Shows files n l := by
  by_cases h : HasFile files n
  · induction files with
    | nil => obtain ⟨f, hf, -⟩ := h; simp at hf
    | cons f fs ih =>
      by_cases h' : HasFile fs n
      · obtain ⟨l, hl⟩ := ih h'
        rcases hl with ⟨b, g, a, rfl, h1, h2, h3⟩ | hl
        · exact ⟨l, .inl ⟨f :: b, g, a, rfl, h1, h2, h3⟩⟩
        · exact absurd h' hl.1
      · obtain ⟨g, hg, e⟩ := h
        rcases List.mem_cons.1 hg with rfl | hg
        · exact ⟨_, .inl ⟨[], g, fs, rfl, e, rfl, h'⟩⟩
        · exact absurd ⟨g, hg, e⟩ h'
  · exact ⟨[], .inr ⟨h, rfl⟩⟩

/-- **C75.** The four numbers add up to the number of the names on either side. -/
theorem C75_sum (files1 files2 : List FileV) (a b c d : Nat) (h : Compared files1 files2 a b c d) :
    CountOf (fun n => HasFile files1 n ∨ HasFile files2 n) (a + b + c + d) := by
  obtain ⟨⟨l1, n1, m1, rfl⟩, ⟨l2, n2, m2, rfl⟩, ⟨l3, n3, m3, rfl⟩, ⟨l4, n4, m4, rfl⟩⟩ := h
  have hh : ∀ {files : List FileV} {n l : Str}, l ≠ [] → Shows files n l → HasFile files n := fun hl hs => by
    rcases hs with hs | hs
    · exact concludes_has hs
    · exact absurd hs.2 hl
  refine ⟨l1 ++ l2 ++ l3 ++ l4, ?_, fun n => ?_, by simp [Nat.add_assoc]⟩
  · have d12 : ∀ x ∈ l1, ∀ y ∈ l2, x ≠ y := by
      rintro x hx _ hy rfl
      obtain ⟨l, h1, h2, h3⟩ := (m1 x).1 hx
      obtain ⟨m, h4, h5, h6⟩ := (m2 x).1 hy
      exact h1 (shows_unique _ _ _ _ h2 h5)
    have d13 : ∀ x ∈ l1, ∀ y ∈ l3, x ≠ y := by
      rintro x hx _ hy rfl
      obtain ⟨l, h1, h2, h3⟩ := (m1 x).1 hx
      obtain ⟨m, k, h4, h5, h6, h7, h8⟩ := (m3 x).1 hy
      exact h5 (shows_unique _ _ _ _ h8 h3)
    have d23 : ∀ x ∈ l2, ∀ y ∈ l3, x ≠ y := by
      rintro x hx _ hy rfl
      obtain ⟨l, h1, h2, h3⟩ := (m2 x).1 hx
      obtain ⟨m, k, h4, h5, h6, h7, h8⟩ := (m3 x).1 hy
      exact h4 (shows_unique _ _ _ _ h7 h2)
    have d4 : ∀ x ∈ l1 ++ l2 ++ l3, ∀ y ∈ l4, x ≠ y := by
      rintro x hx _ hy rfl
      obtain ⟨-, m, h5, h6⟩ := (m4 x).1 hy
      rcases List.mem_append.1 hx with hx | hx
      · rcases List.mem_append.1 hx with hx | hx
        · obtain ⟨l, h1, h2, h3⟩ := (m1 x).1 hx
          exact h1 ((shows_unique _ _ _ _ h2 h5).trans (shows_unique _ _ _ _ h6 h3))
        · obtain ⟨l, h1, h2, h3⟩ := (m2 x).1 hx
          exact h1 ((shows_unique _ _ _ _ h3 h6).trans (shows_unique _ _ _ _ h5 h2))
      · obtain ⟨l, k, h1, h2, h3, h4, h7⟩ := (m3 x).1 hx
        exact h3 ((shows_unique _ _ _ _ h4 h5).trans (shows_unique _ _ _ _ h6 h7))
    refine List.nodup_append.2 ⟨List.nodup_append.2 ⟨List.nodup_append.2 ⟨n1, n2, d12⟩, n3, fun x hx y hy => ?_⟩, n4, d4⟩
    rcases List.mem_append.1 hx with hx | hx
    · exact d13 x hx y hy
    · exact d23 x hx y hy
  · simp only [List.mem_append, m1, m2, m3, m4]
    constructor
    · rintro (((⟨l, h1, h2, -⟩ | ⟨l, h1, -, h2⟩) | ⟨l, m, h1, -, -, h2, -⟩) | ⟨h, -⟩)
      · exact .inl (hh h1 h2)
      · exact .inr (hh h1 h2)
      · exact .inl (hh h1 h2)
      · exact h
    · intro h
      obtain ⟨l, hl⟩ := shows_some files1 n
      obtain ⟨m, hm⟩ := shows_some files2 n
      by_cases e : l = m
      · subst e; exact .inr ⟨h, l, hl, hm⟩
      · by_cases e1 : l = []
        · subst e1; exact .inl (.inl (.inr ⟨m, fun h => e h.symm, hl, hm⟩))
        · by_cases e2 : m = []
          · subst e2; exact .inl (.inl (.inl ⟨l, e1, hl, hm⟩))
          · exact .inl (.inr ⟨l, m, e1, e2, e, hl, hm⟩)

theorem countOf_congr {P Q : Str → Prop} {n : Nat} (h : CountOf P n) (hpq : ∀ x, P x ↔ Q x) : CountOf Q n := by
  obtain ⟨l, h1, h2, h3⟩ := h
  exact ⟨l, h1, fun x => (h2 x).trans (hpq x), h3⟩

/-- **C75.** If every file has a concluded license, the first two numbers are the numbers of the files that only one
side has. -/
theorem C75_presence (files1 files2 : List FileV) (h1 : ∀ f ∈ files1, f.licenseConcluded ≠ [])
    (h2 : ∀ f ∈ files2, f.licenseConcluded ≠ []) (a b c d : Nat) (h : Compared files1 files2 a b c d) :
    CountOf (fun n => HasFile files1 n ∧ ¬ HasFile files2 n) a ∧ CountOf (fun n => HasFile files2 n ∧ ¬ HasFile files1 n) b ∧
    CountOf (fun n => HasFile files1 n ∧ HasFile files2 n) (c + d) := by
  have s1 := fun {n l} => shows_ne_nil h1 (n := n) (l := l)
  have s2 := fun {n l} => shows_ne_nil h2 (n := n) (l := l)
  have z1 : ∀ {n}, Shows files1 n [] → ¬ HasFile files1 n := fun hs hf => (s1 hs).2 hf rfl
  have z2 : ∀ {n}, Shows files2 n [] → ¬ HasFile files2 n := fun hs hf => (s2 hs).2 hf rfl
  refine ⟨countOf_congr h.first fun n => ?_, countOf_congr h.second fun n => ?_, ?_⟩
  · constructor
    · rintro ⟨l, e, hl, hm⟩
      exact ⟨(s1 hl).1 e, z2 hm⟩
    · rintro ⟨hf, hn⟩
      obtain ⟨l, hl⟩ := shows_some files1 n
      exact ⟨l, (s1 hl).2 hf, hl, .inr ⟨hn, rfl⟩⟩
  · constructor
    · rintro ⟨l, e, hl, hm⟩
      exact ⟨(s2 hm).1 e, z1 hl⟩
    · rintro ⟨hf, hn⟩
      obtain ⟨l, hl⟩ := shows_some files2 n
      exact ⟨l, (s2 hl).2 hf, .inr ⟨hn, rfl⟩, hl⟩
  · obtain ⟨⟨l3, n3, m3, rfl⟩, ⟨l4, n4, m4, rfl⟩⟩ := And.intro h.changed h.same
    refine ⟨l3 ++ l4, List.nodup_append.2 ⟨n3, n4, ?_⟩, fun n => ?_, by simp⟩
    · rintro x hx _ hy rfl
      obtain ⟨-, m, h5, h6⟩ := (m4 x).1 hy
      obtain ⟨l, k, g1, g2, g3, g4, g5⟩ := (m3 x).1 hx
      exact g3 ((shows_unique _ _ _ _ g4 h5).trans (shows_unique _ _ _ _ h6 g5))
    · simp only [List.mem_append, m3, m4]
      constructor
      · rintro (⟨l, m, e1, e2, -, hl, hm⟩ | ⟨hf, l, hl, hm⟩)
        · exact ⟨(s1 hl).1 e1, (s2 hm).1 e2⟩
        · by_cases e : l = []
          · subst e
            rcases hf with hf | hf
            · exact absurd hf (z1 hl)
            · exact absurd hf (z2 hm)
          · exact ⟨(s1 hl).1 e, (s2 hm).1 e⟩
      · rintro ⟨hf, hf'⟩
        obtain ⟨l, hl⟩ := shows_some files1 n
        obtain ⟨m, hm⟩ := shows_some files2 n
        by_cases e : l = m
        · subst e; exact .inr ⟨.inl hf, l, hl, hm⟩
        · exact .inl ⟨l, m, (s1 hl).2 hf, (s2 hm).2 hf', e, hl, hm⟩

/-! ## The report -/

/-- The report of a package of the document, as printed. -/
def C75_block (co : CountSorter) (p : PackageV) (s : Str) : Prop :=
  p.filesAnalyzed = true ∧ p.files ≠ [] ∧ ∃ r, printReport co true (p.files.map some) = .ok r ∧
    s = g!"============================\n" ++ g!"Package " ++ p.spdxId ++ g!" (" ++ p.name ++ g!")\n" ++ r

theorem printReport_ok (co : CountSorter) (files : List FileV) : ∃ r, printReport co true (files.map some) = .ok r := by
  obtain ⟨_, _, _, r, -, h, -⟩ := C29_ink co files
  exact ⟨r, h⟩

theorem reportLoop_spec (co : CountSorter) (ids : List Str) (ps : List PackageV) : ∃ good rest blocks tail,
    ps.filter (fun p => decide (p.spdxId ∈ ids)) = good ++ rest ∧ Pointwise (C75_block co) good blocks ∧
    reportLoop co ids ps = .ok (blocks.flatten ++ tail) ∧
    ((rest = [] ∧ tail = []) ∨
      (∃ p more, rest = p :: more ∧ p.filesAnalyzed = false ∧
        tail = g!"Package " ++ p.spdxId ++ g!" (" ++ p.name ++ g!") had FilesAnalyzed: false\n") ∨
      (∃ p more, rest = p :: more ∧ p.filesAnalyzed = true ∧ p.files = [] ∧
        tail = g!"Package " ++ p.spdxId ++ g!" (" ++ p.name ++ g!") has no Files\n")) := by
  induction ps with
  | nil => exact ⟨[], [], [], [], rfl, .nil, rfl, .inl ⟨rfl, rfl⟩⟩
  | cons p ps ih =>
    obtain ⟨good, rest, blocks, tail, e1, hb, e2, ht⟩ := ih
    rw [reportLoop]
    by_cases hi : p.spdxId ∈ ids
    · have hf : (p :: ps).filter (fun p => decide (p.spdxId ∈ ids)) = p :: (good ++ rest) := by
        rw [List.filter_cons_of_pos (by simpa using hi), e1]
      have hc : ids.contains p.spdxId = true := by simpa using hi
      simp only [hc, Bool.not_true, Bool.false_eq_true, if_false]
      cases ha : p.filesAnalyzed with
      | false =>
        exact ⟨[], p :: (good ++ rest), [], _, by simpa using hf, .nil, rfl, .inr (.inl ⟨p, _, rfl, ha, rfl⟩)⟩
      | true =>
        simp only [Bool.not_true, Bool.false_eq_true, if_false]
        by_cases hl : p.files.length < 1
        · have hn : p.files = [] := List.length_eq_zero_iff.1 (by omega)
          rw [if_pos hl]
          exact ⟨[], p :: (good ++ rest), [], _, by simpa using hf, .nil, rfl, .inr (.inr ⟨p, _, rfl, ha, hn, rfl⟩)⟩
        · rw [if_neg hl]
          obtain ⟨r, hr⟩ := printReport_ok co p.files
          refine ⟨p :: good, rest, _ :: blocks, tail, by rw [hf]; rfl,
            .cons ⟨ha, fun hn => hl (by simp [hn]), r, hr, rfl⟩ hb, ?_, ht⟩
          rw [hr, e2]
          simp [List.append_assoc]
    · have hc : ids.contains p.spdxId = false := by simpa using hi
      simp only [hc, Bool.not_false, if_true]
      exact ⟨good, rest, blocks, tail, by rw [List.filter_cons_of_neg (by simpa using hi), e1], hb, e2, ht⟩

/-- **C75.** The program that reports the licenses of a document goes through the described packages in the order of
the document.  It prints the report of each of them, up to the first whose files were not analyzed or that has no
files; there it says so and stops. -/
theorem C75_report (so : Sorter) (co : CountSorter) (d : Doc) (ids : List Str)
    (h : getDescribedPackageIDs so (d.packages.map some) (d.relationships.map some) = .ok ids) :
    ∃ good rest blocks tail,
      d.packages.filter (fun p => decide (p.spdxId ∈ ids)) = good ++ rest ∧ Pointwise (C75_block co) good blocks ∧
      reportProgram so co d = .ok (blocks.flatten ++ tail) ∧
      ((rest = [] ∧ tail = []) ∨
        (∃ p more, rest = p :: more ∧ p.filesAnalyzed = false ∧
          tail = g!"Package " ++ p.spdxId ++ g!" (" ++ p.name ++ g!") had FilesAnalyzed: false\n") ∨
        (∃ p more, rest = p :: more ∧ p.filesAnalyzed = true ∧ p.files = [] ∧
          tail = g!"Package " ++ p.spdxId ++ g!" (" ++ p.name ++ g!") has no Files\n")) := by
  obtain ⟨good, rest, blocks, tail, h1, h2, h3, h4⟩ := reportLoop_spec co ids d.packages
  refine ⟨good, rest, blocks, tail, h1, h2, ?_, h4⟩
  rw [reportProgram, h, Res.bind_ok]
  split
  · next hl =>
    have hi : ids = [] := List.length_eq_zero_iff.1 hl
    subst hi
    have hn : d.packages.filter (fun p => decide (p.spdxId ∈ ([] : List Str))) = [] := by simp
    rw [hn] at h1
    obtain ⟨rfl, rfl⟩ := List.append_eq_nil_iff.1 h1.symm
    cases h2
    rcases h4 with ⟨-, rfl⟩ | ⟨p, more, e, -⟩ | ⟨p, more, e, -⟩
    · rfl
    · cases e
    · cases e
  · exact h3

/-- **C75.** If every described package has analyzed files, each of them gets its report. -/
theorem C75_report_all (so : Sorter) (co : CountSorter) (d : Doc) (ids : List Str)
    (h : getDescribedPackageIDs so (d.packages.map some) (d.relationships.map some) = .ok ids)
    (ha : ∀ p ∈ d.packages, p.spdxId ∈ ids → p.filesAnalyzed = true ∧ p.files ≠ []) :
    ∃ blocks, reportProgram so co d = .ok blocks.flatten ∧
      Pointwise (C75_block co) (d.packages.filter fun p => decide (p.spdxId ∈ ids)) blocks := by
  obtain ⟨good, rest, blocks, tail, h1, h2, h3, h4⟩ := C75_report so co d ids h
  have hr : ∀ p ∈ rest, p.filesAnalyzed = true ∧ p.files ≠ [] := fun p hp => by
    have : p ∈ d.packages.filter (fun p => decide (p.spdxId ∈ ids)) := by rw [h1]; simp [hp]
    rw [List.mem_filter] at this
    exact ha p this.1 (by simpa using this.2)
  rcases h4 with ⟨rfl, rfl⟩ | ⟨p, more, rfl, hf, -⟩ | ⟨p, more, rfl, -, hf, -⟩
  · exact ⟨blocks, by simpa using h3, by rw [h1]; simpa using h2⟩
  · rw [(hr p (by simp)).1] at hf; cases hf
  · exact absurd hf (hr p (by simp)).2

/-! ## Samples -/

def C75_order : PairOrder := ⟨fun m => m, fun _ => .refl _⟩

def C75_pkg (id name : Str) (analyzed : Bool) (files : List FileV) : PackageV :=
  { spdxId := id, name := name, filesAnalyzed := analyzed, files := files }

def C75_says (id : Str) : Relationship := { refA := refDocument, refB := { elementRefID := id }, relationship := g!"DESCRIBES" }

def C75_doc1 : Doc :=
  { packages := [C75_pkg g!"b" g!"B" true C27_files2, C75_pkg g!"a" g!"A" true C27_files1]
    relationships := [C75_says g!"b", C75_says g!"a", C75_says g!"x"] }

def C75_doc2 : Doc :=
  { packages := [C75_pkg g!"a" g!"A2" true C27_files2, C75_pkg g!"c" g!"C" true []]
    relationships := [C75_says g!"c", C75_says g!"a"] }

example : diffProgram insertionSorter C75_order C75_doc1 C75_doc2 = .ok
    g!"================================\nPackage a (A)\n  Files in first only: 1\n  Files in second only: 1\n  Files in both with different licenses: 1\n  Files in both with same licenses: 1\n================================\nPackage b (B)\n  Found in first document, not found in second\n================================\nPackage x has described relationship in first document but ID not found\n================================\nPackage c (C)\n  Found in second document, not found in first\n" := by
  decide +kernel

example : reportProgram insertionSorter countSorter C75_doc1 = .ok
    g!"============================\nPackage b (B)\n  3  License found\n  0  License not found\n  3  TOTAL\n\n  2  BSD\n  1  MIT\n  3  TOTAL FOUND\n============================\nPackage a (A)\n  3  License found\n  0  License not found\n  3  TOTAL\n\n  3  MIT\n  3  TOTAL FOUND\n" ∧
    (∀ p ∈ C75_doc1.packages, p.filesAnalyzed = true ∧ p.files ≠ []) := by
  decide +kernel

/-- A package that only the second document describes is not mentioned if the first document has a package with that
identifier, whatever the differences are. -/
theorem C75_second_false :
    diffProgram insertionSorter C75_order
      { packages := [C75_pkg g!"a" g!"A" true [], C75_pkg g!"b" g!"B" true C27_files1], relationships := [C75_says g!"a"] }
      { packages := [C75_pkg g!"a" g!"A" true [], C75_pkg g!"b" g!"B" true C27_files2], relationships := [C75_says g!"a", C75_says g!"b"] } =
    diffProgram insertionSorter C75_order
      { packages := [C75_pkg g!"a" g!"A" true []] }
      { packages := [C75_pkg g!"a" g!"A" true []] } := by
  decide +kernel

/-- The report stops at the first described package without analyzed files: the packages after it are not
reported. -/
theorem C75_stops_false :
    reportProgram insertionSorter countSorter
      { packages := [C75_pkg g!"a" g!"A" false [], C75_pkg g!"b" g!"B" true C27_files1], relationships := [C75_says g!"a", C75_says g!"b"] } =
    .ok g!"Package a (A) had FilesAnalyzed: false\n" := by
  decide +kernel

end Verif
