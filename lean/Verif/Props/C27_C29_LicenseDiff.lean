import Verif.Model.LicenseDiff
import Verif.Spec.LicenseDiff
import Verif.Lemmas.Map

/-!
# C27, C28, C29: license comparison and license report
-/

namespace Verif
open Spec

theorem hasFile_append (l m : List FileV) (n : Str) : HasFile (l ++ m) n ↔ HasFile l n ∨ HasFile m n := by
  simp only [HasFile, List.mem_append]
  constructor
  · rintro ⟨f, h | h, e⟩
    · exact .inl ⟨f, h, e⟩
    · exact .inr ⟨f, h, e⟩
  · rintro (⟨f, h, e⟩ | ⟨f, h, e⟩)
    · exact ⟨f, .inl h, e⟩
    · exact ⟨f, .inr h, e⟩

theorem hasFile_single (f : FileV) (n : Str) : HasFile [f] n ↔ f.name = n := by simp [HasFile]

theorem concludes_snoc (l : List FileV) (f : FileV) (n lic : Str) :
    Concludes (l ++ [f]) n lic ↔ (f.name = n ∧ f.licenseConcluded = lic) ∨ (f.name ≠ n ∧ Concludes l n lic) := by
  constructor
  · rintro ⟨b, g, a, e, h1, h2, h3⟩
    rcases List.eq_nil_or_concat a with rfl | ⟨a', x, rfl⟩
    · obtain ⟨rfl, e2⟩ := List.append_inj' e rfl
      simp at e2; subst e2
      exact .inl ⟨h1, h2⟩
    · rw [List.concat_eq_append] at e h3
      have e' : l ++ [f] = (b ++ g :: a') ++ [x] := by simpa using e
      obtain ⟨rfl, e2⟩ := List.append_inj' e' rfl
      simp at e2; subst e2
      rw [hasFile_append, hasFile_single] at h3
      exact .inr ⟨fun h => h3 (.inr h), b, g, a', rfl, h1, h2, fun h => h3 (.inl h)⟩
  · rintro (⟨h1, h2⟩ | ⟨h0, b, g, a, rfl, h1, h2, h3⟩)
    · exact ⟨l, f, [], rfl, h1, h2, by simp [HasFile]⟩
    · refine ⟨b, g, a ++ [f], by simp, h1, h2, ?_⟩
      rw [hasFile_append, hasFile_single]
      rintro (h | h)
      · exact h3 h
      · exact h0 h

theorem concludes_has {l : List FileV} {n lic : Str} (h : Concludes l n lic) : HasFile l n := by
  obtain ⟨b, g, a, rfl, h1, -, -⟩ := h
  exact ⟨g, by simp, h1⟩

theorem shows_snoc (l : List FileV) (f : FileV) (n lic : Str) :
    Shows (l ++ [f]) n lic ↔ (f.name = n ∧ f.licenseConcluded = lic) ∨ (f.name ≠ n ∧ Shows l n lic) := by
  simp only [Shows, concludes_snoc, hasFile_append, hasFile_single]
  by_cases h : f.name = n
  · simp [h]
  · simp [h]

/-- A list of files concludes at most one license for a name. -/
theorem shows_unique (files : List FileV) (n a b : Str) (h1 : Shows files n a) (h2 : Shows files n b) : a = b := by
  revert h1 h2
  obtain ⟨r, rfl⟩ : ∃ r : List FileV, files = r.reverse := ⟨files.reverse, by simp⟩
  induction r with
  | nil =>
    intro h1 h2
    have : ∀ x, Shows ([] : List FileV).reverse n x → x = [] := by
      rintro x (h | h)
      · exact absurd (concludes_has h) (by simp [HasFile])
      · exact h.2
    rw [this a h1, this b h2]
  | cons f l ih =>
    rw [List.reverse_cons, shows_snoc, shows_snoc]
    rintro (⟨h1, h2⟩ | ⟨h1, h2⟩) (⟨h3, h4⟩ | ⟨h3, h4⟩)
    · exact h2.symm.trans h4
    · exact absurd h1 h3
    · exact absurd h3 h1
    · exact ih h2 h4

/-- The invariant of the two loops: the map shows the licenses of the files seen so far. -/
structure Pairs (done1 done2 : List FileV) (m : List (Str × LicensePair)) : Prop where
  nodup : (m.map (·.1)).Nodup
  keys : ∀ n, mapGet n m = none ↔ ¬ (HasFile done1 n ∨ HasFile done2 n)
  vals : ∀ n p, mapGet n m = some p → Shows done1 n p.first ∧ Shows done2 n p.second

theorem shows_nil (n : Str) : Shows [] n [] := .inr ⟨by simp [HasFile], rfl⟩

theorem addFirst_ok (fs : List FileV) : ∀ (done : List FileV) (m : List (Str × LicensePair)), Pairs done [] m →
    ∃ m', addFirst m (fs.map some) = .ok m' ∧ Pairs (done ++ fs) [] m' := by
  induction fs with
  | nil => intro done m h; exact ⟨m, rfl, by simpa using h⟩
  | cons f fs ih =>
    intro done m h
    have h' : Pairs (done ++ [f]) [] (mapInsert f.name { first := f.licenseConcluded, second := [] } m) := by
      refine ⟨mapInsert_nodup _ _ _ h.nodup, fun n => ?_, fun n p hp => ?_⟩
      · rw [mapGet_mapInsert, hasFile_append, hasFile_single]
        by_cases e : f.name = n
        · simp [e]
        · simp only [e, if_false, h.keys, or_false]
      · rw [mapGet_mapInsert] at hp
        rw [shows_snoc]
        by_cases e : f.name = n
        · rw [if_pos e] at hp
          simp only [Option.some.injEq] at hp
          subst hp
          exact ⟨.inl ⟨e, rfl⟩, shows_nil n⟩
        · rw [if_neg e] at hp
          exact ⟨.inr ⟨e, (h.vals n p hp).1⟩, (h.vals n p hp).2⟩
    obtain ⟨m', h1, h2⟩ := ih _ _ h'
    exact ⟨m', by simpa [addFirst, deref] using h1, by simpa using h2⟩

theorem addSecond_ok (fs : List FileV) (all : List FileV) : ∀ (done : List FileV) (m : List (Str × LicensePair)),
    Pairs all done m → ∃ m', addSecond m (fs.map some) = .ok m' ∧ Pairs all (done ++ fs) m' := by
  induction fs with
  | nil => intro done m h; exact ⟨m, rfl, by simpa using h⟩
  | cons f fs ih =>
    intro done m h
    have h' : Pairs all (done ++ [f]) (mapInsert f.name
        { first := match mapGet f.name m with | some e => e.first | none => [], second := f.licenseConcluded } m) := by
      refine ⟨mapInsert_nodup _ _ _ h.nodup, fun n => ?_, fun n p hp => ?_⟩
      · rw [mapGet_mapInsert, hasFile_append, hasFile_single]
        by_cases e : f.name = n
        · simp [e]
        · simp only [e, if_false, h.keys, or_false]
      · rw [mapGet_mapInsert] at hp
        rw [shows_snoc]
        by_cases e : f.name = n
        · rw [if_pos e] at hp
          simp only [Option.some.injEq] at hp
          subst hp
          refine ⟨?_, .inl ⟨e, rfl⟩⟩
          rw [e]
          cases hm : mapGet n m with
          | none =>
            have := (h.keys n).1 hm
            exact .inr ⟨fun hh => this (.inl hh), rfl⟩
          | some p => exact (h.vals n p hm).1
        · rw [if_neg e] at hp
          exact ⟨(h.vals n p hp).1, .inr ⟨e, (h.vals n p hp).2⟩⟩
    obtain ⟨m', h1, h2⟩ := ih _ _ h'
    exact ⟨m', h1, by simpa using h2⟩

/-- **C27.** Pairing gives one entry for each file name of either package, with the license concluded in the
first and in the second package, and the empty text where the package has no such file. -/
theorem C27_pairs (files1 files2 : List FileV) : ∃ m, makePairs (files1.map some) (files2.map some) = .ok m ∧
    (m.map (·.1)).Nodup ∧
    (∀ n, n ∈ m.map (·.1) ↔ HasFile files1 n ∨ HasFile files2 n) ∧
    ∀ n a b, mapGet n m = some ⟨a, b⟩ ↔ (HasFile files1 n ∨ HasFile files2 n) ∧ Shows files1 n a ∧ Shows files2 n b := by
  obtain ⟨m1, h1, h2⟩ := addFirst_ok files1 [] [] ⟨by simp, by simp [mapGet, HasFile], by simp [mapGet]⟩
  obtain ⟨m2, h3, h4⟩ := addSecond_ok files2 _ [] m1 h2
  simp only [List.nil_append] at h4
  have hk : ∀ n, n ∈ m2.map (·.1) ↔ HasFile files1 n ∨ HasFile files2 n := fun n => by
    have h5 := (mapGet_none_iff n m2).symm.trans (h4.keys n)
    exact ⟨fun h => Classical.byContradiction fun hn => h5.2 hn h, fun h => Classical.byContradiction fun hn => h5.1 hn h⟩
  refine ⟨m2, by simp [makePairs, h1, h3], h4.nodup, hk, fun n a b => ⟨fun h => ?_, ?_⟩⟩
  · refine ⟨?_, h4.vals n _ h⟩
    rw [← hk]
    refine Classical.byContradiction fun hn => ?_
    rw [(mapGet_none_iff n m2).2 hn] at h
    cases h
  · rintro ⟨hf, ha, hb⟩
    cases hm : mapGet n m2 with
    | none => exact absurd hf ((h4.keys n).1 hm)
    | some p =>
      obtain ⟨h5, h6⟩ := h4.vals n p hm
      rw [shows_unique _ _ _ _ ha h5, shows_unique _ _ _ _ hb h6]

/-- **C27.** If the names in a list are distinct, the license shown for a file is its own. -/
theorem C27_distinct (files : List FileV) (h : (files.map (·.name)).Nodup) (f : FileV) (hf : f ∈ files) :
    Shows files f.name f.licenseConcluded := by
  obtain ⟨b, a, rfl⟩ := List.append_of_mem hf
  refine .inl ⟨b, f, a, rfl, rfl, rfl, ?_⟩
  rintro ⟨g, hg, e⟩
  simp only [List.map_append, List.map_cons, List.nodup_append, List.nodup_cons] at h
  exact h.2.1.1 (List.mem_map.2 ⟨g, hg, e⟩)

def C27_file (name lic : Str) : FileV := { name := name, licenseConcluded := lic }
def C27_files1 : List FileV := [C27_file g!"a" g!"MIT", C27_file g!"b" g!"MIT", C27_file g!"c" g!"MIT"]
def C27_files2 : List FileV := [C27_file g!"b" g!"MIT", C27_file g!"c" g!"BSD", C27_file g!"d" g!"BSD"]

example : makePairs (C27_files1.map some) (C27_files2.map some) =
    .ok [(g!"a", ⟨g!"MIT", []⟩), (g!"b", ⟨g!"MIT", g!"MIT"⟩), (g!"c", ⟨g!"MIT", g!"BSD"⟩), (g!"d", ⟨[], g!"BSD"⟩)] ∧
    (C27_files1.map (·.name)).Nodup := by decide +kernel

/-- Of several files of the same name in one package only the last is compared. -/
theorem C27_same_name_false :
    makePairs [some (C27_file g!"a" g!"MIT"), some (C27_file g!"a" g!"BSD")] [] = .ok [(g!"a", ⟨g!"BSD", []⟩)] := by
  decide +kernel

/-! ## C28 -/

/-- What the four groups hold after some entries. -/
structure Grouped (done : List (Str × LicensePair)) (d : LicenseDiff) : Prop where
  same : ∀ n l, mapGet n d.inBothSame = some l ↔ (n, ⟨l, l⟩) ∈ done
  changed : ∀ n p, mapGet n d.inBothChanged = some p ↔ (n, p) ∈ done ∧ p.first ≠ p.second ∧ p.first ≠ [] ∧ p.second ≠ []
  first : ∀ n l, mapGet n d.inFirstOnly = some l ↔ (n, ⟨l, []⟩) ∈ done ∧ l ≠ []
  second : ∀ n l, mapGet n d.inSecondOnly = some l ↔ (n, ⟨[], l⟩) ∈ done ∧ l ≠ []
  nodup : (d.inBothSame.map (·.1)).Nodup ∧ (d.inBothChanged.map (·.1)).Nodup ∧ (d.inFirstOnly.map (·.1)).Nodup ∧
    (d.inSecondOnly.map (·.1)).Nodup

theorem addResult_grouped {done : List (Str × LicensePair)} {d : LicenseDiff} (h : Grouped done d) (n : Str) (p : LicensePair)
    (hn : n ∉ done.map (·.1)) : Grouped (done ++ [(n, p)]) (addResult d n p) := by
  have hnot : ∀ q, (n, q) ∉ done := fun q hq => hn (List.mem_map.2 ⟨_, hq, rfl⟩)
  obtain ⟨a, b⟩ := p
  unfold addResult
  by_cases h1 : a = b
  · subst h1
    simp only [if_true]
    refine ⟨fun n' l => ?_, fun n' q => ?_, fun n' l => ?_, fun n' l => ?_, mapInsert_nodup _ _ _ h.nodup.1, h.nodup.2⟩
    · simp only [mapGet_mapInsert, List.mem_append, List.mem_singleton, Prod.mk.injEq, LicensePair.mk.injEq]
      by_cases e : n = n'
      · subst e; simp [hnot]; exact eq_comm
      · simp [e, Ne.symm e, h.same]
    · rw [h.changed]
      simp only [List.mem_append, List.mem_singleton, Prod.mk.injEq]
      constructor
      · rintro ⟨h2, h3⟩; exact ⟨.inl h2, h3⟩
      · rintro ⟨h2 | ⟨rfl, rfl⟩, h3⟩
        · exact ⟨h2, h3⟩
        · exact absurd rfl h3.1
    · rw [h.first]
      simp only [List.mem_append, List.mem_singleton, Prod.mk.injEq, LicensePair.mk.injEq]
      constructor
      · rintro ⟨h2, h3⟩; exact ⟨.inl h2, h3⟩
      · rintro ⟨h2 | ⟨rfl, rfl, rfl⟩, h3⟩
        · exact ⟨h2, h3⟩
        · exact absurd rfl h3
    · rw [h.second]
      simp only [List.mem_append, List.mem_singleton, Prod.mk.injEq, LicensePair.mk.injEq]
      constructor
      · rintro ⟨h2, h3⟩; exact ⟨.inl h2, h3⟩
      · rintro ⟨h2 | ⟨rfl, rfl, rfl⟩, h3⟩
        · exact ⟨h2, h3⟩
        · exact absurd rfl h3
  · simp only [if_neg h1]
    have hsame : ∀ n' l, mapGet n' d.inBothSame = some l ↔ (n', (⟨l, l⟩ : LicensePair)) ∈ done ++ [(n, ⟨a, b⟩)] := fun n' l => by
      rw [h.same]
      simp only [List.mem_append, List.mem_singleton, Prod.mk.injEq, LicensePair.mk.injEq]
      constructor
      · exact .inl
      · rintro (h2 | ⟨rfl, rfl, rfl⟩)
        · exact h2
        · exact absurd rfl h1
    by_cases h2 : a = []
    · subst h2
      simp only [if_true]
      refine ⟨hsame, fun n' q => ?_, fun n' l => ?_, fun n' l => ?_, h.nodup.1, h.nodup.2.1, h.nodup.2.2.1,
        mapInsert_nodup _ _ _ h.nodup.2.2.2⟩
      · rw [h.changed]
        simp only [List.mem_append, List.mem_singleton, Prod.mk.injEq]
        constructor
        · rintro ⟨h2, h3⟩; exact ⟨.inl h2, h3⟩
        · rintro ⟨h2 | ⟨rfl, rfl⟩, h3⟩
          · exact ⟨h2, h3⟩
          · exact absurd rfl h3.2.1
      · rw [h.first]
        simp only [List.mem_append, List.mem_singleton, Prod.mk.injEq, LicensePair.mk.injEq]
        constructor
        · rintro ⟨h2, h3⟩; exact ⟨.inl h2, h3⟩
        · rintro ⟨h2 | ⟨rfl, rfl, rfl⟩, h3⟩
          · exact ⟨h2, h3⟩
          · exact absurd rfl h3
      · simp only [mapGet_mapInsert, List.mem_append, List.mem_singleton, Prod.mk.injEq, LicensePair.mk.injEq]
        by_cases e : n = n'
        · subst e
          simp [hnot]
          constructor
          · rintro rfl; exact ⟨rfl, fun e => h1 e.symm⟩
          · rintro ⟨rfl, -⟩; rfl
        · simp [e, Ne.symm e, h.second]
    · simp only [if_neg h2]
      have hsecond : ∀ n' l, mapGet n' d.inSecondOnly = some l ↔ (n', (⟨[], l⟩ : LicensePair)) ∈ done ++ [(n, ⟨a, b⟩)] ∧ l ≠ [] :=
        fun n' l => by
          rw [h.second]
          simp only [List.mem_append, List.mem_singleton, Prod.mk.injEq, LicensePair.mk.injEq]
          constructor
          · rintro ⟨h2, h3⟩; exact ⟨.inl h2, h3⟩
          · rintro ⟨h3 | ⟨rfl, rfl, rfl⟩, h4⟩
            · exact ⟨h3, h4⟩
            · exact absurd rfl h2
      by_cases h3 : b = []
      · subst h3
        simp only [if_true]
        refine ⟨hsame, fun n' q => ?_, fun n' l => ?_, hsecond, h.nodup.1, h.nodup.2.1,
          mapInsert_nodup _ _ _ h.nodup.2.2.1, h.nodup.2.2.2⟩
        · rw [h.changed]
          simp only [List.mem_append, List.mem_singleton, Prod.mk.injEq]
          constructor
          · rintro ⟨h2, h3⟩; exact ⟨.inl h2, h3⟩
          · rintro ⟨h2 | ⟨rfl, rfl⟩, h3⟩
            · exact ⟨h2, h3⟩
            · exact absurd rfl h3.2.2
        · simp only [mapGet_mapInsert, List.mem_append, List.mem_singleton, Prod.mk.injEq, LicensePair.mk.injEq]
          by_cases e : n = n'
          · subst e
            simp [hnot]
            constructor
            · rintro rfl; exact ⟨rfl, h1⟩
            · rintro ⟨rfl, -⟩; rfl
          · simp [e, Ne.symm e, h.first]
      · simp only [if_neg h3]
        refine ⟨hsame, fun n' q => ?_, fun n' l => ?_, hsecond, h.nodup.1, mapInsert_nodup _ _ _ h.nodup.2.1,
          h.nodup.2.2.1, h.nodup.2.2.2⟩
        · simp only [mapGet_mapInsert, List.mem_append, List.mem_singleton, Prod.mk.injEq]
          by_cases e : n = n'
          · subst e
            simp [hnot]
            constructor
            · rintro rfl; exact ⟨rfl, h1, h2, h3⟩
            · rintro ⟨rfl, -⟩; rfl
          · simp [e, Ne.symm e, h.changed]
        · rw [h.first]
          simp only [List.mem_append, List.mem_singleton, Prod.mk.injEq, LicensePair.mk.injEq]
          constructor
          · rintro ⟨h2, h3⟩; exact ⟨.inl h2, h3⟩
          · rintro ⟨h4 | ⟨rfl, rfl, rfl⟩, h5⟩
            · exact ⟨h4, h5⟩
            · exact absurd rfl h3

theorem makeResults_grouped (pairs : List (Str × LicensePair)) (h : (pairs.map (·.1)).Nodup) :
    Grouped pairs (makeResults pairs) := by
  have key : ∀ (l done : List (Str × LicensePair)) (d : LicenseDiff), ((done ++ l).map (·.1)).Nodup → Grouped done d →
      Grouped (done ++ l) (l.foldl (fun d p => addResult d p.1 p.2) d) := by
    intro l
    induction l with
    | nil => intro done d _ h; simpa using h
    | cons x l ih =>
      intro done d hn h
      have hx : x.1 ∉ done.map (·.1) := by
        intro hx
        simp only [List.map_append, List.map_cons, List.nodup_append] at hn
        exact hn.2.2 _ hx _ (by simp) rfl
      have := ih (done ++ [x]) _ (by simpa using hn) (addResult_grouped h x.1 x.2 hx)
      simpa using this
  have := key pairs [] {} (by simpa using h) ⟨by simp [mapGet], by simp [mapGet], by simp [mapGet], by simp [mapGet], by simp⟩
  simpa [makeResults] using this

/-- **C28.** The groups of a comparison: which file is in which group, with what. -/
theorem C28_groups (pairs : List (Str × LicensePair)) (h : (pairs.map (·.1)).Nodup) (n : Str) :
    (∀ l, mapGet n (makeResults pairs).inBothSame = some l ↔ mapGet n pairs = some ⟨l, l⟩) ∧
    (∀ p, mapGet n (makeResults pairs).inBothChanged = some p ↔
      mapGet n pairs = some p ∧ p.first ≠ p.second ∧ p.first ≠ [] ∧ p.second ≠ []) ∧
    (∀ l, mapGet n (makeResults pairs).inFirstOnly = some l ↔ mapGet n pairs = some ⟨l, []⟩ ∧ l ≠ []) ∧
    (∀ l, mapGet n (makeResults pairs).inSecondOnly = some l ↔ mapGet n pairs = some ⟨[], l⟩ ∧ l ≠ []) := by
  have g := makeResults_grouped pairs h
  simp only [mapGet_eq_some_iff h]
  exact ⟨fun l => g.same n l, fun p => g.changed n p, fun l => g.first n l, fun l => g.second n l⟩

/-- The number of groups that hold a file. -/
def groupsOf (d : LicenseDiff) (n : Str) : Nat :=
  (if n ∈ d.inBothSame.map (·.1) then 1 else 0) + (if n ∈ d.inBothChanged.map (·.1) then 1 else 0) +
  (if n ∈ d.inFirstOnly.map (·.1) then 1 else 0) + (if n ∈ d.inSecondOnly.map (·.1) then 1 else 0)

theorem mem_keys_iff {α : Type} (n : Str) (m : List (Str × α)) : n ∈ m.map (·.1) ↔ ∃ v, mapGet n m = some v := by
  have := mapGet_none_iff n m
  cases h : mapGet n m with
  | none => simpa using this.1 h
  | some v =>
    simp only [Option.some.injEq, exists_eq', iff_true]
    exact Classical.byContradiction fun hn => by simp [this.2 hn] at h

/-- **C28.** Every compared file is in exactly one group, and no other file is in any. -/
theorem C28_exactly_one (pairs : List (Str × LicensePair)) (h : (pairs.map (·.1)).Nodup) (n : Str) :
    groupsOf (makeResults pairs) n = if n ∈ pairs.map (·.1) then 1 else 0 := by
  obtain ⟨h1, h2, h3, h4⟩ := C28_groups pairs h n
  have k1 := (mem_keys_iff n (makeResults pairs).inBothSame).trans (exists_congr h1)
  have k2 := (mem_keys_iff n (makeResults pairs).inBothChanged).trans (exists_congr h2)
  have k3 := (mem_keys_iff n (makeResults pairs).inFirstOnly).trans (exists_congr h3)
  have k4 := (mem_keys_iff n (makeResults pairs).inSecondOnly).trans (exists_congr h4)
  have k0 := mem_keys_iff n pairs
  unfold groupsOf
  cases hm : mapGet n pairs with
  | none =>
    simp only [hm] at k0 k1 k2 k3 k4
    rw [if_neg (by rw [k1]; simp), if_neg (by rw [k2]; simp), if_neg (by rw [k3]; simp), if_neg (by rw [k4]; simp),
      if_neg (by rw [k0]; simp)]
  | some p =>
    obtain ⟨a, b⟩ := p
    simp only [hm, Option.some.injEq, LicensePair.mk.injEq] at k0 k1 k2 k3 k4
    rw [if_pos (k0.2 ⟨_, rfl⟩)]
    by_cases e1 : a = b
    · subst e1
      rw [if_pos (k1.2 ⟨a, rfl, rfl⟩), if_neg (by rw [k2]; rintro ⟨_, rfl, h, -⟩; exact h rfl),
        if_neg (by rw [k3]; rintro ⟨_, ⟨rfl, h⟩, h'⟩; exact h' h),
        if_neg (by rw [k4]; rintro ⟨_, ⟨h, rfl⟩, h'⟩; exact h' h)]
    · rw [if_neg (by rw [k1]; rintro ⟨_, h, h'⟩; exact e1 (h.trans h'.symm))]
      by_cases e2 : a = []
      · rw [if_neg (by rw [k2]; rintro ⟨_, rfl, -, h, -⟩; exact h e2),
          if_neg (by rw [k3]; rintro ⟨_, ⟨rfl, -⟩, h⟩; exact h e2),
          if_pos (k4.2 ⟨b, ⟨e2, rfl⟩, fun h => e1 (e2.trans h.symm)⟩)]
      · rw [if_neg (c := n ∈ (makeResults pairs).inSecondOnly.map (·.1)) (by rw [k4]; rintro ⟨_, ⟨h, -⟩, -⟩; exact e2 h)]
        by_cases e3 : b = []
        · rw [if_neg (by rw [k2]; rintro ⟨_, rfl, -, -, h⟩; exact h e3), if_pos (k3.2 ⟨a, ⟨rfl, e3⟩, e2⟩)]
        · rw [if_pos (k2.2 ⟨_, rfl, e1, e2, e3⟩), if_neg (by rw [k3]; rintro ⟨_, ⟨-, h⟩, -⟩; exact e3 h)]

/-- **C28.** The order in which the entries are visited is irrelevant. -/
theorem C28_order (pairs pairs' : List (Str × LicensePair)) (hp : pairs.Perm pairs') (h : (pairs.map (·.1)).Nodup) (n : Str) :
    mapGet n (makeResults pairs).inBothSame = mapGet n (makeResults pairs').inBothSame ∧
    mapGet n (makeResults pairs).inBothChanged = mapGet n (makeResults pairs').inBothChanged ∧
    mapGet n (makeResults pairs).inFirstOnly = mapGet n (makeResults pairs').inFirstOnly ∧
    mapGet n (makeResults pairs).inSecondOnly = mapGet n (makeResults pairs').inSecondOnly := by
  have h' : (pairs'.map (·.1)).Nodup := (hp.map _).nodup_iff.1 h
  obtain ⟨h1, h2, h3, h4⟩ := C28_groups pairs h n
  obtain ⟨g1, g2, g3, g4⟩ := C28_groups pairs' h' n
  rw [mapGet_perm hp h n] at h1 h2 h3 h4
  exact ⟨Option.ext fun x => (h1 x).trans (g1 x).symm, Option.ext fun x => (h2 x).trans (g2 x).symm,
    Option.ext fun x => (h3 x).trans (g3 x).symm, Option.ext fun x => (h4 x).trans (g4 x).symm⟩

theorem shows_ne_nil {files : List FileV} (h : ∀ f ∈ files, f.licenseConcluded ≠ []) {n l : Str} (hs : Shows files n l) :
    l ≠ [] ↔ HasFile files n := by
  rcases hs with hc | ⟨h1, rfl⟩
  · obtain ⟨b, f, a, rfl, e1, e2, -⟩ := id hc
    exact ⟨fun _ => concludes_has hc, fun _ => by rw [← e2]; exact h f (by simp)⟩
  · simp [h1]

/-- **C28.** If every file has a concluded license, the comparison of two packages says which package a file
is in: the same license in both, different licenses, only in the first, only in the second. -/
theorem C28_presence (files1 files2 : List FileV) (h1 : ∀ f ∈ files1, f.licenseConcluded ≠ [])
    (h2 : ∀ f ∈ files2, f.licenseConcluded ≠ []) (m : List (Str × LicensePair))
    (hm : makePairs (files1.map some) (files2.map some) = .ok m) (n : Str) :
    (∀ l, mapGet n (makeResults m).inBothSame = some l ↔ Concludes files1 n l ∧ Concludes files2 n l) ∧
    (∀ p, mapGet n (makeResults m).inBothChanged = some p ↔
      Concludes files1 n p.first ∧ Concludes files2 n p.second ∧ p.first ≠ p.second) ∧
    (∀ l, mapGet n (makeResults m).inFirstOnly = some l ↔ Concludes files1 n l ∧ ¬ HasFile files2 n) ∧
    (∀ l, mapGet n (makeResults m).inSecondOnly = some l ↔ ¬ HasFile files1 n ∧ Concludes files2 n l) := by
  obtain ⟨m', e, hn, hk, hv⟩ := C27_pairs files1 files2
  rw [hm] at e
  obtain rfl : m = m' := by simpa using e
  obtain ⟨g1, g2, g3, g4⟩ := C28_groups m hn n
  have hc1 : ∀ l, Concludes files1 n l ↔ Shows files1 n l ∧ HasFile files1 n := fun l =>
    ⟨fun h => ⟨.inl h, concludes_has h⟩, fun ⟨hs, hf⟩ => hs.resolve_right fun h => h.1 hf⟩
  have hc2 : ∀ l, Concludes files2 n l ↔ Shows files2 n l ∧ HasFile files2 n := fun l =>
    ⟨fun h => ⟨.inl h, concludes_has h⟩, fun ⟨hs, hf⟩ => hs.resolve_right fun h => h.1 hf⟩
  have hnone : ∀ (files : List FileV), (∀ f ∈ files, f.licenseConcluded ≠ []) → (Shows files n [] ↔ ¬ HasFile files n) := by
    intro files hf
    exact ⟨fun h hh => (shows_ne_nil hf h).2 hh rfl, fun h => .inr ⟨h, rfl⟩⟩
  refine ⟨fun l => ?_, fun p => ?_, fun l => ?_, fun l => ?_⟩
  · rw [g1, hv, hc1, hc2]
    constructor
    · rintro ⟨hf, ha, hb⟩
      have hh : l ≠ [] := hf.elim (fun h => (shows_ne_nil h1 ha).2 h) (fun h => (shows_ne_nil h2 hb).2 h)
      exact ⟨⟨ha, (shows_ne_nil h1 ha).1 hh⟩, hb, (shows_ne_nil h2 hb).1 hh⟩
    · rintro ⟨⟨ha, hf⟩, hb, -⟩
      exact ⟨.inl hf, ha, hb⟩
  · obtain ⟨a, b⟩ := p
    rw [g2, hv, hc1, hc2]
    constructor
    · rintro ⟨⟨-, ha, hb⟩, hne, h3, h4⟩
      exact ⟨⟨ha, (shows_ne_nil h1 ha).1 h3⟩, ⟨hb, (shows_ne_nil h2 hb).1 h4⟩, hne⟩
    · rintro ⟨⟨ha, h3⟩, ⟨hb, h4⟩, hne⟩
      exact ⟨⟨.inl h3, ha, hb⟩, hne, (shows_ne_nil h1 ha).2 h3, (shows_ne_nil h2 hb).2 h4⟩
  · rw [g3, hv, hc1, hnone files2 h2]
    constructor
    · rintro ⟨⟨-, ha, hb⟩, h3⟩
      exact ⟨⟨ha, (shows_ne_nil h1 ha).1 h3⟩, hb⟩
    · rintro ⟨⟨ha, h3⟩, hb⟩
      exact ⟨⟨.inl h3, ha, hb⟩, (shows_ne_nil h1 ha).2 h3⟩
  · rw [g4, hv, hc2, hnone files1 h1]
    constructor
    · rintro ⟨⟨-, ha, hb⟩, h3⟩
      exact ⟨ha, hb, (shows_ne_nil h2 hb).1 h3⟩
    · rintro ⟨ha, hb, h3⟩
      exact ⟨⟨.inr h3, ha, hb⟩, (shows_ne_nil h2 hb).2 h3⟩

example : (∀ f ∈ C27_files1, f.licenseConcluded ≠ []) ∧ (∀ f ∈ C27_files2, f.licenseConcluded ≠ []) ∧
    makeResults [(g!"a", ⟨g!"MIT", []⟩), (g!"b", ⟨g!"MIT", g!"MIT"⟩), (g!"c", ⟨g!"MIT", g!"BSD"⟩), (g!"d", ⟨[], g!"BSD"⟩)] =
      { inBothChanged := [(g!"c", ⟨g!"MIT", g!"BSD"⟩)], inBothSame := [(g!"b", g!"MIT")], inFirstOnly := [(g!"a", g!"MIT")],
        inSecondOnly := [(g!"d", g!"BSD")] } := by decide +kernel

/-- The condition is needed: a file without concluded license that is only in the first package is reported
as the same in both, and a file that is in both but has a license in one only is reported as missing in the
other. -/
theorem C28_empty_license_false :
    (makePairs [some (C27_file g!"a" [])] [] >>= fun m => .ok (makeResults m)) =
      .ok { inBothSame := [(g!"a", [])] } ∧
    (makePairs [some (C27_file g!"a" g!"MIT")] [some (C27_file g!"a" [])] >>= fun m => .ok (makeResults m)) =
      .ok { inFirstOnly := [(g!"a", g!"MIT")] } := by decide +kernel

/-! ## C29 -/

/-- How many files conclude the license. -/
def countOf (files : List FileV) (lic : Str) : Nat := (files.filter fun f => f.licenseConcluded = lic).length

/-- What the loop has counted after some files. -/
structure Counted (done : List FileV) (c : Nat × Nat × List (Str × Nat)) : Prop where
  found : c.1 = (done.filter fun f => decide (Found f)).length
  notFound : c.2.1 = (done.filter fun f => decide (¬ Found f)).length
  nodup : (c.2.2.map (·.1)).Nodup
  get : ∀ lic, mapGet lic c.2.2 =
    if lic ≠ [] ∧ lic ≠ g!"NOASSERTION" ∧ countOf done lic ≠ 0 then some (countOf done lic) else none
  sum : (c.2.2.map (·.2)).sum = c.1

theorem mapInsert_sum (k : Str) (m : List (Str × Nat)) :
    ((mapInsert k ((mapGet k m).getD 0 + 1) m).map (·.2)).sum = (m.map (·.2)).sum + 1 := by
  induction m with
  | nil => simp [mapInsert, mapGet]
  | cons x m ih =>
    obtain ⟨a, b⟩ := x
    simp only [mapInsert, mapGet]
    split
    · simp; omega
    · simp [ih]; omega

theorem countOf_snoc (l : List FileV) (f : FileV) (lic : Str) :
    countOf (l ++ [f]) lic = countOf l lic + if f.licenseConcluded = lic then 1 else 0 := by
  simp only [countOf, List.filter_append, List.length_append]
  congr 1
  split
  · next h => simp [h]
  · next h => simp [h]

theorem countLicense_counted {done : List FileV} {c : Nat × Nat × List (Str × Nat)} (h : Counted done c) (f : FileV) :
    Counted (done ++ [f]) (countLicense c f) := by
  unfold countLicense
  by_cases hf : f.licenseConcluded = [] ∨ f.licenseConcluded = g!"NOASSERTION"
  · rw [if_pos hf]
    have hF : ¬ Found f := fun h => h hf
    refine ⟨by simp [hF, h.found], by simp [hF, h.notFound], h.nodup, fun lic => ?_, h.sum⟩
    rw [h.get, countOf_snoc]
    by_cases e : f.licenseConcluded = lic
    · rw [e] at hf
      rcases hf with rfl | rfl <;> simp
    · simp [e]
  · rw [if_neg hf]
    have hF : Found f := hf
    refine ⟨by simp [hF, h.found], by simp [hF, h.notFound], mapInsert_nodup _ _ _ h.nodup, fun lic => ?_, ?_⟩
    · rw [mapGet_mapInsert, countOf_snoc]
      by_cases e : f.licenseConcluded = lic
      · rw [e] at hf ⊢
        have h1 : lic ≠ [] := fun e => hf (.inl e)
        have h2 : lic ≠ g!"NOASSERTION" := fun e => hf (.inr e)
        rw [if_pos rfl, h.get]
        by_cases h0 : countOf done lic = 0
        · simp [h0, h1, h2]
        · simp [h0, h1, h2]
      · simp only [if_neg e, h.get, Nat.add_zero]
    · rw [mapInsert_sum, h.sum]

theorem countLicenses_counted (fs : List FileV) : ∀ (done : List FileV) (c : Nat × Nat × List (Str × Nat)), Counted done c →
    ∃ c', countLicenses c (fs.map some) = .ok c' ∧ Counted (done ++ fs) c' := by
  induction fs with
  | nil => intro done c h; exact ⟨c, rfl, by simpa using h⟩
  | cons f fs ih =>
    intro done c h
    obtain ⟨c', h1, h2⟩ := ih _ _ (countLicense_counted h f)
    exact ⟨c', by simpa [countLicenses, deref] using h1, by simpa using h2⟩

/-- **C29.** The report: the number of files with and without a license, their sum, which is the number of
files, then one line per concluded license with the number of its files, by decreasing number, then the
number of files with a license again, which is the sum of those numbers. -/
theorem C29_report (so : CountSorter) (files : List FileV) : ∃ (found notFound : Nat) (lines : List (Str × Nat)),
    generate so true (files.map some) = .ok
      (countLine found g!"License found" ++ countLine notFound g!"License not found" ++
        countLine (found + notFound) g!"TOTAL" ++ g!"\n" ++ lines.flatMap (fun l => countLine l.2 l.1) ++
        countLine found g!"TOTAL FOUND") ∧
    found = (files.filter fun f => decide (Found f)).length ∧
    found + notFound = files.length ∧
    (lines.map (·.1)).Nodup ∧
    (∀ lic n, (lic, n) ∈ lines ↔ (∃ f ∈ files, Found f ∧ f.licenseConcluded = lic) ∧
      n = (files.filter fun f => f.licenseConcluded = lic).length) ∧
    (lines.map (·.2)).sum = found ∧
    lines.Pairwise (fun a b => a.2 ≥ b.2) := by
  obtain ⟨c, h1, h2⟩ := countLicenses_counted files [] (0, 0, [])
    ⟨rfl, rfl, by simp, by simp [mapGet, countOf], rfl⟩
  simp only [List.nil_append] at h2
  obtain ⟨found, notFound, counts⟩ := c
  have hperm := so.perm counts
  refine ⟨found, notFound, so.run counts, ?_, h2.found, ?_, ?_, ?_, ?_, so.sorted counts⟩
  · simp [generate, h1]
  · have e1 := h2.found
    have e2 := h2.notFound
    simp only at e1 e2
    rw [e1, e2]
    have := (List.filter_append_perm (fun f => decide (Found f)) files).length_eq
    rw [List.length_append] at this
    have e3 : (files.filter fun f => decide (¬ Found f)) = files.filter fun f => !decide (Found f) := by
      congr 1; funext f; simp
    rw [e3]
    exact this
  · exact (hperm.map _).nodup_iff.2 h2.nodup
  · intro lic n
    rw [hperm.mem_iff, ← mapGet_eq_some_iff h2.nodup, h2.get]
    have hc : countOf files lic ≠ 0 ↔ ∃ f ∈ files, f.licenseConcluded = lic := by
      rw [countOf, ne_eq, List.length_eq_zero_iff, List.filter_eq_nil_iff]
      simp
    constructor
    · intro h
      split at h
      · next hh =>
        obtain ⟨h3, h4, h5⟩ := hh
        obtain ⟨f, hf, e⟩ := hc.1 h5
        refine ⟨⟨f, hf, ?_, e⟩, by simpa [countOf] using h.symm⟩
        rw [Found, e]
        rintro (h | h)
        · exact h3 h
        · exact h4 h
      · cases h
    · rintro ⟨⟨f, hf, hF, rfl⟩, rfl⟩
      rw [if_pos]
      · rfl
      · exact ⟨fun e => hF (.inl e), fun e => hF (.inr e), hc.2 ⟨f, hf, rfl⟩⟩
  · exact (hperm.map _).sum_nat.trans h2.sum

/-- **C29.** No report is made of a package whose files were not analyzed. -/
theorem C29_not_analyzed (so : CountSorter) (files : List (Option FileV)) : generate so false files = .err := rfl

/-- Insertion by decreasing number. -/
def insertCount (x : Str × Nat) : List (Str × Nat) → List (Str × Nat)
  | [] => [x]
  | y :: l => if x.2 ≥ y.2 then x :: y :: l else y :: insertCount x l

theorem insertCount_perm (x : Str × Nat) (l : List (Str × Nat)) : (insertCount x l).Perm (x :: l) := by
  induction l with
  | nil => exact .refl _
  | cons y l ih =>
    simp only [insertCount]
    split
    · exact .refl _
    · exact (ih.cons y).trans (.swap x y l)

theorem insertCount_sorted (x : Str × Nat) (l : List (Str × Nat)) (h : l.Pairwise fun a b => a.2 ≥ b.2) :
    (insertCount x l).Pairwise fun a b => a.2 ≥ b.2 := by
  induction l with
  | nil => simp [insertCount]
  | cons y l ih =>
    obtain ⟨h1, h2⟩ := List.pairwise_cons.1 h
    simp only [insertCount]
    split
    · next hx =>
      refine List.pairwise_cons.2 ⟨fun b hb => ?_, h⟩
      rcases List.mem_cons.1 hb with rfl | hb
      · exact hx
      · exact Nat.le_trans (h1 b hb) hx
    · next hx =>
      refine List.pairwise_cons.2 ⟨fun b hb => ?_, ih h2⟩
      rcases List.mem_cons.1 ((insertCount_perm x l).mem_iff.1 hb) with rfl | hb
      · omega
      · exact h1 b hb

/-- One sorting function; another is obtained by visiting the map in the other direction. -/
def countSorter : CountSorter where
  run l := l.foldr insertCount []
  perm l := by
    induction l with
    | nil => exact .refl _
    | cons x l ih => exact (insertCount_perm x _).trans (ih.cons x)
  sorted l := by
    induction l with
    | nil => exact .nil
    | cons x l ih => exact insertCount_sorted x _ ih

/-- Visits the map in the other direction. -/
def countSorter' : CountSorter where
  run l := countSorter.run l.reverse
  perm l := (countSorter.perm _).trans l.reverse_perm
  sorted _ := countSorter.sorted _

example : generate countSorter true ([C27_file g!"a" g!"MIT", C27_file g!"b" g!"BSD", C27_file g!"c" g!"BSD",
    C27_file g!"d" [], C27_file g!"e" g!"NOASSERTION"].map some) =
    .ok g!"3\t  License found\n2\t  License not found\n5\t  TOTAL\n\n2\t  BSD\n1\t  MIT\n3\t  TOTAL FOUND\n" := by
  decide +kernel

/-- The report is not a function of the package: licenses with the same number of files may come in either
order. -/
theorem C29_ties_false :
    generate countSorter true (C27_files2.map some) = .ok
      g!"3\t  License found\n0\t  License not found\n3\t  TOTAL\n\n2\t  BSD\n1\t  MIT\n3\t  TOTAL FOUND\n" ∧
    generate countSorter true ([C27_file g!"a" g!"MIT", C27_file g!"b" g!"BSD"].map some) ≠
    generate countSorter' true ([C27_file g!"a" g!"MIT", C27_file g!"b" g!"BSD"].map some) := by
  decide +kernel

end Verif
