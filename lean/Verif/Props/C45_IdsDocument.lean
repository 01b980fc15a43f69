import Verif.Spec.IdsDocument
import Verif.Props.C22_Ignore
import Verif.Props.C30_C32_IdSearcher
import Verif.Props.C33_C34_Builder

/-!
# C45: documents built from short-form identifiers
-/

namespace Verif
open Spec

theorem lists_of {l : List Str} {S : Str → Prop} (h1 : SortedBy id l) (h2 : l.Nodup) (h3 : ∀ x, x ∈ l ↔ S x) :
    Lists l S := by
  refine ⟨?_, h3⟩
  have h2' : l.Pairwise (· ≠ ·) := h2
  refine (h1.and h2').imp ?_
  rintro a b ⟨hl, hn⟩
  simp only [id_eq] at hl
  simp [strLt, hl, hn]

theorem addAll_keys (m : List (Str × Nat)) (elts : List Str) (hm : (m.map (·.1)).Nodup) :
    ((addAll m elts).map (·.1)).Nodup ∧ ∀ x, x ∈ (addAll m elts).map (·.1) ↔ x ∈ m.map (·.1) ∨ x ∈ elts := by
  unfold addAll
  induction elts generalizing m with
  | nil => simp [hm]
  | cons e es ih =>
    obtain ⟨h1, h2⟩ := ih _ (mapInsert_nodup e 1 m hm)
    refine ⟨h1, fun x => ?_⟩
    rw [List.foldl_cons, h2, mapInsert_keys, List.mem_cons]
    constructor
    · rintro ((h | h) | h)
      · exact .inr (.inl h)
      · exact .inl h
      · exact .inr (.inr h)
    · rintro (h | h | h)
      · exact .inl (.inr h)
      · exact .inl (.inl h)
      · exact .inr h

theorem grouped_makeElement (x : Str) : Grouped x (makeElement x) := by
  by_cases h : (∃ a b, x = a ++ g!" AND " ++ b) ∨ ∃ a b, x = a ++ g!" OR " ++ b
  · exact .inl ⟨h, (C31_element x).1 h⟩
  · exact .inr ⟨h, (C31_element x).2 h⟩

/-- The identifiers of a file that is searched. -/
theorem foundIds (so : Sorter) (d : Disk) (patterns : List Str) (name : Str) (hi : shouldIgnore name patterns = false) :
    Lists (idsOrNone (searchFileIDs so (d.text name))) (Tagged d patterns name) := by
  have hn : ¬ ∃ q ∈ patterns, Ignores q name := by rw [← C22_ignored_iff, hi]; simp
  cases ht : d.text name with
  | none =>
    refine lists_of (by simp [searchFileIDs, SortedBy, idsOrNone]) (by simp [searchFileIDs, idsOrNone]) fun x => ?_
    simp [searchFileIDs, Tagged, ht, idsOrNone]
  | some text =>
    obtain ⟨ids, h1, h2, h3, h4⟩ := C32_search so text
    rw [h1]
    show Lists ids _
    refine lists_of h2 h3 fun x => ?_
    rw [h4]
    simp [Tagged, hn, ht, InText]

theorem mem_elements (so : Sorter) (ids : List Str) (n : Str) :
    n ∈ ids.flatMap (getIndividualLicenses so) ↔ ∃ x ∈ ids, Names x n := by
  rw [List.mem_flatMap]
  constructor <;> (rintro ⟨x, hx, h⟩; refine ⟨x, hx, ?_⟩)
  · exact ((C30_individual so x).2 n).1 h
  · exact ((C30_individual so x).2 n).2 h

theorem keys_nil {m : List (Str × Nat)} : m = [] ↔ ∀ x, x ∉ m.map (·.1) := by
  constructor
  · rintro rfl; simp
  · intro h
    cases m with
    | nil => rfl
    | cons a m => exact absurd (by simp) (h a.1)

theorem pointwise_map {α β : Type} {R : α → β → Prop} {f : α → β} (h : ∀ a, R a (f a)) (l : List α) :
    Pointwise R l (l.map f) := by
  induction l with
  | nil => exact .nil
  | cons a l ih => exact .cons (h a) ih

theorem searchFile_spec (so : Sorter) (d : Disk) (patterns : List Str) (f : FileV) (m : List (Str × Nat))
    (hm : (m.map (·.1)).Nodup) :
    FileSearched d patterns f (searchFile so d patterns f m).1 ∧
    ((searchFile so d patterns f m).2.map (·.1)).Nodup ∧
    ∀ n, n ∈ (searchFile so d patterns f m).2.map (·.1) ↔ n ∈ m.map (·.1) ∨ Mentions d patterns f.name n := by
  unfold searchFile
  by_cases hi : shouldIgnore f.name patterns = true
  · have hno : ∀ n, ¬ Mentions d patterns f.name n := by
      rintro n ⟨x, ⟨hx, -⟩, -⟩
      exact hx ((C22_ignored_iff _ _).1 hi)
    simp only [hi, if_true]
    refine ⟨⟨rfl, fun _ => ⟨rfl, rfl⟩, fun ⟨n, hn⟩ => absurd hn (hno n)⟩, hm, fun n => ?_⟩
    simp [hno n]
  · have hi' : shouldIgnore f.name patterns = false := by simpa using hi
    have hids := foundIds so d patterns f.name hi'
    simp only [hi', Bool.false_eq_true, if_false]
    generalize idsOrNone (searchFileIDs so (d.text f.name)) = ids at hids
    obtain ⟨ha1, ha2⟩ := addAll_keys [] (ids.flatMap (getIndividualLicenses so)) (by simp)
    obtain ⟨hb1, hb2⟩ := addAll_keys m (ids.flatMap (getIndividualLicenses so)) hm
    have hmen : ∀ n, n ∈ ids.flatMap (getIndividualLicenses so) ↔ Mentions d patterns f.name n := by
      intro n
      rw [mem_elements]
      constructor
      · rintro ⟨x, hx, h⟩; exact ⟨x, (hids.2 x).1 hx, h⟩
      · rintro ⟨x, hx, h⟩; exact ⟨x, (hids.2 x).2 hx, h⟩
    have hfile : ∀ n, n ∈ (addAll [] (ids.flatMap (getIndividualLicenses so))).map (·.1) ↔ Mentions d patterns f.name n := by
      intro n; rw [ha2, hmen]; simp
    have hpkg : ∀ n, n ∈ (addAll m (ids.flatMap (getIndividualLicenses so))).map (·.1) ↔
        n ∈ m.map (·.1) ∨ Mentions d patterns f.name n := by
      intro n; rw [hb2, hmen]
    by_cases he : addAll [] (ids.flatMap (getIndividualLicenses so)) = []
    · have hno : ∀ n, ¬ Mentions d patterns f.name n := fun n hn =>
        keys_nil.1 he n ((hfile n).2 hn)
      simp only [if_pos he]
      exact ⟨⟨rfl, fun _ => ⟨rfl, rfl⟩, fun ⟨n, hn⟩ => absurd hn (hno n)⟩, hb1, hpkg⟩
    · simp only [if_neg he]
      refine ⟨⟨rfl, fun hn => ?_, fun _ => ⟨?_, ids, hids, ?_⟩⟩, hb1, hpkg⟩
      · exact absurd (keys_nil.2 fun n hk => hn ⟨n, (hfile n).1 hk⟩) he
      · refine lists_of (so.sorted id _) ((so.perm id _).nodup_iff.2 ha1) fun n => ?_
        rw [so.mem, hfile]
      · match ids with
        | [] => exact .inr ⟨by simp, _, pointwise_map grouped_makeElement _, rfl⟩
        | [x] => exact .inl rfl
        | x :: y :: l => exact .inr ⟨by simp, _, pointwise_map grouped_makeElement _, rfl⟩

theorem searchFiles_spec (so : Sorter) (d : Disk) (patterns : List Str) (fs : List FileV) (m : List (Str × Nat))
    (hm : (m.map (·.1)).Nodup) :
    Pointwise (FileSearched d patterns) fs (searchFiles so d patterns fs m).1 ∧
    ((searchFiles so d patterns fs m).2.map (·.1)).Nodup ∧
    ∀ n, n ∈ (searchFiles so d patterns fs m).2.map (·.1) ↔
      n ∈ m.map (·.1) ∨ ∃ f ∈ fs, Mentions d patterns f.name n := by
  induction fs generalizing m with
  | nil => exact ⟨.nil, hm, by simp [searchFiles]⟩
  | cons f fs ih =>
    obtain ⟨h1, h2, h3⟩ := searchFile_spec so d patterns f m hm
    obtain ⟨h4, h5, h6⟩ := ih _ h2
    simp only [searchFiles]
    refine ⟨.cons h1 h4, h5, fun n => ?_⟩
    rw [h6, h3]
    simp [or_assoc]

/-- The document `builder.Build` makes under the configuration the search uses. -/
def plainDocument (so : Sorter) (sha1 : Str → Str) (d : Disk) (now name nsPrefix : Str) (builderPatterns : List Str) : Res Doc :=
  build so sha1 d now name
    { namespacePrefix := nsPrefix, creatorType := g!"Tool",
      creator := g!"github.com/spdx/tools-golang/idsearcher", pathsIgnored := builderPatterns }

/-- **C45.** The document is the one the builder makes, except for licenses: each file lists, sorted and each
once, exactly the licenses its short-form identifiers mention, and its concluded license is its only
identifier or the grouped identifiers with AND in between; without any, both are NOASSERTION; the package
lists the licenses of its files. -/
theorem C45_licenses (so : Sorter) (sha1 : Str → Str) (d : Disk) (now name nsPrefix : Str)
    (builderPatterns patterns : List Str) (doc : Doc)
    (h : buildIDsDocument so sha1 d now name nsPrefix builderPatterns patterns = .ok doc) :
    ∃ built p q, plainDocument so sha1 d now name nsPrefix builderPatterns = .ok built ∧ built.packages = [p] ∧
      doc = { built with packages := [q] } ∧ PackageSearched d patterns p q := by
  unfold buildIDsDocument at h
  cases hb : plainDocument so sha1 d now name nsPrefix builderPatterns with
  | err => unfold plainDocument at hb; rw [hb] at h; cases h
  | panic => unfold plainDocument at hb; rw [hb] at h; cases h
  | ok built =>
    obtain ⟨-, -, p, hp, -⟩ := C34_valid so so sha1 d now name _ built hb
    unfold plainDocument at hb
    rw [hb] at h
    simp only [Res.bind_ok, hp, Res.pure_eq, Res.ok.injEq] at h
    obtain ⟨h1, h2, h3⟩ := searchFiles_spec so d patterns p.files [] (by simp)
    refine ⟨built, p, _, rfl, hp, h.symm, ⟨rfl, h1, fun hn => ?_, fun hs => ?_⟩⟩
    · have : (searchFiles so d patterns p.files []).2 = [] := keys_nil.2 fun n hk => by
        rcases (h3 n).1 hk with hk | ⟨f, hf, hk⟩
        · simp at hk
        · exact hn ⟨f, hf, n, hk⟩
      simp [this]
    · have hne : (searchFiles so d patterns p.files []).2 ≠ [] := fun e => by
        obtain ⟨f, hf, n, hk⟩ := hs
        exact keys_nil.1 e n ((h3 n).2 (.inr ⟨f, hf, hk⟩))
      simp only [hne, if_false]
      refine lists_of (so.sorted id _) ((so.perm id _).nodup_iff.2 h2) fun n => ?_
      rw [so.mem, h3]
      simp

/-- **C45.** It fails exactly if the builder fails. -/
theorem C45_error (so : Sorter) (sha1 : Str → Str) (d : Disk) (now name nsPrefix : Str) (builderPatterns patterns : List Str) :
    (buildIDsDocument so sha1 d now name nsPrefix builderPatterns patterns = .err ↔
      plainDocument so sha1 d now name nsPrefix builderPatterns = .err) ∧
    (buildIDsDocument so sha1 d now name nsPrefix builderPatterns patterns = .panic ↔
      plainDocument so sha1 d now name nsPrefix builderPatterns = .panic) := by
  unfold buildIDsDocument
  cases hb : plainDocument so sha1 d now name nsPrefix builderPatterns with
  | err => unfold plainDocument at hb; rw [hb]; simp
  | panic => unfold plainDocument at hb; rw [hb]; simp
  | ok built =>
    obtain ⟨-, -, p, hp, -⟩ := C34_valid so so sha1 d now name _ built hb
    unfold plainDocument at hb
    rw [hb]
    simp [hp]

/-- **C45.** The result is valid and describes its package. -/
theorem C45_valid (so so' : Sorter) (sha1 : Str → Str) (d : Disk) (now name nsPrefix : Str)
    (builderPatterns patterns : List Str) (doc : Doc)
    (h : buildIDsDocument so sha1 d now name nsPrefix builderPatterns patterns = .ok doc) :
    validateDocument (doc.packages.map some) (doc.files.map some) (doc.relationships.map some) = .ok () ∧
    getDescribedPackageIDs so' (doc.packages.map some) (doc.relationships.map some) = .ok [g!"Package-" ++ name] := by
  obtain ⟨built, p, q, hb, hp, rfl, hs⟩ := C45_licenses so sha1 d now name nsPrefix builderPatterns patterns doc h
  obtain ⟨h1, h2, -⟩ := C34_valid so so' sha1 d now name _ built hb
  have hq : q.spdxId = p.spdxId := by rw [hs.rest]
  rw [hp] at h1 h2
  simp only [validateDocument, List.map_cons, List.map_nil, elementIds, deref, Res.bind_ok, Res.pure_eq] at h1 ⊢
  simp only [getDescribedPackageIDs, List.map_cons, List.map_nil, deref, Res.bind_ok, Res.pure_eq] at h2 ⊢
  rw [hq]
  exact ⟨h1, h2⟩

theorem concluded_reads {ids : List Str} {c : Str} (h : ConcludesAll ids c) {e : Expr} {es : List Expr} {x : Str} {xs : List Str}
    (hx : ids = x :: xs) (h0 : Reads .or x e) (hs : Pointwise (Reads .or) xs es) : Reads .or c (conj e es) := by
  rcases h with h | ⟨-, gs, hg, rfl⟩
  · rw [h] at hx
    obtain ⟨rfl, rfl⟩ := by simpa using hx
    cases hs
    exact h0
  · subst hx
    have : gs = (x :: xs).map makeElement := by
      have key : ∀ {l m : List Str}, Pointwise Grouped l m → m = l.map makeElement := by
        intro l m hl
        induction hl with
        | nil => rfl
        | cons h1 _ ih =>
          rw [List.map_cons, ← ih]
          congr 1
          rcases h1 with ⟨h1, h2⟩ | ⟨h1, h2⟩
          · rw [h2, (C31_element _).1 h1]
          · rw [h2, (C31_element _).2 h1]
      exact key hg
    rw [this]
    exact .or1 (C31_conjunction x e xs es h0 hs)

/-- **C45.** If all identifiers of a file are license expressions, its concluded license reads as the
conjunction of what they mean. -/
theorem C45_meaning (d : Disk) (patterns : List Str) (f g : FileV) (h : FileSearched d patterns f g)
    (hm : ∃ n, Mentions d patterns f.name n) (hall : ∀ x, Tagged d patterns f.name x → ∃ e, Reads .or x e) :
    ∃ x e xs es, Lists (x :: xs) (Tagged d patterns f.name) ∧ Reads .or x e ∧ Pointwise (Reads .or) xs es ∧
      Reads .or g.licenseConcluded (conj e es) := by
  obtain ⟨-, ids, hids, hc⟩ := h.something hm
  obtain ⟨n, x0, hx0, -⟩ := hm
  have hx0 := (hids.2 x0).2 hx0
  cases ids with
  | nil => simp at hx0
  | cons x xs =>
    obtain ⟨e, he⟩ := hall x ((hids.2 x).1 (by simp))
    have : ∃ es, Pointwise (Reads .or) xs es := by
      have hxs : ∀ y ∈ xs, ∃ e, Reads .or y e := fun y hy => hall y ((hids.2 y).1 (by simp [hy]))
      clear hids hc hx0 he
      induction xs with
      | nil => exact ⟨[], .nil⟩
      | cons y ys ih =>
        obtain ⟨e, he⟩ := hxs y (by simp)
        obtain ⟨es, hes⟩ := ih fun z hz => hxs z (by simp [hz])
        exact ⟨e :: es, .cons he hes⟩
    obtain ⟨es, hes⟩ := this
    exact ⟨x, e, xs, es, hids, he, hes, concluded_reads hc rfl he hes⟩

/-! ## Concrete cases -/

/-- A directory with files `a`, `b` and `t/c`. -/
def C45_disk : Disk where
  absRoot := g!"/r"
  tree := .dir (.cons g!"a" .file (.cons g!"b" .file (.cons g!"t" (.dir (.cons g!"c" .file .nil)) .nil)))
  hashes p := some (g!"1" ++ p, g!"2" ++ p, g!"3" ++ p)
  text p :=
    if p = g!"./a" then some g!"// SPDX-License-Identifier: MIT OR BSD-3-Clause\n// SPDX-License-Identifier: Apache-2.0\n"
    else if p = g!"./b" then some g!"no tag"
    else some g!"# SPDX-License-Identifier: GPL-2.0+\n"

/-- The licenses a search finds: those of the package; then for each file its name, its concluded license and
its licenses. -/
def C45_found (d : Disk) (patterns : List Str) : Res (List (List Str)) := do
  let doc ← buildIDsDocument insertionSorter id d [] g!"p" [] [] patterns
  .ok (doc.packages.flatMap fun p => p.licenseInfoFromFiles ::
    p.files.map fun f => f.name :: f.licenseConcluded :: f.licenseInfoInFiles)

theorem C45_sample : C45_found C45_disk [] = .ok
    [[g!"Apache-2.0", g!"BSD-3-Clause", g!"GPL-2.0", g!"MIT"],
     [g!"./a", g!"Apache-2.0 AND (MIT OR BSD-3-Clause)", g!"Apache-2.0", g!"BSD-3-Clause", g!"MIT"],
     [g!"./b", g!"NOASSERTION", g!"NOASSERTION"],
     [g!"./t/c", g!"GPL-2.0+", g!"GPL-2.0"]] := by decide +kernel

/-- The patterns of the search are compared with names that begin with `./`: a pattern from the root, which the
builder honours, has no effect. -/
theorem C45_root_pattern_false : Ignores g!"/t/" g!"/t/c" ∧ C45_found C45_disk [g!"/t/"] = C45_found C45_disk [] ∧
    C45_found C45_disk [g!"**/t/"] ≠ C45_found C45_disk [] :=
  ⟨.below g!"/t/" g!"c" ⟨g!"/t", rfl⟩ (by rintro ⟨d, n, h, -⟩; simp at h), by decide +kernel, by decide +kernel⟩

/-- A tag without identifier gives an empty identifier, and with another one an expression without left
side. -/
theorem C45_empty_identifier_false :
    C45_found { C45_disk with text := fun _ => some g!"// SPDX-License-Identifier:\n// SPDX-License-Identifier: MIT\n" } [g!"**/b", g!"**/c"] =
      .ok [[g!"MIT"], [g!"./a", g!" AND MIT", g!"MIT"], [g!"./b", g!"NOASSERTION", g!"NOASSERTION"],
        [g!"./t/c", g!"NOASSERTION", g!"NOASSERTION"]] := by
  decide +kernel

end Verif
