import Verif.Spec.Built
import Verif.Props.C33_C34_Builder
import Verif.Props.C45_IdsDocument

/-!
# C74: what a built document says, and how two of them compare
-/

namespace Verif
open Spec

/-- What the builder has to note of a file. -/
abbrev Noted := List Str × Str × Str × Str

theorem pathLt_asymm : ∀ {a b : List Str}, PathLt a b → ¬ PathLt b a
  | _, _, .shorter, h => by cases h
  | _, _, .head h1, h => by
    cases h with
    | head h2 =>
      simp only [strLt, Bool.and_eq_true, Bool.not_eq_true', beq_eq_false_iff_ne] at h1 h2
      exact h1.2 (strLe_antisymm h1.1 h2.1)
    | tail => simp [strLt] at h1
  | _, _, .tail h1, h => by
    cases h with
    | head h2 => simp [strLt] at h2
    | tail h2 => exact pathLt_asymm h1 h2

/-- Lists in order of path with the same members are equal. -/
theorem noted_unique {l m : List Noted} (hl : l.Pairwise fun a b => PathLt a.1 b.1)
    (hm : m.Pairwise fun a b => PathLt a.1 b.1) (h : ∀ e, e ∈ l ↔ e ∈ m) : l = m := by
  induction l generalizing m with
  | nil =>
    cases m with
    | nil => rfl
    | cons b m => exact absurd ((h b).2 (by simp)) (by simp)
  | cons a l ih =>
    cases m with
    | nil => exact absurd ((h a).1 (by simp)) (by simp)
    | cons b m =>
      obtain ⟨hl1, hl2⟩ := List.pairwise_cons.1 hl
      obtain ⟨hm1, hm2⟩ := List.pairwise_cons.1 hm
      have hab : a = b := by
        rcases List.mem_cons.1 ((h a).1 (by simp)) with h1 | h1
        · exact h1
        · rcases List.mem_cons.1 ((h b).2 (by simp)) with h2 | h2
          · exact h2.symm
          · exact absurd (hl1 b h2) (pathLt_asymm (hm1 a h1))
      subst hab
      rw [ih hl2 hm2 fun e => ?_]
      have h0 := h e
      simp only [List.mem_cons] at h0
      constructor
      · intro he
        rcases h0.1 (.inr he) with rfl | h1
        · exact absurd (hl1 _ he) (pathLt_irrefl _)
        · exact h1
      · intro he
        rcases h0.2 (.inr he) with rfl | h1
        · exact absurd (hm1 _ he) (pathLt_irrefl _)
        · exact h1

theorem inventory_unique {d d' : Disk} {ps ps' : List Str} {l m : List Noted} (hl : Inventory d ps l) (hm : Inventory d' ps' m)
    (h : ∀ p x, HoldsFile d ps p x ↔ HoldsFile d' ps' p x) : l = m :=
  noted_unique hl.1 hm.1 fun ⟨p, x⟩ => by rw [hl.2, hm.2, h]

theorem buildFiles_noted (d : Disk) (found : List Noted) : ∀ (n : Nat),
    (∀ e ∈ found, d.hashes (g!"." ++ pathText e.1) = some e.2) →
    buildFiles d n (found.map fun e => pathText e.1) = .ok (builtEntries n found) := by
  induction found with
  | nil => intro n _; rfl
  | cons e l ih =>
    intro n h
    obtain ⟨p, x⟩ := e
    have hp : d.hashes (g!"." ++ pathText p) = some x := h (p, x) (by simp)
    have ih := ih (n + 1) fun e he => h e (by simp [he])
    simp only [List.map_cons, buildFiles, buildFile, hp, Res.ofOption_some, Res.bind_ok, Res.pure_eq, ih, builtEntries]
    rfl

theorem digests_noted (found : List Noted) : ∀ n, digests [] (builtEntries n found) = found.map (·.2.1) := by
  induction found with
  | nil => intro n; rfl
  | cons e l ih =>
    intro n
    obtain ⟨p, x⟩ := e
    rw [builtEntries, digests_cons, ih]
    simp [digests, builtEntry]

/-- What is there can be noted down. -/
theorem inventory_exists {d : Disk} {patterns : List Str} (hd : IsDirectory d) (hr : AllReadable d patterns) (so : Sorter) :
    ∃ found, Inventory d patterns found ∧ getAllFilePaths so d.absRoot d.tree patterns = .ok (found.map fun e => pathText e.1) ∧
      ∀ e ∈ found, d.hashes (g!"." ++ pathText e.1) = some e.2 := by
  obtain ⟨es, he⟩ := hd.dir
  have hg := hd.good
  have hu := hr.1
  rw [he] at hg hu
  obtain ⟨paths, h1, h2, h3⟩ := C23_listing so d.absRoot es patterns hd.clean hg hu
  rw [← he] at h1 h2
  have hh : ∀ p ∈ paths, ∃ x, d.hashes (g!"." ++ pathText p) = some x := fun p hp =>
    Option.ne_none_iff_exists'.1 (hr.2 p ((h2 p).1 hp))
  have hx : ∀ p ∈ paths, d.hashes (g!"." ++ pathText p) = some ((d.hashes (g!"." ++ pathText p)).getD ([], [], [])) := by
    intro p hp
    obtain ⟨x, hx⟩ := hh p hp
    rw [hx]; rfl
  refine ⟨paths.map fun p => (p, (d.hashes (g!"." ++ pathText p)).getD ([], [], [])), ⟨?_, ?_⟩, ?_, ?_⟩
  · rw [List.pairwise_map]; exact h3
  · intro p x
    rw [List.mem_map]
    constructor
    · rintro ⟨q, hq, e⟩
      cases e
      exact ⟨(h2 _).1 hq, hx _ hq⟩
    · rintro ⟨hc, hp⟩
      exact ⟨p, (h2 p).2 hc, by rw [hp]; rfl⟩
  · rw [h1, List.map_map]; rfl
  · intro e he
    obtain ⟨p, hp, rfl⟩ := List.mem_map.1 he
    exact hx p hp

/-- **C74.** The document built from a directory lists the files that are not ignored with their digests, and is
determined by them in every field. -/
theorem C74_document (so : Sorter) (sha1 : Str → Str) (d : Disk) (hd : IsDirectory d) (now name : Str) (config : BuildConfig)
    (hr : AllReadable d config.pathsIgnored) :
    ∃ found code, Inventory d config.pathsIgnored found ∧ CodeOf sha1 found code ∧
      build so sha1 d now name config = .ok (wholeDocument found code now name config) := by
  obtain ⟨found, h1, h2, h3⟩ := inventory_exists hd hr so
  have h4 := buildFiles_noted d found 0 h3
  obtain ⟨sorted, h5, h6, h7⟩ := C21_formula so sha1 (builtEntries 0 found) []
  rw [digests_noted] at h5
  refine ⟨found, sha1 sorted.flatten, h1, ⟨sorted, h6, h5, rfl⟩, ?_⟩
  simp only [build, buildPackage, h2, h4, h7, Res.bind_ok, Res.pure_eq]
  congr 1
  simp [wholeDocument, sprintCode, buildCreationInfo, buildRelationship, refDocument, join]

/-- **C74.** There is an error exactly if something is in the way. -/
theorem C74_error (so : Sorter) (sha1 : Str → Str) (d : Disk) (hd : IsDirectory d) (now name : Str) (config : BuildConfig) :
    build so sha1 d now name config = .err ↔ ¬ AllReadable d config.pathsIgnored := by
  obtain ⟨es, he⟩ := hd.dir
  rw [(C34_error so sha1 d now name config).1,
    (C33_error so sha1 d name config.pathsIgnored es he hd.clean hd.good).1]
  constructor
  · rintro (h | ⟨p, h1, h2, h3⟩) hr
    · exact hr.1 h
    · exact hr.2 p ⟨h1, h2⟩ h3
  · intro h
    apply Classical.byContradiction
    intro hn
    refine h ⟨fun hu => hn (.inl hu), fun p hc hp => hn (.inr ⟨p, hc.1, hc.2, hp⟩)⟩

theorem codeOf_unique {sha1 : Str → Str} {l m : List Noted} {a b : Str} (hp : (l.map (·.2.1)).Perm (m.map (·.2.1)))
    (ha : CodeOf sha1 l a) (hb : CodeOf sha1 m b) : a = b := by
  obtain ⟨s, h1, h2, rfl⟩ := ha
  obtain ⟨t, h3, h4, rfl⟩ := hb
  have : s = t := (h2.trans (hp.trans h4.symm)).eq_of_pairwise (fun _ _ _ _ h1 h2 => strLe_antisymm h1 h2) h1 h3
  rw [this]

/-- **C74.** Where the directory is, in which order its entries are listed, what else is in it and how it is ignored does
not matter: directories that hold the same give the same document, or both an error. -/
theorem C74_same (so so' : Sorter) (sha1 : Str → Str) (d d' : Disk) (hd : IsDirectory d) (hd' : IsDirectory d') (now name : Str)
    (config : BuildConfig) (patterns : List Str)
    (hr : AllReadable d config.pathsIgnored ↔ AllReadable d' patterns)
    (h : ∀ p x, HoldsFile d config.pathsIgnored p x ↔ HoldsFile d' patterns p x) :
    build so sha1 d now name config = build so' sha1 d' now name { config with pathsIgnored := patterns } := by
  by_cases hr1 : AllReadable d config.pathsIgnored
  · obtain ⟨l, a, h1, h2, h3⟩ := C74_document so sha1 d hd now name config hr1
    obtain ⟨m, b, h4, h5, h6⟩ := C74_document so' sha1 d' hd' now name { config with pathsIgnored := patterns } (hr.1 hr1)
    have e := inventory_unique h1 h4 h
    subst e
    rw [h3, h6, codeOf_unique (.refl _) h2 h5]
    rfl
  · rw [(C74_error so sha1 d hd now name config).2 hr1,
      (C74_error so' sha1 d' hd' now name { config with pathsIgnored := patterns }).2 fun h => hr1 (hr.2 h)]

theorem builtEntries_change (p : List Str) (x : Str × Str × Str) (hs : ∀ n ∈ p, '/' ∉ n) (l : List Noted)
    (hl : ∀ e ∈ l, ∀ n ∈ e.1, '/' ∉ n) : ∀ n,
    builtEntries n (l.map fun e => if e.1 = p then (p, x) else e) =
      (builtEntries n l).map fun f => if f.name = g!"." ++ pathText p then
        { f with checksums := [⟨g!"SHA1", x.1⟩, ⟨g!"SHA256", x.2.1⟩, ⟨g!"MD5", x.2.2⟩] } else f := by
  induction l with
  | nil => intro n; rfl
  | cons e l ih =>
    intro n
    obtain ⟨q, y⟩ := e
    have ih := ih (fun e he => hl e (by simp [he])) (n + 1)
    by_cases hq : q = p
    · subst hq
      simp only [List.map_cons, if_true, builtEntries, ih]
      rw [if_pos (show (builtEntry n q y).name = g!"." ++ pathText q from rfl)]
      rfl
    · have hne : g!"." ++ pathText q ≠ g!"." ++ pathText p := by
        intro e
        have e2 := congrArg (splitChar '/') (List.append_cancel_left e)
        rw [splitChar_pathText (hl (q, y) (by simp)), splitChar_pathText hs] at e2
        simp at e2
        exact hq e2
      simp only [List.map_cons, if_neg hq, builtEntries, ih]
      rw [if_neg (show ¬ (builtEntry n q y).name = _ from hne)]

/-- **C74.** If the contents of one file change, then in the document the checksums of this file, the verification code and
the namespace change, and nothing else. -/
theorem C74_change (so so' : Sorter) (sha1 : Str → Str) (d d' : Disk) (hd : IsDirectory d) (hd' : IsDirectory d') (now name : Str)
    (config : BuildConfig) (hr : AllReadable d config.pathsIgnored) (hr' : AllReadable d' config.pathsIgnored)
    (p : List Str) (x y : Str × Str × Str) (hx : HoldsFile d config.pathsIgnored p x) (hy : HoldsFile d' config.pathsIgnored p y)
    (h : ∀ q z, q ≠ p → (HoldsFile d config.pathsIgnored q z ↔ HoldsFile d' config.pathsIgnored q z)) :
    ∃ doc pkg code, build so sha1 d now name config = .ok doc ∧ doc.packages = [pkg] ∧
      build so' sha1 d' now name config = .ok { doc with
        namespace_ := config.namespacePrefix ++ name ++ g!"-{" ++ code ++ g!" []}"
        packages := [{ pkg with
          verificationCode := some { value := code, excludedFiles := [] }
          files := pkg.files.map fun f => if f.name = g!"." ++ pathText p then
            { f with checksums := [⟨g!"SHA1", y.1⟩, ⟨g!"SHA256", y.2.1⟩, ⟨g!"MD5", y.2.2⟩] } else f }] } := by
  obtain ⟨l, a, h1, h2, h3⟩ := C74_document so sha1 d hd now name config hr
  obtain ⟨m, b, h4, h5, h6⟩ := C74_document so' sha1 d' hd' now name config hr'
  have hf : ∀ q z z', HoldsFile d config.pathsIgnored q z → HoldsFile d config.pathsIgnored q z' → z = z' := by
    intro q z z' h1 h2
    have := h1.2.symm.trans h2.2
    simpa using this
  have hf' : ∀ q z z', HoldsFile d' config.pathsIgnored q z → HoldsFile d' config.pathsIgnored q z' → z = z' := by
    intro q z z' h1 h2
    have := h1.2.symm.trans h2.2
    simpa using this
  have e : m = l.map fun e => if e.1 = p then (p, y) else e := by
    refine noted_unique h4.1 ?_ ?_
    · rw [List.pairwise_map]
      refine h1.1.imp ?_
      intro u v huv
      have e1 : ∀ w : Noted, (if w.1 = p then (p, y) else w).1 = w.1 := by
        intro w
        split
        · rename_i h; exact h.symm
        · rfl
      rw [e1, e1]
      exact huv
    · rintro ⟨q, z⟩
      rw [h4.2, List.mem_map]
      by_cases hq : q = p
      · subst hq
        constructor
        · intro hz
          refine ⟨(q, x), (h1.2 _ _).2 hx, ?_⟩
          rw [if_pos rfl, hf' q z y hz hy]
        · rintro ⟨⟨q', z'⟩, hm, e⟩
          split at e
          · cases e; exact hy
          · rename_i hne
            cases e
            exact absurd rfl hne
      · rw [← h q z hq, ← h1.2]
        constructor
        · intro hm
          exact ⟨_, hm, by rw [if_neg hq]⟩
        · rintro ⟨⟨q', z'⟩, hm, e⟩
          split at e
          · cases e; exact absurd rfl hq
          · cases e; exact hm
  have hs : ∀ e ∈ l, ∀ n ∈ e.1, '/' ∉ n := fun e he n hn =>
    (fileAt_names _ e.1 hd.good ((h1.2 e.1 e.2).1 he).1.1 n hn).2
  have hsp : ∀ n ∈ p, '/' ∉ n := hs _ ((h1.2 p x).2 hx)
  refine ⟨_, _, b, h3, rfl, ?_⟩
  rw [h6, e]
  simp only [wholeDocument, builtEntries_change p y hsp l hs 0]

/-- The entries for a list in two parts. -/
theorem builtEntries_append (l m : List Noted) : ∀ n, builtEntries n (l ++ m) = builtEntries n l ++ builtEntries (n + l.length) m := by
  induction l with
  | nil => intro n; simp [builtEntries]
  | cons e l ih =>
    intro n
    obtain ⟨p, x⟩ := e
    simp only [List.cons_append, builtEntries, ih, List.length_cons]
    rw [Nat.add_right_comm, ← Nat.add_assoc]

/-- **C74.** If a file is added, then its entry is inserted at the place of its path.  The files before it keep their
entries; the files after it get the next number each. -/
theorem C74_add (so so' : Sorter) (sha1 : Str → Str) (d d' : Disk) (hd : IsDirectory d) (hd' : IsDirectory d') (now name : Str)
    (config : BuildConfig) (hr : AllReadable d config.pathsIgnored) (hr' : AllReadable d' config.pathsIgnored)
    (p : List Str) (x : Str × Str × Str) (hx : HoldsFile d' config.pathsIgnored p x) (hn : ¬ Chosen d config.pathsIgnored p)
    (h : ∀ q z, q ≠ p → (HoldsFile d config.pathsIgnored q z ↔ HoldsFile d' config.pathsIgnored q z)) :
    ∃ doc pkg code before after, build so sha1 d now name config = .ok doc ∧ doc.packages = [pkg] ∧
      pkg.files = builtEntries 0 before ++ builtEntries before.length after ∧
      (∀ e ∈ before, PathLt e.1 p) ∧ (∀ e ∈ after, PathLt p e.1) ∧
      build so' sha1 d' now name config = .ok { doc with
        namespace_ := config.namespacePrefix ++ name ++ g!"-{" ++ code ++ g!" []}"
        packages := [{ pkg with
          verificationCode := some { value := code, excludedFiles := [] }
          files := builtEntries 0 before ++ builtEntry before.length p x :: builtEntries (before.length + 1) after }] } := by
  obtain ⟨l, a, h1, h2, h3⟩ := C74_document so sha1 d hd now name config hr
  obtain ⟨m, b, h4, h5, h6⟩ := C74_document so' sha1 d' hd' now name config hr'
  obtain ⟨before, after, rfl⟩ := List.append_of_mem ((h4.2 p x).2 hx)
  obtain ⟨h7, h8, h9⟩ := List.pairwise_append.1 h4.1
  obtain ⟨h10, h11⟩ := List.pairwise_cons.1 h8
  have hb : ∀ e ∈ before, PathLt e.1 p := fun e he => h9 e he (p, x) (by simp)
  have e : l = before ++ after := by
    refine noted_unique h1.1 (List.pairwise_append.2 ⟨h7, h11, fun u hu v hv => h9 u hu v (by simp [hv])⟩) ?_
    rintro ⟨q, z⟩
    rw [h1.2]
    by_cases hq : q = p
    · subst hq
      constructor
      · intro hz; exact absurd hz.1 hn
      · intro hm
        rcases List.mem_append.1 hm with hm | hm
        · exact absurd (hb _ hm) (pathLt_irrefl _)
        · exact absurd (h10 _ hm) (pathLt_irrefl _)
    · rw [h q z hq, ← h4.2]
      simp [hq]
  subst e
  refine ⟨_, _, b, before, after, h3, rfl, ?_, hb, h10, ?_⟩
  · rw [builtEntries_append, Nat.zero_add]
  · rw [h6]
    simp only [wholeDocument, builtEntries_append, builtEntries, Nat.zero_add]

/-- **C74.** The namespaces of two builds under one name are equal exactly if the directories hold files with the same
SHA-1 digests, each as often, provided that no collision of SHA-1 is met. -/
theorem C74_namespace (so so' : Sorter) (sha1 : Str → Str) (d d' : Disk) (hd : IsDirectory d) (hd' : IsDirectory d')
    (now now' name : Str) (config : BuildConfig) (hr : AllReadable d config.pathsIgnored) (hr' : AllReadable d' config.pathsIgnored)
    (n : Nat) (hn : 0 < n) (found found' : List Noted)
    (hf : Inventory d config.pathsIgnored found) (hf' : Inventory d' config.pathsIgnored found')
    (hl : ∀ e ∈ found ++ found', e.2.1.length = n)
    (noCollision : ∀ s s' : List Str, s.Perm (found.map (·.2.1)) → s'.Perm (found'.map (·.2.1)) →
      sha1 s.flatten = sha1 s'.flatten → s.flatten = s'.flatten) :
    ∃ doc doc', build so sha1 d now name config = .ok doc ∧ build so' sha1 d' now' name config = .ok doc' ∧
      (doc.namespace_ = doc'.namespace_ ↔ (found.map (·.2.1)).Perm (found'.map (·.2.1))) := by
  obtain ⟨l, a, h1, h2, h3⟩ := C74_document so sha1 d hd now name config hr
  obtain ⟨m, b, h4, h5, h6⟩ := C74_document so' sha1 d' hd' now' name config hr'
  obtain rfl := inventory_unique h1 hf fun _ _ => .rfl
  obtain rfl := inventory_unique h4 hf' fun _ _ => .rfl
  refine ⟨_, _, h3, h6, ?_⟩
  constructor
  · intro e
    have e' : a = b := by
      simp only [wholeDocument, List.append_assoc] at e
      have e := List.append_cancel_left (List.append_cancel_left (List.append_cancel_left e))
      exact List.append_cancel_right e
    obtain ⟨s, -, h8, rfl⟩ := h2
    obtain ⟨t, -, h10, rfl⟩ := h5
    have e2 := noCollision s t h8 h10 e'
    have : s = t := flatten_inj hn
      (fun u hu => by
        obtain ⟨e, he, rfl⟩ := List.mem_map.1 (h8.mem_iff.1 hu)
        exact hl e (by simp [he]))
      (fun u hu => by
        obtain ⟨e, he, rfl⟩ := List.mem_map.1 (h10.mem_iff.1 hu)
        exact hl e (by simp [he])) e2
    subst this
    exact h8.symm.trans h10
  · intro hp
    simp only [wholeDocument, codeOf_unique hp h2 h5]

/-- **C74.** The same for documents with the licenses found in the files. -/
theorem C74_licenses_same (so : Sorter) (sha1 : Str → Str) (d d' : Disk) (hd : IsDirectory d) (hd' : IsDirectory d')
    (now name nsPrefix : Str) (patterns searchPatterns : List Str)
    (hr : AllReadable d patterns ↔ AllReadable d' patterns)
    (h : ∀ p x, HoldsFile d patterns p x ↔ HoldsFile d' patterns p x)
    (ht : ∀ p, Chosen d patterns p → d.text (g!"." ++ pathText p) = d'.text (g!"." ++ pathText p)) :
    buildIDsDocument so sha1 d now name nsPrefix patterns searchPatterns =
      buildIDsDocument so sha1 d' now name nsPrefix patterns searchPatterns := by
  have e := C74_same so so sha1 d d' hd hd' now name
    { namespacePrefix := nsPrefix, creatorType := g!"Tool",
      creator := g!"github.com/spdx/tools-golang/idsearcher", pathsIgnored := patterns } patterns hr h
  simp only at e
  unfold buildIDsDocument
  rw [← e]
  by_cases hr1 : AllReadable d patterns
  · obtain ⟨l, a, h1, h2, h3⟩ := C74_document so sha1 d hd now name
      { namespacePrefix := nsPrefix, creatorType := g!"Tool",
        creator := g!"github.com/spdx/tools-golang/idsearcher", pathsIgnored := patterns } hr1
    rw [h3]
    simp only [Res.bind_ok, wholeDocument]
    have key : ∀ (l : List Noted) n m, (∀ e ∈ l, Chosen d patterns e.1) →
        searchFiles so d searchPatterns (builtEntries n l) m = searchFiles so d' searchPatterns (builtEntries n l) m := by
      intro l
      induction l with
      | nil => intro n m _; rfl
      | cons e l ih =>
        intro n m hl
        obtain ⟨p, x⟩ := e
        have ht := ht p (hl (p, x) (by simp))
        have e2 : ∀ k, searchFile so d searchPatterns (builtEntry n p x) k = searchFile so d' searchPatterns (builtEntry n p x) k := by
          intro k
          have ht' : d.text (builtEntry n p x).name = d'.text (builtEntry n p x).name := ht
          unfold searchFile
          simp only [ht']
        simp only [builtEntries, searchFiles, e2, ih _ _ fun e he => hl e (by simp [he])]
    rw [key l 0 [] fun e he => ((h1.2 e.1 e.2).1 he).1]
  · rw [(C74_error so sha1 d hd now name
      { namespacePrefix := nsPrefix, creatorType := g!"Tool",
        creator := g!"github.com/spdx/tools-golang/idsearcher", pathsIgnored := patterns }).2 hr1]
    rfl

/-! ## Concrete cases -/

/-- A directory with one file. -/
def C74_one (name : Str) (h : Str × Str × Str) : Disk where
  absRoot := g!"/r"
  tree := .dir (.cons name .file .nil)
  hashes _ := some h
  text _ := none

theorem C74_one_files (name : Str) (h : Str × Str × Str) (p : List Str) : FileAt (C74_one name h).tree p ↔ p = [name] := by
  constructor
  · intro hf
    cases hf with
    | inside hf =>
      cases hf with
      | head hf => cases hf; rfl
      | tail hf => cases hf
  · rintro rfl; exact .inside (.head .here)

theorem C74_one_directory (name : Str) (h : Str × Str × Str) (hn : IsName name) :
    IsDirectory (C74_one name h) ∧ AllReadable (C74_one name h) [] := by
  refine ⟨⟨⟨_, rfl⟩, .inr ⟨by simp [C74_one], ?_⟩, ?_⟩, ?_, ?_⟩
  · rintro ⟨r, hr⟩
    have := (List.append_inj' (show g!"/" ++ g!"r" = r ++ g!"/" from hr) rfl).2
    simp at this
  · simp [C74_one, GoodTree, GoodEntries, namesIn, hn]
  · simp [C74_one, unreadable, unreadableIn]
  · intro p _ h; cases h

/-- The hypotheses of `C74_change` and of `C74_add` are met: one file changes; a file comes into an empty directory. -/
example (x y : Str × Str × Str) :
    (HoldsFile (C74_one g!"a" x) [] [g!"a"] x ∧ HoldsFile (C74_one g!"a" y) [] [g!"a"] y ∧
      ∀ q z, q ≠ [g!"a"] → (HoldsFile (C74_one g!"a" x) [] q z ↔ HoldsFile (C74_one g!"a" y) [] q z)) ∧
    (¬ Chosen { C74_one g!"a" x with tree := .dir .nil } [] [g!"a"] ∧
      ∀ q z, q ≠ [g!"a"] → (HoldsFile { C74_one g!"a" x with tree := .dir .nil } [] q z ↔ HoldsFile (C74_one g!"a" x) [] q z)) := by
  have hno : ∀ p, ¬ FileAt (.dir .nil) p := by
    intro p h
    cases h with
    | inside h => cases h
  refine ⟨⟨⟨⟨(C74_one_files ..).2 rfl, by simp⟩, rfl⟩, ⟨⟨(C74_one_files ..).2 rfl, by simp⟩, rfl⟩, fun q z hq => ?_⟩,
    fun h => hno _ h.1, fun q z hq => ?_⟩
  · simp [HoldsFile, Chosen, C74_one_files, hq]
  · simp [HoldsFile, Chosen, C74_one_files, hq, hno]

/-- If a file is renamed, the document is another one under the same namespace: the namespace comes from the digests alone,
not from the names. -/
theorem C74_renamed_false :
    (do
      let a ← build insertionSorter id (C74_one g!"a" (g!"0123", [], [])) g!"now" g!"p" { namespacePrefix := g!"https://x/" }
      let b ← build insertionSorter id (C74_one g!"b" (g!"0123", [], [])) g!"now" g!"p" { namespacePrefix := g!"https://x/" }
      .ok (decide (a = b), decide (a.namespace_ = b.namespace_)) : Res (Bool × Bool)) = .ok (false, true) := by
  decide +kernel

end Verif
