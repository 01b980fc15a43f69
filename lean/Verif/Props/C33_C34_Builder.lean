import Verif.Model.Builder
import Verif.Props.C21_Verification
import Verif.Props.C23_Listing
import Verif.Props.C24_C26_SpdxLib
import Verif.Lemmas.Composite

/-!
# C33, C34: documents built from a directory
-/

namespace Verif
open Spec

/-- The file that describes path `p` as number `n` with the given digests. -/
def builtFile (n : Nat) (p : List Str) (h : Str × Str × Str) : FileV :=
  { name := g!"." ++ pathText p
    spdxId := g!"File" ++ natDigits n
    checksums := [⟨g!"SHA1", h.1⟩, ⟨g!"SHA256", h.2.1⟩, ⟨g!"MD5", h.2.2⟩]
    licenseConcluded := g!"NOASSERTION"
    licenseInfoInFiles := [g!"NOASSERTION"]
    copyrightText := g!"NOASSERTION" }

theorem buildFiles_ok (d : Disk) (paths : List (List Str)) : ∀ (n : Nat),
    (∀ p ∈ paths, (d.hashes (g!"." ++ pathText p)).isSome = true) →
    ∃ files, buildFiles d n (paths.map pathText) = .ok files ∧ files.length = paths.length ∧
      ∀ i p, paths[i]? = some p → ∃ h, d.hashes (g!"." ++ pathText p) = some h ∧ files[i]? = some (builtFile (n + i) p h) := by
  induction paths with
  | nil => intro n _; exact ⟨[], rfl, rfl, by simp⟩
  | cons p ps ih =>
    intro n hh
    obtain ⟨h, hp⟩ := Option.isSome_iff_exists.1 (hh p (by simp))
    obtain ⟨files, h1, h2, h3⟩ := ih (n + 1) fun q hq => hh q (by simp [hq])
    refine ⟨builtFile n p h :: files, ?_, by simp [h2], ?_⟩
    · simp only [List.map_cons, buildFiles, buildFile, hp, Res.ofOption_some, Res.bind_ok, Res.pure_eq, h1]
      rfl
    · intro i q hq
      cases i with
      | zero =>
        simp only [List.getElem?_cons_zero, Option.some.injEq] at hq
        subst hq
        exact ⟨h, hp, rfl⟩
      | succ i =>
        obtain ⟨h', h4, h5⟩ := h3 i q (by simpa using hq)
        exact ⟨h', h4, by rw [List.getElem?_cons_succ, h5]; congr 2; omega⟩

theorem buildFiles_err (d : Disk) (paths : List Str) : ∀ (n : Nat),
    (∃ p ∈ paths, d.hashes (g!"." ++ p) = none) → buildFiles d n paths = .err := by
  induction paths with
  | nil => rintro n ⟨p, h, -⟩; simp at h
  | cons p ps ih =>
    rintro n ⟨q, hq, hn⟩
    cases hp : d.hashes (g!"." ++ p) with
    | none => simp only [buildFiles, buildFile, hp, Res.ofOption_none, Res.bind_err]
    | some h =>
      have : ∃ q ∈ ps, d.hashes (g!"." ++ q) = none := by
        rcases List.mem_cons.1 hq with rfl | hq
        · rw [hp] at hn; cases hn
        · exact ⟨q, hq, hn⟩
      simp only [buildFiles, buildFile, hp, ih (n + 1) this, Res.ofOption_some, Res.bind_ok, Res.pure_eq, Res.bind_err]

theorem natDigits_inj {a b : Nat} (h : natDigits a = natDigits b) : a = b := by
  have h1 := atoiDigits_natDigits a
  rw [h, atoiDigits_natDigits b] at h1
  simpa using h1.symm

/-- The files a built package has to list: in the order of their paths, all that are not ignored. -/
def Selected (d : Disk) (patterns : List Str) (paths : List (List Str)) : Prop :=
  paths.Pairwise PathLt ∧ ∀ p, p ∈ paths ↔ FileAt d.tree p ∧ ¬ ∃ q ∈ patterns, Ignores q (pathText p)

/-- **C33.** A built package lists exactly the files that are not ignored, in the order of their paths,
numbered from 0, with their digests; its verification code is the SHA-1 of all their sorted SHA-1
digests. -/
theorem C33_package (so : Sorter) (sha1 : Str → Str) (d : Disk) (name : Str) (patterns : List Str) (es : Entries)
    (dir : d.tree = .dir es) (clean : CleanRoot d.absRoot) (good : GoodTree d.tree) (pkg : PackageV)
    (h : buildPackage so sha1 d name patterns = .ok pkg) :
    ∃ paths : List (List Str), Selected d patterns paths ∧ pkg.files.length = paths.length ∧
      (∀ i p, paths[i]? = some p →
        ∃ digests, d.hashes (g!"." ++ pathText p) = some digests ∧ pkg.files[i]? = some (builtFile i p digests)) ∧
      (∃ sorted : List Str, SortedBy id sorted ∧
        sorted.Perm (paths.filterMap fun p => (d.hashes (g!"." ++ pathText p)).map (·.1)) ∧
        pkg.verificationCode = some ⟨sha1 sorted.flatten, []⟩) ∧
      pkg.name = name ∧ pkg.spdxId = g!"Package-" ++ name := by
  rw [dir] at good
  have readable : ¬ unreadable (.dir es) := fun hu => by
    have := (C23_error so d.absRoot d.tree patterns).1.2 (by rw [dir]; exact hu)
    simp [buildPackage, this] at h
  obtain ⟨paths, h1, h2, h3⟩ := C23_listing so d.absRoot es patterns clean good readable
  rw [← dir] at h1
  have hall : ∀ p ∈ paths, (d.hashes (g!"." ++ pathText p)).isSome = true := by
    intro p hp
    refine Classical.byContradiction fun hn => ?_
    have hn' : d.hashes (g!"." ++ pathText p) = none := by simpa using hn
    have := buildFiles_err d (paths.map pathText) 0 ⟨_, List.mem_map.2 ⟨p, hp, rfl⟩, hn'⟩
    simp [buildPackage, h1, this] at h
  obtain ⟨files, h4, h5, h6⟩ := buildFiles_ok d paths 0 hall
  obtain ⟨sorted, h7, h8, h9⟩ := C21_formula so sha1 files []
  simp only [buildPackage, h1, h4, h9, Res.bind_ok, Res.pure_eq, Res.ok.injEq] at h
  subst h
  refine ⟨paths, ⟨h3, by rw [dir]; exact h2⟩, h5, ?_, ⟨sorted, h8, ?_, rfl⟩, rfl, rfl⟩
  · intro i p hp
    obtain ⟨x, h10, h11⟩ := h6 i p hp
    exact ⟨x, h10, by simpa using h11⟩
  · have e : digests [] files = paths.filterMap fun p => (d.hashes (g!"." ++ pathText p)).map (·.1) := by
      have key : ∀ (paths : List (List Str)) (files : List FileV) (n : Nat), files.length = paths.length →
          (∀ i p, paths[i]? = some p → ∃ h, d.hashes (g!"." ++ pathText p) = some h ∧ files[i]? = some (builtFile (n + i) p h)) →
          digests [] files = paths.filterMap fun p => (d.hashes (g!"." ++ pathText p)).map (·.1) := by
        intro paths
        induction paths with
        | nil =>
          intro files n hl _
          have : files = [] := List.length_eq_zero_iff.1 hl
          subst this; rfl
        | cons p ps ih =>
          intro files n hl hi
          cases files with
          | nil => simp at hl
          | cons f fs =>
            obtain ⟨x, hx, hf⟩ := hi 0 p rfl
            simp only [List.getElem?_cons_zero, Option.some.injEq] at hf
            have := ih fs (n + 1) (by simpa using hl) fun i q hq => by
              obtain ⟨y, hy, hg⟩ := hi (i + 1) q (by simpa using hq)
              exact ⟨y, hy, by rw [List.getElem?_cons_succ] at hg; rw [hg]; congr 2; omega⟩
            rw [digests_cons, this, List.filterMap_cons, hx]
            subst hf
            simp [digests, builtFile]
      exact key paths files 0 h5 (by simpa using h6)
    rw [e] at h7
    exact h7

/-- **C33.** The identifiers of the files are distinct, and so are their names. -/
theorem C33_distinct (so : Sorter) (sha1 : Str → Str) (d : Disk) (name : Str) (patterns : List Str) (es : Entries)
    (dir : d.tree = .dir es) (clean : CleanRoot d.absRoot) (good : GoodTree d.tree) (pkg : PackageV)
    (h : buildPackage so sha1 d name patterns = .ok pkg) :
    (pkg.files.map (·.spdxId)).Nodup ∧ (pkg.files.map (·.name)).Nodup ∧
      ∀ f ∈ pkg.files, f.spdxId ≠ pkg.spdxId ∧ f.spdxId ≠ g!"DOCUMENT" := by
  obtain ⟨paths, ⟨hlt, hmem⟩, hl, hi, -, -, hid⟩ := C33_package so sha1 d name patterns es dir clean good pkg h
  have hfile : ∀ i f, pkg.files[i]? = some f → ∃ p x, paths[i]? = some p ∧ f = builtFile i p x := by
    intro i f hf
    have hlt : i < paths.length := by rw [← hl]; exact (List.getElem?_eq_some_iff.1 hf).1
    obtain ⟨p, hp⟩ : ∃ p, paths[i]? = some p := ⟨_, List.getElem?_eq_getElem hlt⟩
    obtain ⟨x, -, hx⟩ := hi i p hp
    rw [hf] at hx
    exact ⟨p, x, hp, by simpa using hx⟩
  have hnd : paths.Nodup := hlt.imp fun h e => by subst e; exact pathLt_irrefl _ h
  have hslash : ∀ p ∈ paths, ∀ n ∈ p, '/' ∉ n := fun p hp n hn =>
    (fileAt_names _ p good ((hmem p).1 hp).1 n hn).2
  refine ⟨?_, ?_, ?_⟩
  · refine List.pairwise_iff_getElem.2 ?_
    intro i j hi' hj' hij e
    simp only [List.getElem_map] at e
    rw [List.length_map] at hi' hj'
    obtain ⟨p, x, -, hf⟩ := hfile i _ (List.getElem?_eq_getElem hi')
    obtain ⟨q, y, -, hg⟩ := hfile j _ (List.getElem?_eq_getElem hj')
    rw [hf, hg] at e
    have := natDigits_inj (List.append_cancel_left (show g!"File" ++ natDigits i = g!"File" ++ natDigits j from e))
    omega
  · refine List.pairwise_iff_getElem.2 ?_
    intro i j hi' hj' hij e
    simp only [List.getElem_map] at e
    rw [List.length_map] at hi' hj'
    obtain ⟨p, x, hp, hf⟩ := hfile i _ (List.getElem?_eq_getElem hi')
    obtain ⟨q, y, hq, hg⟩ := hfile j _ (List.getElem?_eq_getElem hj')
    rw [hf, hg] at e
    have e2 := congrArg (splitChar '/') (List.append_cancel_left (show g!"." ++ pathText p = g!"." ++ pathText q from e))
    obtain ⟨hp1, hp2⟩ := List.getElem?_eq_some_iff.1 hp
    obtain ⟨hq1, hq2⟩ := List.getElem?_eq_some_iff.1 hq
    rw [splitChar_pathText (hslash p (hp2 ▸ List.getElem_mem _)), splitChar_pathText (hslash q (hq2 ▸ List.getElem_mem _))] at e2
    simp at e2
    exact (List.pairwise_iff_getElem.1 hnd i j hp1 hq1 hij) (by rw [hp2, hq2, e2])
  · intro f hf
    obtain ⟨i, hi', rfl⟩ := List.mem_iff_getElem.1 hf
    obtain ⟨p, x, -, hf⟩ := hfile i _ (List.getElem?_eq_getElem hi')
    rw [hf, hid]
    simp [builtFile]

/-- **C33.** Building a package fails exactly if the directory cannot be read or a file that is not ignored
cannot be read; it never panics. -/
theorem C33_error (so : Sorter) (sha1 : Str → Str) (d : Disk) (name : Str) (patterns : List Str) (es : Entries)
    (dir : d.tree = .dir es) (clean : CleanRoot d.absRoot) (good : GoodTree d.tree) :
    (buildPackage so sha1 d name patterns = .err ↔ unreadable d.tree ∨
      ∃ p, FileAt d.tree p ∧ (¬ ∃ q ∈ patterns, Ignores q (pathText p)) ∧ d.hashes (g!"." ++ pathText p) = none) ∧
    buildPackage so sha1 d name patterns ≠ .panic := by
  by_cases hu : unreadable d.tree
  · have := (C23_error so d.absRoot d.tree patterns).1.2 hu
    simp [buildPackage, this, hu]
  · have good' := good
    rw [dir] at good' hu
    obtain ⟨paths, h1, h2, h3⟩ := C23_listing so d.absRoot es patterns clean good' hu
    rw [← dir] at h1 h2 hu
    by_cases hall : ∀ p ∈ paths, (d.hashes (g!"." ++ pathText p)).isSome = true
    · obtain ⟨files, h4, h5, h6⟩ := buildFiles_ok d paths 0 hall
      obtain ⟨sorted, h7, h8, h9⟩ := C21_formula so sha1 files []
      simp only [buildPackage, h1, h4, h9, Res.bind_ok, Res.pure_eq, reduceCtorEq, hu, false_or, false_iff, ne_eq,
        not_false_eq_true, and_true]
      rintro ⟨p, hp, hn, hh⟩
      have := hall p ((h2 p).2 ⟨hp, hn⟩)
      rw [hh] at this
      simp at this
    · have : ∃ p ∈ paths, d.hashes (g!"." ++ pathText p) = none :=
        Classical.byContradiction fun hn => hall fun p hp => by
          cases hh : d.hashes (g!"." ++ pathText p) with
          | some x => rfl
          | none => exact absurd ⟨p, hp, hh⟩ hn
      obtain ⟨p, hp, hh⟩ := this
      have he := buildFiles_err d (paths.map pathText) 0 ⟨_, List.mem_map.2 ⟨p, hp, rfl⟩, hh⟩
      simp only [buildPackage, h1, he, Res.bind_ok, Res.bind_err, true_iff, ne_eq, reduceCtorEq, not_false_eq_true, and_true]
      exact .inr ⟨p, ((h2 p).1 hp).1, ((h2 p).1 hp).2, hh⟩

/-! ## C34 -/

/-- **C34.** A built document passes validation and describes exactly the built package. -/
theorem C34_valid (so so' : Sorter) (sha1 : Str → Str) (d : Disk) (now name : Str) (config : BuildConfig) (doc : Doc)
    (h : build so sha1 d now name config = .ok doc) :
    validateDocument (doc.packages.map some) (doc.files.map some) (doc.relationships.map some) = .ok () ∧
    getDescribedPackageIDs so' (doc.packages.map some) (doc.relationships.map some) = .ok [g!"Package-" ++ name] ∧
    ∃ pkg, doc.packages = [pkg] ∧ pkg.spdxId = g!"Package-" ++ name ∧
      buildPackage so sha1 d name config.pathsIgnored = .ok pkg ∧
      ∃ r, doc.relationships = [r] ∧ Says r pkg.spdxId := by
  unfold build at h
  cases hp : buildPackage so sha1 d name config.pathsIgnored with
  | err => rw [hp] at h; cases h
  | panic => rw [hp] at h; cases h
  | ok pkg =>
    rw [hp] at h
    simp only [Res.bind_ok, Res.pure_eq, Res.ok.injEq] at h
    subst h
    have hid : pkg.spdxId = g!"Package-" ++ name := by
      unfold buildPackage at hp
      cases h1 : getAllFilePaths so d.absRoot d.tree config.pathsIgnored with
      | err => rw [h1] at hp; cases hp
      | panic => rw [h1] at hp; cases hp
      | ok ps =>
        rw [h1] at hp
        cases h2 : buildFiles d 0 ps with
        | err => simp [h2] at hp
        | panic => simp [h2] at hp
        | ok fs =>
          cases h3 : getVerificationCode so sha1 (fs.map some) [] with
          | err => simp [h2, h3] at hp
          | panic => simp [h2, h3] at hp
          | ok c =>
            simp only [h2, h3, Res.bind_ok, Res.pure_eq, Res.ok.injEq] at hp
            rw [← hp]
    refine ⟨?_, ?_, pkg, rfl, hid, rfl, buildRelationship name, rfl, .inl ⟨rfl, rfl, ?_⟩⟩
    · refine (C24_valid_iff [pkg] [] [buildRelationship name]).1.2 ?_
      intro r hr
      simp only [List.mem_singleton] at hr
      subst hr
      exact ⟨.inl rfl, .inr (.inl ⟨pkg, by simp, hid⟩)⟩
    · show getDescribedPackageIDs so' [some pkg] _ = _
      rw [(C25_single so' pkg _).1, hid]
    · exact hid.symm

/-- **C34.** Building the document fails exactly if building the package fails. -/
theorem C34_error (so : Sorter) (sha1 : Str → Str) (d : Disk) (now name : Str) (config : BuildConfig) :
    (build so sha1 d now name config = .err ↔ buildPackage so sha1 d name config.pathsIgnored = .err) ∧
    (build so sha1 d now name config = .panic ↔ buildPackage so sha1 d name config.pathsIgnored = .panic) := by
  unfold build
  cases buildPackage so sha1 d name config.pathsIgnored <;> simp

/-! ## Concrete cases -/

/-- A disk with the directory of `C23_tree`. -/
def C33_disk : Disk where
  absRoot := g!"/home/me"
  tree := .dir C23_tree
  hashes p := some (g!"1" ++ p, g!"2" ++ p, g!"3" ++ p)
  text _ := none

example : CleanRoot C33_disk.absRoot ∧ GoodTree C33_disk.tree := by
  refine ⟨.inr ⟨by decide, ?_⟩, ?_⟩
  · rintro ⟨r, hr⟩
    have := (List.append_inj' (show g!"/home/m" ++ g!"e" = r ++ g!"/" from hr) rfl).2
    simp at this
  · simp [C33_disk, GoodTree, GoodEntries, C23_tree, namesIn, IsName]

example : buildPackage insertionSorter id C33_disk g!"p" [g!"**/c"] = .ok
    { name := g!"p", spdxId := g!"Package-p", downloadLocation := g!"NOASSERTION", filesAnalyzed := true,
      filesAnalyzedTagPresent := true, verificationCode := some ⟨g!"1./a.txt1./a/b", []⟩,
      licenseConcluded := g!"NOASSERTION", licenseDeclared := g!"NOASSERTION", copyrightText := g!"NOASSERTION",
      files := [builtFile 0 [g!"a", g!"b"] (g!"1./a/b", g!"2./a/b", g!"3./a/b"),
                builtFile 1 [g!"a.txt"] (g!"1./a.txt", g!"2./a.txt", g!"3./a.txt")] } := by decide +kernel

/-- The namespace ends with the printed verification code structure, braces and brackets included, and so is
not a URI; nor is it unique, as the configuration's comment promises: there is no random part. -/
theorem C34_namespace_false :
    (build insertionSorter id C33_disk [] g!"p" { namespacePrefix := g!"https://x/", pathsIgnored := [g!"**/c"] } >>=
      fun doc => .ok doc.namespace_) = .ok g!"https://x/p-{1./a.txt1./a/b []}" := by decide +kernel

/-- A creator type that is none of the three kinds is kept, although the comment says it becomes a person. -/
theorem C34_creator_type_false :
    (buildCreationInfo g!"Robot" g!"R2" [] []).creators = [⟨g!"github.com/spdx/tools-golang/builder", g!"Tool"⟩, ⟨g!"R2", g!"Robot"⟩] := by
  decide +kernel

end Verif
