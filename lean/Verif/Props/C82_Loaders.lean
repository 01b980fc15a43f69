import Verif.Spec.Loaders
import Verif.Props.C46_BuiltRoundTrip
import Verif.Props.C74_Built
import Verif.Props.C77_Programs
import Verif.Props.C81_OtherVersion

/-!
# C82: programs that save a document about a directory, and programs that show a document
-/

namespace Verif
open Spec

section
variable {k : Maker} {w : Workshop} {prog name root fileOut : Str} {m : Mishaps} {fs : FileSystem}

theorem maker_run (k : Maker) (w : Workshop) (args : List Str) (m : Mishaps) (fs : FileSystem) :
    k.run w args m fs = buildingProgram (k.document w) (tagValueOutput w.so) args m fs := by
  cases k <;> rfl

theorem maker_made {d : Doc} (h : k.document w name root = .ok d) : k.run w [prog, name, root, fileOut] m fs =
    ⟨fs, []⟩ :: ⟨fs, [.built name]⟩ :: savePart (tagValueOutput w.so d) fileOut m ⟨fs, [.built name]⟩ := by
  rw [maker_run]
  simp [buildingProgram, h, Moment.say]

/-- **C82.** With a wrong number of arguments nothing is done. -/
theorem C82_usage (k : Maker) (w : Workshop) (args : List Str) (m : Mishaps) (fs : FileSystem) (h : args.length ≠ 4) :
    ∀ x ∈ k.run w args m fs, x.files = fs ∧ (x.said = [] ∨ x.said = [.usage]) := by
  rw [maker_run]
  unfold buildingProgram
  split
  · simp at h
  · simp [Moment.say]

/-- **C82.** If there is no document about the directory, no file is touched, and nothing is said to be saved. -/
theorem C82_unbuilt (h : ∀ d, k.document w name root ≠ .ok d) :
    ∀ x ∈ k.run w [prog, name, root, fileOut] m fs, x.files = fs ∧ ∀ n ∈ x.said, n = .cannotBuild ∨ n = .panicked := by
  rw [maker_run]
  cases hd : k.document w name root with
  | ok d => exact absurd hd (h d)
  | err => simp [buildingProgram, hd, Moment.say]
  | panic => simp [buildingProgram, hd, Moment.say]

/-- **C82.** No file but the output file is ever changed, whatever goes wrong. -/
theorem C82_nothing_else : ∀ x ∈ k.run w [prog, name, root, fileOut] m fs, ∀ file, file ≠ fileOut → x.files file = fs file := by
  intro x hx file hn
  by_cases h : ∃ d, k.document w name root = .ok d
  · obtain ⟨d, hd⟩ := h
    rw [maker_made hd] at hx
    rcases List.mem_cons.1 hx with rfl | hx
    · rfl
    rcases List.mem_cons.1 hx with rfl | hx
    · rfl
    rcases savePart_mem hx with ⟨-, rfl⟩ | ⟨-, t, -, hfl⟩
    · rfl
    · rw [hfl]; exact put_other hn
  · rw [(C82_unbuilt (fun d hd => h ⟨d, hd⟩) x hx).1]

/-- **C82.** At every moment the output file is as it was before, or holds a beginning of the text of the document, if nothing
is taken after a failure. -/
theorem C82_output {d : Doc} {text : Str} (h : k.document w name root = .ok d) (hw : writeTagValue .v23 w.so d = .ok text)
    (hf : m.Final) : ∀ x ∈ k.run w [prog, name, root, fileOut] m fs, x.files fileOut = fs fileOut ∨
      ∃ q, x.files fileOut = some q ∧ q <+: text := by
  rw [maker_made h]
  intro x hx
  rcases List.mem_cons.1 hx with rfl | hx
  · exact .inl rfl
  rcases List.mem_cons.1 hx with rfl | hx
  · exact .inl rfl
  rcases savePart_mem hx with ⟨-, rfl⟩ | ⟨-, t, ht, hfl⟩
  · exact .inl rfl
  right
  refine ⟨t, by rw [hfl]; exact put_same, ?_⟩
  have hp := writing_prefix (heeds := (tagValueOutput w.so d).heeds) (.inr hf) 0 [] (tagValueOutput w.so d).calls
  have ho := tagValueOutput_text w.so d
  rw [hw] at ho
  obtain ⟨r, hr, rfl⟩ : ∃ r, r <+: (tagValueOutput w.so d).calls.flatten ∧ t = r := by
    rcases ht with rfl | rfl | ht
    · exact ⟨[], List.nil_prefix, rfl⟩
    · exact hp _ (by simp)
    · exact hp _ (by simp [ht])
  rw [← ho.1]; exact hr

/-- **C82.** If nothing goes wrong, the document about the directory is saved: the output file holds its text, and all other
files are as before. -/
theorem C82_works {d : Doc} {text : Str} (h : k.document w name root = .ok d) (hw : writeTagValue .v23 w.so d = .ok text)
    (hc : m.createFails = false) (ht : m.TakesAll) :
    (k.run w [prog, name, root, fileOut] m fs).getLast? = some ⟨fs.put fileOut text, [.built name, .saved fileOut]⟩ := by
  have ho := tagValueOutput_text w.so d
  rw [hw] at ho
  have e := writing_takes_all ht (tagValueOutput w.so d).heeds 0 [] (tagValueOutput w.so d).calls
  rw [ho.1] at e
  rw [maker_made h]
  unfold savePart
  simp only [hc, Bool.false_eq_true, if_false, ho.2]
  rw [← List.cons_append, ← List.cons_append, List.getLast?_append]
  simp [Moment.say, Moment.put, e]

end

/-! ## Showing a document -/

theorem printFiles_eq (fs : List FileV) : ∀ i, 1 ≤ i → i ≤ 50 →
    printFiles i fs = ((fs.take (51 - i)).zipIdx i).flatMap fun f => fileLines f.2 f.1 := by
  induction fs with
  | nil => intro i _ _; simp [printFiles]
  | cons f fs ih =>
    intro i h1 h2
    have e : 51 - i = (50 - i) + 1 := by omega
    rw [printFiles, e, List.take_succ_cons, List.zipIdx_cons, List.flatMap_cons]
    by_cases h : i + 1 > 50
    · have : 50 - i = 0 := by omega
      simp [h, this, fileLines, sprintStrings]
    · have h' : 50 - i = 51 - (i + 1) := by omega
      rw [if_neg h, ih (i + 1) (by omega) (by omega), h']
      simp [fileLines, sprintStrings]

theorem printPackages_eq (ids : List Str) (ps : List PackageV) :
    printPackages ids ps = (ps.filter fun p => ids.contains p.spdxId).flatMap packageLines := by
  induction ps with
  | nil => rfl
  | cons p ps ih =>
    rw [printPackages]
    cases hc : ids.contains p.spdxId with
    | false => rw [List.filter_cons_of_neg (by rw [hc]; simp)]; simpa using ih
    | true =>
      rw [List.filter_cons_of_pos (by rw [hc]), List.flatMap_cons, ih]
      cases ha : p.filesAnalyzed with
      | false => simp [packageLines, ha]
      | true =>
        cases hf : p.files with
        | nil => simp [packageLines, ha, hf]
        | cons f fs =>
          have := printFiles_eq (f :: fs) 1 (by omega) (by omega)
          simp [packageLines, ha, hf, this]

/-- **C82.** The program that loads a tag-value file prints the creation information and then, of each package that the document
describes and in the order of the document, its first fifty files with their licenses, or why there are none. -/
theorem C82_shows (so : Sorter) (creation : Option CreationInfo → Str) (reason file : Str) (d : Doc) :
    ((∃ p ∈ d.packages, DescribesPackage d p) → ∃ shown : List PackageV, printDocument so creation reason file d =
      .ok (loadedHead file (creation d.creationInfo) ++ shown.flatMap packageLines) ∧
      shown.Sublist d.packages ∧ ∀ p, p ∈ shown ↔ p ∈ d.packages ∧ DescribesPackage d p) := by
  rintro ⟨p, hp, hd⟩
  have key : ∃ ids, getDescribedPackageIDs so (d.packages.map some) (d.relationships.map some) = .ok ids ∧ ids ≠ [] ∧
      ∀ p ∈ d.packages, p.spdxId ∈ ids ↔ DescribesPackage d p := by
    match hps : d.packages with
    | [] => rw [hps] at hp; cases hp
    | [q] => exact ⟨[q.spdxId], rfl, by simp, by simp [DescribesPackage, hps]⟩
    | q :: r :: ps =>
      have hC := C25_described so (some q) (some r) (ps.map some) d.relationships
      have hsays : ∃ r ∈ d.relationships, ∃ id, Spec.Says r id := by
        rcases hd with hd | ⟨-, x, hx, hs⟩
        · rw [hps] at hd; simp at hd
        · exact ⟨x, hx, _, hs⟩
      simp only [List.map_cons]
      cases hg : getDescribedPackageIDs so (some q :: some r :: ps.map some) (d.relationships.map some) with
      | err => exact absurd hsays (hC.2.1.1 hg)
      | panic => exact absurd hg hC.2.2
      | ok ids =>
        obtain ⟨h1, -, h3⟩ := hC.1 ids hg
        refine ⟨ids, rfl, h1, fun p _ => ?_⟩
        rw [h3]
        simp [DescribesPackage, hps]
  obtain ⟨ids, h1, h2, h3⟩ := key
  refine ⟨d.packages.filter fun p => ids.contains p.spdxId, ?_, List.filter_sublist, fun p => ?_⟩
  · rw [printDocument, h1]
    have : ids.length ≠ 0 := by simpa using h2
    simp only [this, if_false, printPackages_eq]
    simp [loadedHead]
  · rw [List.mem_filter, List.contains_iff_mem]
    exact ⟨fun h => ⟨h.1, (h3 p h.1).1 h.2⟩, fun h => ⟨h.1, (h3 p h.1).2 h.2⟩⟩

/-- **C82.** If the document describes none of its packages and no relationship says that it describes something, the program
says that it is unable to find them; it never panics. -/
theorem C82_shows_none (so : Sorter) (creation : Option CreationInfo → Str) (reason file : Str) (d : Doc) :
    ((d.packages = [] ∨ (1 < d.packages.length ∧ ¬ ∃ r ∈ d.relationships, ∃ id, Spec.Says r id)) →
      printDocument so creation reason file d = .ok (loadedHead file (creation d.creationInfo) ++
        g!"Unable to get describe packages from SPDX document: " ++ reason ++ g!"\n")) ∧
    printDocument so creation reason file d ≠ .panic := by
  match hps : d.packages with
  | [] => exact ⟨fun _ => by simp [printDocument, hps, getDescribedPackageIDs, loadedHead], by simp [printDocument, hps, getDescribedPackageIDs]⟩
  | [q] =>
    refine ⟨fun h => by simp at h, ?_⟩
    simp [printDocument, hps, getDescribedPackageIDs, deref]
  | q :: r :: ps =>
    obtain ⟨-, c2, c3⟩ := C25_described so (some q) (some r) (ps.map some) d.relationships
    refine ⟨fun h => ?_, ?_⟩
    · have hn : ¬ ∃ r ∈ d.relationships, ∃ id, Spec.Says r id := by
        rcases h with h | h
        · cases h
        · exact h.2
      simp [printDocument, hps, c2.2 hn, loadedHead]
    · simp only [printDocument, hps, List.map_cons]
      cases hg : getDescribedPackageIDs so (some q :: some r :: ps.map some) (d.relationships.map some) with
      | err => simp
      | panic => exact absurd hg c3
      | ok ids => simp

end Verif
