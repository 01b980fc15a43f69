import Verif.Lemmas.TabWriter
import Verif.Props.C27_C29_LicenseDiff

/-!
# C29: the license report as it is printed
-/

namespace Verif
open Spec

/-- **C29.** What `Generate` prints for a package whose licenses are texts without tabs and line ends: two tables
with an empty line between them, each with the numbers aligned to the right in a column that is two wider than
its longest number. -/
theorem C29_printed (so : CountSorter) (files : List FileV) (h : ∀ f ∈ files, OneCell f.licenseConcluded) :
    ∃ (found notFound : Nat) (lines : List (Str × Nat)) (w w' : Nat), ReportOf files found notFound lines ∧
      ColumnWidth [found, notFound, found + notFound] w ∧ ColumnWidth (lines.map (·.2) ++ [found]) w' ∧
      printReport so true (files.map some) = .ok
        (row w found g!"License found" ++ row w notFound g!"License not found" ++ row w (found + notFound) g!"TOTAL" ++
          g!"\n" ++ lines.flatMap (fun l => row w' l.2 l.1) ++ row w' found g!"TOTAL FOUND") := by
  obtain ⟨found, notFound, lines, e, h1, h2, h3, h4, h5, h6⟩ := C29_report so files
  obtain ⟨w, w', hw, hw', ht⟩ := tabText_tables
    [(found, g!"License found"), (notFound, g!"License not found"), (found + notFound, g!"TOTAL")]
    (lines.map (fun l => (l.2, l.1)) ++ [(found, g!"TOTAL FOUND")]) (by simp) (by simp) (by
      intro r hr
      simp only [List.mem_cons, List.not_mem_nil, or_false] at hr
      rcases hr with rfl | rfl | rfl
      · exact (by decide : OneCell g!"License found")
      · exact (by decide : OneCell g!"License not found")
      · exact (by decide : OneCell g!"TOTAL")) (by
      intro r hr
      rcases List.mem_append.1 hr with hr | hr
      · obtain ⟨l, hl, rfl⟩ := List.mem_map.1 hr
        obtain ⟨⟨f, hf, -, e⟩, -⟩ := (h4 l.1 l.2).1 hl
        exact e ▸ h f hf
      · rw [List.mem_singleton] at hr; subst hr; exact (by decide : OneCell g!"TOTAL FOUND"))
  refine ⟨found, notFound, lines, w, w', ⟨h1, h2, h3, h4, h5, h6⟩, hw, ?_, ?_⟩
  · simpa [Function.comp_def] using hw'
  · rw [printReport, e]
    simp only [Res.bind_ok, Res.pure_eq]
    simp only [List.flatMap_cons, List.flatMap_nil, List.flatMap_append, List.flatMap_map, List.append_nil] at ht
    simp only [← List.append_assoc] at ht ⊢
    rw [ht]

/-- **C29.** Whatever the licenses are, printing changes nothing but blanks: without spaces, tabs and line ends
what is printed is the list of the numbers and the labels. -/
theorem C29_ink (so : CountSorter) (files : List FileV) :
    ∃ (found notFound : Nat) (lines : List (Str × Nat)) (out : Str), ReportOf files found notFound lines ∧
      printReport so true (files.map some) = .ok out ∧
      inked out = natDigits found ++ g!"Licensefound" ++ natDigits notFound ++ g!"Licensenotfound" ++
        natDigits (found + notFound) ++ g!"TOTAL" ++ lines.flatMap (fun l => natDigits l.2 ++ inked l.1) ++
        natDigits found ++ g!"TOTALFOUND" := by
  obtain ⟨found, notFound, lines, e, h1, h2, h3, h4, h5, h6⟩ := C29_report so files
  refine ⟨found, notFound, lines, _, ⟨h1, h2, h3, h4, h5, h6⟩, by rw [printReport, e]; rfl, ?_⟩
  have hd : ∀ n, inked (natDigits n) = natDigits n := fun n => by
    refine List.filter_eq_self.2 fun c hc => ?_
    have := natDigits_digits hc
    by_cases hb : c = ' ' ∨ c = '\t' ∨ c = '\x0b' ∨ c = '\n' ∨ c = '\x0c'
    · rcases hb with rfl | rfl | rfl | rfl | rfl <;> revert this <;> decide
    · simp [hb]
  have hl : ∀ (n : Nat) (l : Str), inked (countLine n l) = natDigits n ++ inked l := fun n l => by
    rw [countLine, inked_append, inked_append, inked_append, hd, show inked g!"\t  " = [] from rfl,
      show inked g!"\n" = [] from rfl]
    simp
  have hm : inked (lines.flatMap fun l => countLine l.2 l.1) = lines.flatMap fun l => natDigits l.2 ++ inked l.1 := by
    have : ∀ ls : List (Str × Nat), inked (ls.flatMap fun l => countLine l.2 l.1) =
        ls.flatMap fun l => natDigits l.2 ++ inked l.1 := fun ls => by
      induction ls with
      | nil => rfl
      | cons l ls ih => rw [List.flatMap_cons, inked_append, hl, ih]; rfl
    exact this lines
  rw [inked_tabText]
  simp only [inked_append, hl, hm]
  rw [show inked g!"License found" = g!"Licensefound" from rfl, show inked g!"License not found" = g!"Licensenotfound" from rfl,
    show inked g!"TOTAL" = g!"TOTAL" from rfl, show inked g!"TOTAL FOUND" = g!"TOTALFOUND" from rfl,
    show inked g!"\n" = [] from rfl]
  simp only [List.append_nil, List.append_assoc]

/-- Ten files with a license, one without. -/
def C29_sample : List FileV :=
  List.replicate 10 (C27_file g!"a" g!"MIT") ++ [C27_file g!"b" g!"", C27_file g!"c" g!"Apache-2.0"]

example : (∀ f ∈ C29_sample, OneCell f.licenseConcluded) ∧ printReport countSorter true (C29_sample.map some) = .ok
    g!"  11  License found\n   1  License not found\n  12  TOTAL\n\n  10  MIT\n   1  Apache-2.0\n  11  TOTAL FOUND\n" := by
  decide +kernel

/-- A license that is a text with line ends and tabs can look like a row of its own. -/
theorem C29_forged_false :
    printReport countSorter true [some (C27_file g!"a" g!"MIT\n7\t  BSD")] = .ok
      g!"  1  License found\n  0  License not found\n  1  TOTAL\n\n  1  MIT\n  7  BSD\n  1  TOTAL FOUND\n" := by
  decide +kernel

end Verif
