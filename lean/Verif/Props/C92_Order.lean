import Verif.Lemmas.NilOrder
import Verif.Props.C92_NilPrint

/-!
# C92: gaps inside files and packages
-/

namespace Verif
open Spec

/-- **C92.** Files and packages are printed in the order of their identifiers, so what comes before a gap inside one of them
arrives: the complete files (packages) with smaller identifiers, and the complete files with smaller identifiers of the
package with the gap. -/
theorem C92_in_order {k : Sink} (hh : k.Honest) (hg : k.Good) (s : k.State) (so : Sorter) (hso : Blind so) (v : Version) (n : NDoc) (d : Doc) (t : Str)
    (sooner : SoonerDoc n d) (written : writeTagValue v so d = .ok t) :
    ∃ u, k.got (nWriteTagValueTo k s v so n).2 = k.got s ++ u ∧ t <+: u := by
  have hc : d.creationInfo = n.doc.creationInfo := by
    have := congrArg (fun x : Doc => x.creationInfo) sooner.doc
    exact this
  cases hn : n.doc.creationInfo with
  | none =>
    rw [hn] at hc
    simp [writeTagValue, renderDocument, hc] at written
  | some ci =>
    rw [hn] at hc
    obtain rfl : emit (renderBody v so d ci) = t := by simpa [writeTagValue, renderDocument, hc] using written
    simp only [nWriteTagValueTo, hn]
    refine ⟨_, arrived hh hg s _, ?_⟩
    obtain ⟨r, hr⟩ := sooner_printed hso v ci sooner
    exact ⟨emit r, by rw [← hr]; simp [emit]⟩

/-! ## Sample -/

/-- A package with a file that is complete and one of which an artifact is missing. -/
def pkgB92 : NPackage :=
  { pkg := { name := g!"b", spdxId := g!"B", filesAnalyzed := true }
    files := [some { file := { name := g!"./y", spdxId := g!"y" }, artifacts := [none] }, some (ofFile { name := g!"./x", spdxId := g!"x" })] }

/-- A document with this package between a smaller and a greater one. -/
def docOrder92 : NDoc :=
  { doc := doc92.doc, packages := [some { pkg := { name := g!"c", spdxId := g!"C" } }, some pkgB92, some (ofPackage { name := g!"a", spdxId := g!"A" })] }

/-- What is complete before the gap. -/
def partOrder92 : Doc :=
  { doc92.doc with
    packages := [{ name := g!"a", spdxId := g!"A" }, { name := g!"b", spdxId := g!"B", filesAnalyzed := true, files := [{ name := g!"./x", spdxId := g!"x" }] }] }

/-- The document meets the hypotheses of `C92_in_order`, and the writer panics on it. -/
theorem C92_in_order_sample : SoonerDoc docOrder92 partOrder92 ∧ Lacks docOrder92 ∧
    (nWriteTagValueTo keeper ([] : Str) .v23 insertionSorter docOrder92).1 = .panic := by
  have lt : ∀ a b : Str, strLt a b = true → Before a b := fun a b h => (C89_order a b).1.1 h
  refine ⟨⟨rfl, .inr ⟨rfl, ?_⟩, rfl, rfl, rfl, rfl⟩, ?_, by decide +kernel⟩
  · refine ⟨[{ name := g!"a", spdxId := g!"A" }], some (pkgB92, { name := g!"b", spdxId := g!"B", filesAnalyzed := true, files := [{ name := g!"./x", spdxId := g!"x" }] }),
      [{ pkg := { name := g!"c", spdxId := g!"C" } }], rfl, ?_, ?_, ?_, ?_, ?_, by decide⟩
    · exact (List.reverse_perm _).symm
    · intro e he
      cases he
      refine ⟨rfl, rfl, [{ file := { name := g!"./y", spdxId := g!"y" }, artifacts := [none] }], (List.reverse_perm _).symm, ?_, by decide⟩
      intro f hf r hr
      obtain rfl := List.mem_singleton.1 hf
      obtain rfl := List.mem_singleton.1 hr
      exact lt _ _ (by decide)
    · intro e he p hp
      cases he
      obtain rfl := List.mem_singleton.1 hp
      exact lt _ _ (by decide)
    · intro e he p hp
      cases he
      obtain rfl := List.mem_singleton.1 hp
      exact lt _ _ (by decide)
    · intro f hf r hr
      obtain rfl := List.mem_singleton.1 hf
      obtain rfl := List.mem_singleton.1 hr
      exact lt _ _ (by decide)
  · exact .inr <| .inl <| .inr ⟨pkgB92, List.mem_cons_of_mem _ List.mem_cons_self, .inr (.inr ⟨_, List.mem_cons_self, .inl List.mem_cons_self⟩)⟩

end Verif
