import Verif.Props.C95_TextValid
import Verif.Props.C84_Answers

/-!
# C95, C96 for texts that are read into a variable of any version
-/

namespace Verif
open Spec

/-- What the tools say of the document `d` read from the pairs: whether it is valid, and what it describes. -/
structure Spec.ToldByPairs (tvs : List TVPair) (d : Doc) : Prop where
  valid : validateDocument (d.packages.map some) (d.files.map some) (d.relationships.map some) = .ok () ↔
    ∀ p ∈ tvs, p.tag = g!"Relationship" → ∀ a k b, wordsOf p.value = [a, k, b] → RefersToNamed tvs a ∧ RefersToNamed tvs b
  invalid : validateDocument (d.packages.map some) (d.files.map some) (d.relationships.map some) = .err ↔
    ∃ p ∈ tvs, p.tag = g!"Relationship" ∧ ∃ a k b, wordsOf p.value = [a, k, b] ∧ ¬ (RefersToNamed tvs a ∧ RefersToNamed tvs b)
  described : 2 ≤ (packagesWithFiles tvs).length → ∀ so ids, getDescribedPackageIDs so (d.packages.map some) (d.relationships.map some) = .ok ids →
    ids ≠ [] ∧ ids.Pairwise (fun a b => strLe a b = true) ∧ ∀ id, id ∈ ids ↔ ∃ p ∈ tvs, p.tag = g!"Relationship" ∧ ValueDescribes p.value id
  nothing : 2 ≤ (packagesWithFiles tvs).length → ∀ so, getDescribedPackageIDs so (d.packages.map some) (d.relationships.map some) = .err ↔
    ¬ ∃ p ∈ tvs, p.tag = g!"Relationship" ∧ ∃ id, ValueDescribes p.value id
  single : ∀ so name id files, packagesWithFiles tvs = [((name, [g!"SPDXRef-" ++ id]), files)] →
    getDescribedPackageIDs so (d.packages.map some) (d.relationships.map some) = .ok [id]
  none : packagesWithFiles tvs = [] → ∀ so, getDescribedPackageIDs so (d.packages.map some) (d.relationships.map some) = .err

/-- **C95, C96.** A text of version `v` is read into a variable of any version `w`, and the answers of the tools are those the text gives. -/
theorem C95_other_version (lib : Copier) (v w : Version) (text : Str) (tvs : List TVPair) (name : Str) (d : Doc)
    (h1 : readTagValues text = .ok tvs) (h2 : FirstVersion tvs name) (h3 : VersionNamed name v)
    (h4 : parseTagValues v tvs = .ok (some d)) (solid : Solid d) (hn : PackagesNamed tvs) (hi : IdsNotRepeated tvs) :
    ∃ e, readTagValueInto (structCopied lib) true w text = .ok e ∧ ToldByPairs tvs e := by
  obtain ⟨e, k, g⟩ := C84_read_tagvalue lib v w text tvs name d h1 h2 h3 h4 solid
  refine ⟨e, k, ?_, ?_, fun two so => ?_, fun two so => ?_, fun so n id files hp => ?_, fun hp so => ?_⟩
  · rw [← g.valid]; exact C95_valid v tvs d h4 hn hi
  · rw [← g.valid]; exact C95_invalid v tvs d h4 hn hi
  · rw [← g.described]; exact (C96_described so v tvs d h4 hn hi two).1
  · rw [← g.described]; exact (C96_described so v tvs d h4 hn hi two).2.1
  · obtain ⟨id', e, k⟩ := (C96_single so v tvs d h4 hn hi).1 n _ files hp
    rw [← g.described, k]
    injection e with e
    rw [List.append_cancel_left e]
  · rw [← g.described]; exact (C96_single so v tvs d h4 hn hi).2 hp

/-- Pairs with a creator, a relationship, two packages and two files. -/
def pairs95 : List TVPair :=
  (text95 []).take 2 ++ [⟨g!"Creator", g!"Tool: t"⟩] ++ (text95 [g!"SPDXRef-DOCUMENT DESCRIBES SPDXRef-Q"]).drop 2

/-- The document they are read as. -/
def doc95 : Doc :=
  { spdxVersion := g!"SPDX-2.3", spdxId := g!"DOCUMENT", creationInfo := some { creators := [⟨g!"t", g!"Tool"⟩] }
    packages := [{ name := g!"p", spdxId := g!"P", filesAnalyzed := true, files := [{ name := g!"f", spdxId := g!"F" }] },
      { name := g!"q", spdxId := g!"Q", filesAnalyzed := true }]
    files := [{ name := g!"l", spdxId := g!"L" }]
    relationships := [{ refA := { elementRefID := g!"DOCUMENT" }, refB := { elementRefID := g!"Q" }, relationship := g!"DESCRIBES" }] }

/-- Non-vacuity: a text that meets the conditions. -/
theorem C95_text_sample : readTagValues (pairs95.flatMap fun p => p.tag ++ g!": " ++ p.value ++ g!"\n") = .ok pairs95 ∧
    FirstVersion pairs95 g!"SPDX-2.3" ∧ VersionNamed g!"SPDX-2.3" .v23 ∧ parseTagValues .v23 pairs95 = .ok (some doc95) ∧ Solid doc95 ∧
    PackagesNamed pairs95 ∧ IdsNotRepeated pairs95 ∧ 2 ≤ (packagesWithFiles pairs95).length := by
  refine ⟨by decide +kernel, ⟨[], _, rfl, by simp⟩, .inr (.inr ⟨rfl, rfl⟩), by decide +kernel, ?_, by decide +kernel, by decide +kernel,
    by decide +kernel⟩
  constructor <;> simp [doc95]

end Verif
