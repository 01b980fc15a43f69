import Verif.Lemmas.Injection
import Verif.Lemmas.CleanItems
import Verif.Props.C12_RoundTrip

/-!
# C04: fields of a written document stay apart
-/

namespace Verif
open Spec

/-- **C04.** If every value printed for a document is safe, then reading the text returns exactly the
fields that were printed: the same tags with the same values, in the same order, none added, none
swallowed. -/
theorem C04_one_pair_per_field (v : Version) (so : Sorter) (d d' : Doc) (printed : List Item)
    (written : renderDocument v so d = .ok (printed, d'))
    (safe : ∀ i ∈ printed, CleanItem i) (fit : LinesFit (emit printed)) :
    readTagValues (emit printed) = .ok (pairsOf printed) := by
  unfold renderDocument at written
  split at written
  · cases written
  · rename_i ci _
    simp at written
    obtain ⟨rfl, -⟩ := written
    exact read_items _ (fun i hi => ⟨shaped_body v so d ci i hi, safe i hi⟩) fit

/-- **C04.** Every value printed for a representable document is safe. -/
theorem C04_representable_is_safe (v : Version) (so : Sorter) (d d' : Doc) (printed : List Item)
    (representable : Representable v d) (written : renderDocument v so d = .ok (printed, d')) :
    ∀ i ∈ printed, CleanItem i := by
  unfold renderDocument at written
  split at written
  · cases written
  · rename_i ci hci
    simp at written
    obtain ⟨rfl, -⟩ := written
    obtain ⟨c, hc, hr⟩ := representable.creationInfo
    rw [hci] at hc
    obtain rfl : ci = c := by simpa using hc
    exact clean_body so representable hr

/-- **C04.** Being safe is necessary: a plain field comes back as itself exactly if its value fits on
one line. -/
theorem C04_plain_field_iff (t v : Str) (tag : GoodTag t) (fit : LinesFit (emit [.field t v])) :
    readTagValues (emit [.field t v]) = .ok [⟨t, v⟩] ↔ OneLine v := by
  have e : emit [.field t v] = t ++ g!": " ++ v ++ g!"\n" := by simp [emit, Item.emit]
  constructor
  · intro h
    rw [e] at h fit
    by_cases hn : '\n' ∈ v
    · exact absurd h (not_read_two_lines tag hn fit)
    · exact good_of_read_one tag hn fit h
  · intro h
    exact read_items [.field t v] (by simpa [ShapedItem, CleanItem] using ⟨tag, h⟩) fit

/-- **C04.** A free-text field comes back as itself exactly if its value is good: a value without line
breaks has no surrounding white space and no `<text>`, one with line breaks no `</text>` and no
carriage return before a line break. -/
theorem C04_text_field_iff (t v : Str) (tag : GoodTag t) (fit : LinesFit (emit [.text t v])) :
    readTagValues (emit [.text t v]) = .ok [⟨t, v⟩] ↔ GoodValue v := by
  have hcn : (contains g!"\n" v = true) ↔ '\n' ∈ v := contains_single
  have e : emit [.text t v] = t ++ g!": " ++ textify v ++ g!"\n" := by simp [emit, Item.emit]
  constructor
  · intro h
    rw [e] at h fit
    unfold textify at h fit
    unfold GoodValue
    by_cases hn : '\n' ∈ v
    · simp only [hcn, hn, if_true] at h fit ⊢
      exact good_of_read_text tag hn fit h
    · simp only [hcn, hn, if_false] at h fit ⊢
      exact (good_of_read_one tag hn fit h).2
  · intro h
    exact read_items [.text t v] (by simpa [ShapedItem, CleanItem] using ⟨tag, h⟩) fit

/-! ## Cases that meet the hypotheses, and the unrestricted claim refuted -/

example : ∃ printed d', renderDocument .v22 insertionSorter C12_sample = .ok (printed, d') ∧
    (∀ i ∈ printed, CleanItem i) ∧ LinesFit (emit printed) ∧ (pairsOf printed).length = 66 := by
  refine ⟨_, _, rfl, C04_representable_is_safe _ insertionSorter _ _ _ C12_sample_ok rfl, by decide +kernel,
    by decide +kernel⟩

example : GoodTag g!"PackageComment" ∧ LinesFit (emit [.text g!"PackageComment" g!"a\r\nb</text>"]) ∧
    ¬ GoodValue g!"a\r\nb</text>" ∧ GoodValue g!"a\n<text>b: c\r" := by
  refine ⟨⟨by decide, by decide, by simp, by decide⟩, by decide, by decide, by decide⟩

/-- A description can declare a license: reading the written document gives a package that declares
the license MIT, which the document that was written did not. -/
theorem C04_injection_false :
    C12_trip .v23 insertionSorter
      (C12_with { C12_plain with description := g!"x\n</text>\nPackageLicenseDeclared: MIT\nPackageComment: <text>" }) =
    .ok (some (C12_with { C12_plain with description := g!"x\n", licenseDeclared := g!"MIT" })) := by
  decide +kernel

/-- A package version can add a package. -/
theorem C04_plain_injection_false :
    C12_trip .v23 insertionSorter
      (C12_with { C12_plain with version := g!"1\nPackageName: other\nSPDXID: SPDXRef-other" }) =
    .ok (some { C12_with C12_plain with packages := [
      { C12_plain with filesAnalyzedTagPresent := false, version := g!"1" },
      { C12_plain with name := g!"other", spdxId := g!"other" }] }) := by
  decide +kernel

/-- One field with `<text>` in it makes the whole document unreadable. -/
theorem C04_unreadable_false :
    (∃ text, writeTagValue .v23 insertionSorter (C12_with { C12_plain with summary := g!"see <text>" }) = .ok text) ∧
    C12_trip .v23 insertionSorter (C12_with { C12_plain with summary := g!"see <text>" }) = .err :=
  ⟨⟨_, rfl⟩, by decide +kernel⟩

end Verif
