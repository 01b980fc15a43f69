import Verif.Lemmas.TextSays
import Verif.Lemmas.TVLines
import Verif.Props.C48_Meaning
import Verif.Props.C55_Sections
import Verif.Props.C56_LegalText

/-!
# C61: tag-value text is read as exactly what it says
-/

namespace Verif
open Spec

/-- **C61.** The pairs read from a text are those it consists of (see `PairsOf`), for every text. -/
theorem C61_pairs (text : Str) (ps : List TVPair) : readTagValues text = .ok ps ↔ PairsOf text ps := pairs_iff

/-- **C61.** A text consists of one list of pairs at most. -/
theorem C61_unambiguous (text : Str) (ps qs : List TVPair) (h : PairsOf text ps) (h' : PairsOf text qs) : ps = qs := by
  have e := (pairs_iff.2 h).symm.trans (pairs_iff.2 h')
  simpa using e

/-- **C61.** The pairs describe one document at most, up to the order of the snippet maps. -/
theorem C61_one (v : Version) (tvs : List TVPair) (d e : Doc) (h : TextSays v tvs d) (h' : TextSays v tvs e) : SameMaps d e :=
  text_one h h'

theorem pointwise_refl {α : Type} {R : α → α → Prop} (hR : ∀ a, R a a) : ∀ l : List α, Pointwise R l l
  | [] => .nil
  | a :: l => .cons (hR a) (pointwise_refl hR l)

/-- **C61.** Pairs are read as a document exactly if they are legal and describe it. -/
theorem C61_document (v : Version) (tvs : List TVPair) (hn : PackagesNamed tvs) (d : Doc) :
    (∃ e, parseTagValues v tvs = .ok (some e) ∧ SameMaps e d) ↔ tvs ≠ [] ∧ LegalText v tvs ∧ TextSays v tvs d := by
  have key : ∀ e, parseTagValues v tvs = .ok (some e) → TextSays v tvs e := fun e h =>
    ⟨C48_document v tvs e h, (C55_sections v tvs e h hn).1, (C55_sections v tvs e h hn).2⟩
  constructor
  · rintro ⟨e, h, hs⟩
    obtain ⟨h1, h2⟩ := (C56_legal v tvs hn).1.1 ⟨e, h⟩
    exact ⟨h1, h2, text_same (key e h) hs⟩
  · rintro ⟨h1, h2, h3⟩
    obtain ⟨e, h⟩ := (C56_legal v tvs hn).1.2 ⟨h1, h2⟩
    exact ⟨e, h, text_one (key e h) h3⟩

/-- **C61.** A text that names its version is read as a document of that version exactly if its pairs are legal and
describe the document. -/
theorem C61_text (copy : Version → Version → Doc → Doc) (v : Version) (text : Str) (tvs : List TVPair) (name : Str)
    (hp : PairsOf text tvs) (hf : FirstVersion tvs name) (hv : VersionNamed name v) (hn : PackagesNamed tvs) (d : Doc) :
    (∃ e, readTagValueInto copy true v text = .ok e ∧ SameMaps e d) ↔ LegalText v tvs ∧ TextSays v tvs d := by
  have hne : tvs ≠ [] := by obtain ⟨b, a, rfl, -⟩ := hf; simp
  have hr := pairs_iff.2 hp
  have hdoc := C61_document v tvs hn d
  constructor
  · rintro ⟨e, h, hs⟩
    obtain ⟨tvs', name', v', d0, h1, h2, h3, h4, h5⟩ := (C38_dispatch copy v text).1 e h
    rw [hr, Res.ok.injEq] at h1
    subst h1
    have e1 : name' = name := by
      have g1 := firstVersion_stated h2
      have g2 := firstVersion_stated hf
      exact g1.symm.trans g2
    subst e1
    have e2 : v' = v := by
      rcases hv with ⟨a, rfl⟩ | ⟨a, rfl⟩ | ⟨a, rfl⟩ <;> rcases h3 with ⟨b, rfl⟩ | ⟨b, rfl⟩ | ⟨b, rfl⟩ <;>
        first | rfl | (rw [a] at b; simp at b)
    subst e2
    unfold ConvertedTo at h5
    rw [if_pos rfl] at h5
    subst h5
    exact (hdoc.1 ⟨e, h4, hs⟩).2
  · rintro ⟨h1, h2⟩
    obtain ⟨e, he, hs⟩ := hdoc.2 ⟨hne, h1, h2⟩
    obtain ⟨e', h3, h4⟩ := (C38_dispatch copy v text).2 tvs name v e hr hf hv he
    unfold ConvertedTo at h4
    rw [if_pos rfl] at h4
    subst h4
    exact ⟨e', h3, hs⟩

/-- A text with a comment, a blank line, carriage returns, a block of several lines and no line break at its end. -/
def text61 : Str := g!"# head\r\nSPDXVersion: SPDX-2.3\r\n\n  DocumentName :x <text>y</text> z\nDocumentComment: <text> one\r\n two: #\nthree</text>\nPackageName: p\nSPDXID: SPDXRef-p"

/-- Its pairs. -/
def pairs61 : List TVPair := [⟨g!"SPDXVersion", g!"SPDX-2.3"⟩, ⟨g!"DocumentName", g!"y"⟩,
  ⟨g!"DocumentComment", g!" one\n two: #\nthree"⟩, ⟨g!"PackageName", g!"p"⟩, ⟨g!"SPDXID", g!"SPDXRef-p"⟩]

/-- The text consists of these pairs, they are legal, and they describe a document. -/
theorem C61_sample : PairsOf text61 pairs61 ∧ FirstVersion pairs61 g!"SPDX-2.3" ∧ VersionNamed g!"SPDX-2.3" .v23 ∧
    PackagesNamed pairs61 ∧ LegalText .v23 pairs61 ∧
    ∃ d, TextSays .v23 pairs61 d ∧ d.name = g!"y" ∧ d.comment = g!" one\n two: #\nthree" ∧ d.packages.map (·.spdxId) = [g!"p"] := by
  have hn : PackagesNamed pairs61 := by decide
  have h : (match parseTagValues .v23 pairs61 with
    | .ok (some d) => decide (d.name = g!"y" ∧ d.comment = g!" one\n two: #\nthree" ∧ d.packages.map (·.spdxId) = [g!"p"])
    | _ => false) = true := by decide +kernel
  split at h
  · rename_i d hd
    have hs := (C61_document .v23 pairs61 hn d).1 ⟨d, hd, rfl, pointwise_refl (fun f => ⟨rfl, .refl _⟩) _,
      pointwise_refl (fun p => ⟨rfl, pointwise_refl (fun f => ⟨rfl, .refl _⟩) _⟩) _⟩
    exact ⟨pairs_iff.1 (by decide +kernel), ⟨[], _, rfl, by simp⟩, by simp [VersionNamed], hn, hs.2.1, d, hs.2.2, of_decide_eq_true h⟩
  · simp at h

/-- A block that is not closed, a line without a colon: no pairs. -/
example : ¬∃ ps, PairsOf g!"A: <text>b\nc" ps := by
  rintro ⟨ps, h⟩
  have := pairs_iff.2 h
  rw [show readTagValues g!"A: <text>b\nc" = .err by decide +kernel] at this
  simp at this

end Verif
