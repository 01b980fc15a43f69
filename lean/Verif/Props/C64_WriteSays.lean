import Verif.Lemmas.WriteSays
import Verif.Lemmas.SameDoc
import Verif.Props.C12_RoundTrip
import Verif.Props.C61_TextSays

/-!
# C64: what is written says the document
-/

namespace Verif
open Spec

/-- **C64.** The text written for a representable document consists of pairs, and no others; these are legal; and what
they say is the document in order, and nothing but the document. -/
theorem C64_text_says (v : Version) (so : Sorter) (d : Doc) (text : Str) (representable : Representable v d)
    (written : writeTagValue v so d = .ok text) (fit : LinesFit text) :
    ∃ tvs, PairsOf text tvs ∧ (∀ tvs', PairsOf text tvs' → tvs' = tvs) ∧ PackagesNamed tvs ∧ LegalText v tvs ∧
      (∃ d', TextSays v tvs d' ∧ InOrder d') ∧ (∀ d', TextSays v tvs d' → SameDoc d d') := by
  obtain ⟨d', h1, h2, h3⟩ := C12_write_then_read v so d text representable written fit
  obtain ⟨ci, hd, hci⟩ := representable.creationInfo
  simp only [writeTagValue, renderDocument, hd, Res.bind_ok, Res.ok.injEq] at written
  subst written
  have hr := read_items _ (fun i hi => ⟨shaped_body v so d ci i hi, clean_body so representable hci i hi⟩) fit
  rw [hr, Res.bind_ok] at h1
  have hn := packagesNamed_pairs (packagesNamed_body v so d ci)
  obtain ⟨-, h4, h5⟩ := (C61_document v _ hn d').1 ⟨d', h1, rfl, pointwise_refl (fun f => ⟨rfl, .refl _⟩) _,
      pointwise_refl (fun p => ⟨rfl, pointwise_refl (fun f => ⟨rfl, .refl _⟩) _⟩) _⟩
  have hp := (C61_pairs _ _).1 hr
  exact ⟨_, hp, fun tvs' h => C61_unambiguous _ _ _ h hp, hn, h4, ⟨d', h5, h3⟩,
    fun e he => sameDoc_trans h2 (sameMaps_sameDoc (C61_one v _ d' e h5 he))⟩

/-- **C64.** Two documents have the same text exactly if they are the same document. -/
theorem C64_same_text_iff (v : Version) (so so' : Sorter) (d e : Doc) (text text' : Str) (hd : Representable v d)
    (he : Representable v e) (written : writeTagValue v so d = .ok text) (written' : writeTagValue v so' e = .ok text')
    (fit : LinesFit text) (distinct : DistinctIds d) : text = text' ↔ SameDoc d e := by
  constructor
  · rintro rfl
    obtain ⟨tvs, h1, h2, -, -, ⟨x, h3, -⟩, h4⟩ := C64_text_says v so d text hd written fit
    obtain ⟨tvs', g1, -, -, -, -, g4⟩ := C64_text_says v so' e text he written' fit
    obtain rfl := h2 _ g1
    exact sameDoc_trans (h4 x h3) (sameDoc_symm (g4 x h3))
  · intro h
    have := C13_output_independent_of_order v so so' d e h distinct
    rw [written, written'] at this
    simpa using this

/-- Both hypotheses are met by the sample of C12, which is not in order. -/
example : Representable .v22 C12_sample ∧ DistinctIds C12_sample ∧ ∃ text, writeTagValue .v22 insertionSorter C12_sample = .ok text ∧
    LinesFit text := by
  exact ⟨C12_sample_ok, by constructor <;> decide, _, rfl, by decide +kernel⟩

end Verif
