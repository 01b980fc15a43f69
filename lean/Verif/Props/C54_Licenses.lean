import Verif.Spec.LicenseNames
import Verif.Spec.RdfLicense
import Verif.Lemmas.RdfSays

/-!
# C54: the names of licenses in an RDF graph
-/

namespace Verif
open Spec Spec.Rdf

/-- C54: the license list of the reader, which has an empty name in it. -/
theorem C54_license_list (x : Str) : x ∈ allStandardLicenseIDs ↔ x = [] ∨ x ∈ licenseNames := by
  have h1 : licenseNames = allStandardLicenseIDs.filter (· ≠ []) := by decide +kernel
  have h2 : [] ∈ allStandardLicenseIDs := by decide +kernel
  rw [h1, List.mem_filter]
  by_cases h : x = []
  · subst h; simp [h2]
  · simp [h]

/-- C54: a node of which only its URI is known is a license exactly if the URI is one of `NONE`, `NOASSERTION` or ends
in a name of the list. -/
theorem C54_licenses (uri id : Str) : SpecialName uri id ↔ StandardName uri id := by
  have e1 : spdxNoneCaps = spdxNs ++ g!"NONE" := by decide +kernel
  have e2 : spdxNoneSmall = spdxNs ++ g!"none" := by decide +kernel
  have e3 : spdxNoassertionCaps = spdxNs ++ g!"NOASSERTION" := by decide +kernel
  have e4 : spdxNoassertionSmall = spdxNs ++ g!"noassertion" := by decide +kernel
  simp only [SpecialName, StandardName, e1, e2, e3, e4, C54_license_list, lastPart_iff, ne_eq, not_or, and_assoc]
  constructor
  · rintro (h | h | ⟨h1, h2, h3, h4, h5, h6⟩)
    · exact .inl h
    · exact .inr (.inl h)
    · exact .inr (.inr ⟨h1, h2, h3, h4, h5.symm, h6⟩)
  · rintro (h | h | ⟨h1, h2, h3, h4, h5, h6⟩)
    · exact .inl h
    · exact .inr (.inl h)
    · exact .inr (.inr ⟨h1, h2, h3, h4, h5.symm, h6⟩)

/-- Three names. -/
theorem C54_licenses_sample : SpecialName g!" http://spdx.org/licenses/Zlib" g!"Zlib" ∧ SpecialName g!"http://spdx.org/rdf/terms#none" g!"NONE" ∧
    ¬ SpecialName g!"http://spdx.org/licenses/zlib" g!"zlib" := by
  refine ⟨?_, ?_, ?_⟩
  all_goals
    unfold SpecialName
    decide +kernel

/-- Every license that is read has a name: false.  The list has an empty entry, so a URI that ends in a slash is one. -/
theorem C54_empty_name_false : ¬ ∀ uri id, SpecialName uri id → id ≠ [] := by
  intro h
  refine h g!"http://spdx.org/licenses/" [] ?_ rfl
  unfold SpecialName
  decide +kernel

end Verif
