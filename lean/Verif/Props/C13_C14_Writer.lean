import Verif.Lemmas.Writer

/-!
# C13, C14: the tag-value writer
-/

namespace Verif
open Spec

/-- **C13.** Two documents that differ only in the order of packages, files and external document
references (and in the order the entries of a snippet map happen to have) are written as the same
text, whatever sorting algorithm each call uses, provided the identifiers that decide the order are
distinct. -/
theorem C13_output_independent_of_order (v : Version) (so so' : Sorter) (d e : Doc)
    (same : SameDoc d e) (distinct : DistinctIds d) : writeTagValue v so d = writeTagValue v so' e := by
  have hc : e.creationInfo = d.creationInfo := by rw [same.rest]
  unfold writeTagValue renderDocument
  rw [hc]
  cases d.creationInfo with
  | none => rfl
  | some ci => simp only [Res.bind_ok]; rw [renderBody_same so so' same distinct ci]

/-- Two packages, one with two files, in both orders. -/
def C13_sample (swap : Bool) : Doc :=
  let f1 : FileV := { name := g!"a", spdxId := g!"f1" }
  let f2 : FileV := { name := g!"b", spdxId := g!"f2" }
  let p1 (fs : List FileV) : PackageV := { name := g!"p", spdxId := g!"P1", files := fs }
  let p2 : PackageV := { name := g!"q", spdxId := g!"P2" }
  if swap then { creationInfo := some {}, packages := [p2, p1 [f2, f1]], files := [f2, f1] }
  else { creationInfo := some {}, packages := [p1 [f1, f2], p2], files := [f1, f2] }

example : SameDoc (C13_sample false) (C13_sample true) ∧ DistinctIds (C13_sample false) ∧
    C13_sample false ≠ C13_sample true := by
  refine ⟨⟨rfl, .refl _, ?_, ?_⟩, ⟨by decide, by decide, by decide, by decide, by decide⟩, by decide⟩
  · exact ⟨_, .swap .., .cons ⟨rfl, .refl _⟩ (.cons ⟨rfl, .refl _⟩ .nil)⟩
  · exact ⟨_, .swap .., .cons (SamePackage.refl _)
      (.cons ⟨rfl, _, .swap .., .cons ⟨rfl, .refl _⟩ (.cons ⟨rfl, .refl _⟩ .nil)⟩ .nil)⟩

/-- Distinctness is needed: with two packages of the same identifier the order shows. -/
theorem C13_equal_ids_false : ∃ (so : Sorter) (d e : Doc), SameDoc d e ∧
    writeTagValue .v23 so d ≠ writeTagValue .v23 so e := by
  refine ⟨insertionSorter,
    { creationInfo := some {}, packages := [{ name := g!"a", spdxId := g!"P" }, { name := g!"b", spdxId := g!"P" }] },
    { creationInfo := some {}, packages := [{ name := g!"b", spdxId := g!"P" }, { name := g!"a", spdxId := g!"P" }] },
    ⟨rfl, .refl _, ⟨[], .refl _, .nil⟩, ⟨_, .swap .., Pointwise.refl SamePackage.refl _⟩⟩, ?_⟩
  decide +kernel

/-- **C14.** Writing fails exactly if the document has no creation info, and never panics. -/
theorem C14_fails_iff_no_creation_info (v : Version) (so : Sorter) (d : Doc) :
    (writeTagValue v so d = .err ↔ d.creationInfo = none) ∧ writeTagValue v so d ≠ .panic := by
  unfold writeTagValue renderDocument
  cases d.creationInfo <;> simp

/-- **C14.** The caller's document after a successful write: the same document with references,
unpackaged files, packages and each package's files in the order of their identifiers; no element
has been changed, added or lost. -/
theorem C14_only_reorders (v : Version) (so : Sorter) (d d' : Doc) (is : List Item)
    (h : renderDocument v so d = .ok (is, d')) :
    SameDoc d d' ∧
    (d.externalDocumentRefs.Perm d'.externalDocumentRefs ∧ d.files.Perm d'.files ∧
      ∃ ps, d.packages.Perm ps ∧
        Pointwise (fun p q => q = { p with files := q.files } ∧ p.files.Perm q.files) ps d'.packages) ∧
    SortedBy (·.documentRefID) d'.externalDocumentRefs ∧ SortedBy (·.spdxId) d'.files ∧
    SortedBy (·.spdxId) d'.packages ∧ ∀ p ∈ d'.packages, SortedBy (·.spdxId) p.files := by
  unfold renderDocument at h
  split at h
  · simp at h
  · simp only [Res.ok.injEq, Prod.mk.injEq] at h
    obtain ⟨-, rfl⟩ := h
    have hq : ∀ p : PackageV, (fun p q : PackageV => q = { p with files := q.files } ∧ p.files.Perm q.files) p
        (sortPackageFiles so p) := fun p => ⟨rfl, (so.perm _ _).symm⟩
    refine ⟨⟨rfl, (so.perm _ _).symm, ⟨_, (so.perm _ _).symm, Pointwise.refl SameFile.refl _⟩,
        ⟨_, (so.perm _ _).symm, Pointwise.map_right _ ?_⟩⟩,
      ⟨(so.perm _ _).symm, (so.perm _ _).symm, _, (so.perm _ _).symm, Pointwise.map_right _ fun p _ => hq p⟩,
      so.sorted _ _, so.sorted _ _, ?_, ?_⟩
    · intro p _
      exact ⟨rfl, _, (so.perm _ _).symm, Pointwise.refl SameFile.refl _⟩
    · exact List.pairwise_map.2 (so.sorted _ _)
    · intro p hp
      obtain ⟨q, _, rfl⟩ := List.mem_map.1 hp
      exact so.sorted _ _

/-- A document with creation info is written, one without is not. -/
example : (writeTagValue .v23 insertionSorter (C13_sample true)).isOk = true ∧
    writeTagValue .v23 insertionSorter { C13_sample true with creationInfo := none } = .err ∧
    (sortDocument insertionSorter (C13_sample true)).packages = (C13_sample false).packages := by decide +kernel

end Verif
