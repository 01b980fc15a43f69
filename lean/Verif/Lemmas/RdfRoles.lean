import Verif.Lemmas.RdfExample
import Verif.Spec.RdfRoles

/-!
# Deciding what the nodes of a given graph are used as
-/

namespace Verif
open Spec

/-- The nodes used in a way, as a list. -/
def usedByList (g : Graph) (ps : List Pred) : List Str := (g.triples.filter fun t => t.pred ∈ ps).map (·.object.id)
def relatedList (g : Graph) (c : Cls) : List Str :=
  (g.triples.filter fun t => t.pred = .relatedSpdxElement &&
    g.triples.any fun u => u.subject = t.object && u.pred = .type_ && Cls.ofStr u.object.id = c).map (·.object.id)

theorem mem_usedByList {g : Graph} {ps : List Pred} {id : Str} : UsedBy g ps id ↔ id ∈ usedByList g ps := by
  simp only [UsedBy, usedByList, List.mem_map, List.mem_filter, decide_eq_true_eq, and_assoc]

theorem mem_relatedList {g : Graph} {c : Cls} {id : Str} : RelatedAs g c id ↔ id ∈ relatedList g c := by
  simp only [RelatedAs, relatedList, List.mem_map, List.mem_filter, Bool.and_eq_true, decide_eq_true_eq, List.any_eq_true]
  constructor
  · rintro ⟨t, h1, h2, h3, u, h4, h5, h6, h7⟩; exact ⟨t, ⟨h1, h2, u, h4, ⟨h5, h6⟩, h7⟩, h3⟩
  · rintro ⟨t, ⟨h1, h2, u, h4, ⟨h5, h6⟩, h7⟩, h3⟩; exact ⟨t, h1, h2, h3, u, h4, h5, h6, h7⟩

def fileList (g : Graph) : List Str := usedByList g [.hasFile, .fileDependency, .snippetFromFile, .reference] ++ relatedList g .file
def packageList (g : Graph) : List Str := usedByList g [.describesPackage] ++ relatedList g .package
def licenseList (g : Graph) : List Str :=
  usedByList g [.licenseConcluded, .licenseInfoInFile, .licenseDeclared, .dataLicense, .licenseInfoInSnippet, .member]

theorem mem_fileList {g : Graph} {id : Str} : UsedAsFile g id ↔ id ∈ fileList g := by
  simp only [UsedAsFile, fileList, List.mem_append, mem_usedByList, mem_relatedList]

theorem mem_packageList {g : Graph} {id : Str} : UsedAsPackage g id ↔ id ∈ packageList g := by
  simp only [UsedAsPackage, packageList, List.mem_append, mem_usedByList, mem_relatedList]

theorem oneRole_of {g : Graph}
    (h1 : ∀ id ∈ fileList g, id ∉ packageList g ∧ id ∉ licenseList g ∧ id ∉ usedByList g [.relationship])
    (h2 : ∀ id ∈ packageList g, id ∉ licenseList g ∧ id ∉ usedByList g [.relationship]) : OneRole g where
  file id h := by
    simp only [mem_packageList, UsedAsLicense, UsedAsRelationship, mem_usedByList]
    exact h1 id (mem_fileList.1 h)
  package id h := by
    simp only [UsedAsLicense, UsedAsRelationship, mem_usedByList]
    exact h2 id (mem_packageList.1 h)

theorem distinctNames_of {g : Graph}
    (h1 : ∀ x ∈ fileList g, ∀ y ∈ fileList g,
      extractElementID (lastPart (trimSpace x)) = extractElementID (lastPart (trimSpace y)) → x = y)
    (h2 : ∀ x ∈ packageList g, ∀ y ∈ packageList g, extractElementID (lastPart x) = extractElementID (lastPart y) → x = y) :
    DistinctNames g where
  file x y _ hx hy ex ey := h1 x (mem_fileList.1 hx) y (mem_fileList.1 hy) (Eq.trans ex (Eq.symm ey))
  package x y _ hx hy ex ey := h2 x (mem_packageList.1 hx) y (mem_packageList.1 hy) (Eq.trans ex (Eq.symm ey))

end Verif
