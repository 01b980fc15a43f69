import Verif.Lemmas.RdfLegalOnly
import Verif.Props.C49_C53_RdfContent

/-!
# C54: which RDF graphs are read

`Legal` (`Spec/RdfLegal`) says that a graph describes one document, and that everything that is said about the parts of it
can be read; `FileSays` and the others say as what (`Spec/RdfElements`).
-/

namespace Verif
open Spec Spec.Rdf

/-- C54: a legal graph is read. -/
theorem C54_accepted (v : Version) (o : MapOrder) (g : Graph) (h1 : OneRole g) (h2 : DistinctNames g) (h3 : LicensesApart g) (hl : Legal v g) :
    ∃ d, loadGraph v o g = .ok d := by
  rcases C42_no_panic v o g (legal_rootsTyped hl) h1 with h | h
  · exact absurd h (load_fine ⟨h1, h2⟩ h3 hl)
  · exact h

/-- C54: nothing else is read. -/
theorem C54_only_legal (v : Version) (o : MapOrder) (g : Graph) (h1 : OneRole g) (h2 : DistinctNames g) (h3 : NamedNodes g) (h4 : OneOwner g)
    (h5 : SnippetFilesTrimmed g) (d : Doc) (h : loadGraph v o g = .ok d) : Legal v g :=
  load_legal ⟨h1, h2⟩ h3 h4 h5 h

theorem version_iff (g : Graph) (v : Version) : SaysVersion g v ↔
    ((v = .v22 ∧ graphVersion g = some g!"SPDX-2.2") ∨ (v = .v23 ∧ graphVersion g = some g!"SPDX-2.3")) := by
  have key : ∀ x : Str, x ≠ [] → ((∃ before t after, g.triples = before ++ t :: after ∧ (∀ u ∈ before, u.pred ≠ .specVersion) ∧
      t.pred = .specVersion ∧ t.object.id = x) ↔ graphVersion g = some x) := by
    intro x hx
    unfold graphVersion
    constructor
    · rintro ⟨b, t, a, h1, h2, h3, h4⟩
      have : g.triples.find? (fun t => t.pred = .specVersion) = some t := by
        rw [List.find?_eq_some_iff_append]
        exact ⟨by simp [h3], b, a, h1, fun u hu => by simpa using h2 u hu⟩
      rw [this]
      simp [h4, hx]
    · intro h
      cases e : g.triples.find? (fun t => t.pred = .specVersion) with
      | none => rw [e] at h; simp at h
      | some t =>
        rw [e] at h
        obtain ⟨h1, b, a, h2, h3⟩ := List.find?_eq_some_iff_append.1 e
        dsimp only at h
        split at h
        · simp at h
        · injection h with h
          exact ⟨b, t, a, h2, fun u hu => by simpa using h3 u hu, by simpa using h1, h⟩
  rw [← key g!"SPDX-2.2" (by simp), ← key g!"SPDX-2.3" (by simp)]
  unfold SaysVersion
  constructor
  · rintro ⟨b, t, a, h1, h2, h3, ⟨hv, h4⟩ | ⟨hv, h4⟩⟩
    · exact .inl ⟨hv, b, t, a, h1, h2, h3, h4⟩
    · exact .inr ⟨hv, b, t, a, h1, h2, h3, h4⟩
  · rintro (⟨hv, b, t, a, h1, h2, h3, h4⟩ | ⟨hv, b, t, a, h1, h2, h3, h4⟩)
    · exact ⟨b, t, a, h1, h2, h3, .inl ⟨hv, h4⟩⟩
    · exact ⟨b, t, a, h1, h2, h3, .inr ⟨hv, h4⟩⟩

theorem readGraph_ok (o : MapOrder) (g : Graph) (d : Doc) : readGraph o g = .ok d ↔ ∃ v, SaysVersion g v ∧ loadGraph v o g = .ok d := by
  have hne : g!"SPDX-2.3" ≠ g!"SPDX-2.2" := by decide
  unfold readGraph
  constructor
  · intro h
    cases e : graphVersion g with
    | none => rw [e] at h; simp at h
    | some x =>
      rw [e] at h
      dsimp only at h
      split at h
      · next hx => subst hx; exact ⟨.v22, (version_iff g _).2 (.inl ⟨rfl, e⟩), h⟩
      · split at h
        · next hx => subst hx; exact ⟨.v23, (version_iff g _).2 (.inr ⟨rfl, e⟩), h⟩
        · simp at h
  · rintro ⟨v, hv, h⟩
    rcases (version_iff g v).1 hv with ⟨rfl, e⟩ | ⟨rfl, e⟩
    · rw [e]; dsimp only; rw [if_pos rfl]; exact h
    · rw [e]; dsimp only; rw [if_neg hne, if_pos rfl]; exact h

/-- C54: exactly the legal graphs that give a known version are read, among those whose nodes have one role and one name. -/
theorem C54_read (o : MapOrder) (g : Graph) (h1 : OneRole g) (h2 : DistinctNames g) (h3 : LicensesApart g) (h4 : NamedNodes g) (h5 : OneOwner g)
    (h6 : SnippetFilesTrimmed g) : (∃ d, readGraph o g = .ok d) ↔ ∃ v, SaysVersion g v ∧ Legal v g := by
  constructor
  · rintro ⟨d, h⟩
    obtain ⟨v, hv, h⟩ := (readGraph_ok o g d).1 h
    exact ⟨v, hv, C54_only_legal v o g h1 h2 h4 h5 h6 d h⟩
  · rintro ⟨v, hv, hl⟩
    obtain ⟨d, h⟩ := C54_accepted v o g h1 h2 h3 hl
    exact ⟨d, (readGraph_ok o g d).2 ⟨v, hv, h⟩⟩

/-! ## Examples -/

theorem apart_of {g : Graph} (h : ∀ t ∈ g.triples, t.pred = .relationship → ∀ u ∈ g.triples,
    u.pred ∈ [.licenseConcluded, .licenseInfoInFile, .licenseDeclared, .dataLicense, .licenseInfoInSnippet, .member] → u.object.id ≠ t.object.id) :
    LicensesApart g := by
  rintro id ⟨u, hu, hup, rfl⟩ ⟨t, ht, htp, e⟩
  simp only [List.mem_singleton] at htp
  exact h t ht htp u hu hup e.symm

theorem rdfRich_apart : LicensesApart rdfRich := apart_of (by decide +kernel)
theorem rdfRich_trimmed : SnippetFilesTrimmed rdfRich := by
  have : ∀ t ∈ rdfRich.triples, t.pred = .snippetFromFile → trimSpace t.object.id = t.object.id := by decide +kernel
  exact this

theorem rdfRich_legal : Legal .v23 rdfRich := by
  have : (loadGraph .v23 .same rdfRich).map shownNames =
      .ok (g!"SPDXRef-DOCUMENT", g!"http://ex.org/d", g!"doc", some [{ creatorType := g!"Tool", creator := g!"x" }]) := by decide +kernel
  obtain ⟨d, h, _⟩ := ROut.map_ok this
  exact C54_only_legal _ _ _ rdfRich_roles rdfRich_names rdfRich_nodes rdfRich_owner rdfRich_trimmed d h

/-- Non-vacuity: the graph meets all the conditions, and the document leads to a file that another file depends on. -/
example : OneRole rdfRich ∧ DistinctNames rdfRich ∧ LicensesApart rdfRich ∧ NamedNodes rdfRich ∧ OneOwner rdfRich ∧
    SnippetFilesTrimmed rdfRich ∧ Legal .v23 rdfRich ∧ SaysVersion rdfRich .v23 ∧ Leads rdfRich (.file (iriNode (exId g!"h"))) := by
  refine ⟨rdfRich_roles, rdfRich_names, rdfRich_apart, rdfRich_nodes, rdfRich_owner, rdfRich_trimmed, rdfRich_legal, ?_, ?_⟩
  · exact (version_iff _ _).2 (.inr ⟨rfl, by decide +kernel⟩)
  · have hd : IsDocumentNode rdfRich (iriNode (exId g!"DOCUMENT")) := by unfold IsDocumentNode; decide +kernel
    have h1 : Leads rdfRich (.package (iriNode (exId g!"p"))) :=
      .described (t := linkTo (exId g!"DOCUMENT") (spdxTerm g!"describesPackage") (exId g!"p")) hd (by decide +kernel) (by decide +kernel)
    have h2 : Leads rdfRich (.file (iriNode (exId g!"f"))) :=
      .contained (t := linkTo (exId g!"p") (spdxTerm g!"hasFile") (exId g!"f")) h1 (by decide +kernel) (by decide +kernel)
    exact .dependency (t := linkTo (exId g!"f") (spdxTerm g!"fileDependency") (exId g!"h")) h2 (by decide +kernel) (by decide +kernel)

end Verif
