import Verif.Lemmas.SectionFields

set_option linter.unusedSimpArgs false

/-!
# What one pair does to the packages, files and snippets
-/

namespace Verif
open Spec

/-- The packages, files and snippets of a parser state, and where it is in them. -/
structure Seen where
  st : PState
  pkg : Option Nat
  file : Option Nat
  snippet : Option Nat
  docP : List Nat
  docF : List Nat
  pkgs : List (Package Nat)
  files : List (File Nat)
  snips : List Snippet

def seen (s : Parser) : Seen where
  st := s.st
  pkg := s.pkg
  file := s.file
  snippet := s.snippet
  docP := match s.doc with | none => [] | some d => d.packages
  docF := match s.doc with | none => [] | some d => d.files
  pkgs := s.pkgs
  files := s.files
  snips := s.snips

/-- Nothing about packages, files and snippets has changed. -/
def Unmoved (s s' : Parser) : Prop := seen s' = seen s ∧ s'.pkgExtRef = s.pkgExtRef ∧ s'.fileAOP = s.fileAOP

theorem unmoved_modDoc {s s' : Parser} {f : HDoc → HDoc} (h : s.modDoc f = .ok s')
    (hf : ∀ d, (f d).packages = d.packages ∧ (f d).files = d.files) : Unmoved s s' := by
  obtain ⟨d, hd, rfl⟩ := modDoc_ok h
  exact ⟨by simp [seen, hd, hf], rfl, rfl⟩

theorem unmoved_modAnn {s s' : Parser} {f} (h : modAnn s f = .ok s') : Unmoved s s' := by
  unfold modAnn at h
  split at h
  · simp at h
  · exact unmoved_modDoc h (fun d => ⟨rfl, rfl⟩)

theorem unmoved_shared {v s tag value s'} (h : parseShared v s tag value = .ok s') : Unmoved s s' := by
  unfold parseShared at h
  split at h
  · unfold parseForRelationship at h
    simp only at h
    split at h
    · simp at h
    · rename_i d hd
      rw [bind_eq_ok] at h; obtain ⟨r, _, h⟩ := h; simp at h; rw [← h]
      exact ⟨by simp [seen, hd], rfl, rfl⟩
  · unfold parseForRelationship at h
    simp only at h
    split at h
    · simp at h
    · exact unmoved_modDoc h (fun d => ⟨rfl, rfl⟩)
  · unfold parseForAnnotation at h
    simp only at h
    split at h
    · simp at h
    · rename_i d hd
      rw [bind_eq_ok] at h; obtain ⟨r, _, h⟩ := h; simp at h; rw [← h]
      exact ⟨by simp [seen, hd], rfl, rfl⟩
  · exact unmoved_modAnn h
  · exact unmoved_modAnn h
  · unfold parseForAnnotation at h
    simp only at h
    split at h
    · simp at h
    · rw [bind_eq_ok] at h; obtain ⟨r, _, h⟩ := h; exact unmoved_modAnn h
  · exact unmoved_modAnn h
  · simp at h

theorem modify_concat {α : Type} (l : List α) (x : α) (f : α → α) {n : Nat} (hn : n = l.length) :
    (l ++ [x]).modify n f = l ++ [f x] := by subst hn; exact modify_last ..

/-! ## In a package section -/

/-- A pair in a package section that opens no other section. -/
theorem view_package {v : Version} {s s' : Parser} {tag : Tag} {value : Str} {P : List (Package Nat)} {p : Package Nat}
    (h : parseFromPackage v s tag value = .ok s') (hP : s.pkgs = P ++ [p]) (hp : s.pkg = some P.length)
    (hext : ∀ n, s.pkgExtRef = some n → lastIdx p.externalRefs = some n)
    (n1 : tag ≠ .packageName) (n2 : tag ≠ .fileName) (n3 : tag ≠ .licenseID) (n4 : tag ≠ .reviewer) :
    ∃ p', PkgStep v tag value s.pkgExtRef p p' ∧ seen s' = { seen s with
        pkgs := P ++ [p'], docP := (seen s).docP ++ (if tag = .spdxID then [P.length] else []) } ∧
      (∀ n, s'.pkgExtRef = some n → lastIdx p'.externalRefs = some n) ∧
      (s'.pkgExtRef ≠ none ↔ tag = .externalRef) := by
  have mod : ∀ (s0 : Parser) (f : Package Nat → Package Nat), s0.modPkg f = .ok s' → seen s0 = seen s → s0.pkgExtRef = none →
      seen s' = { seen s with pkgs := P ++ [f p] } ∧ s'.pkgExtRef = none := by
    intro s0 f h0 hv he
    obtain ⟨i, hi, rfl⟩ := modPkg_ok h0
    have h1 : s0.pkg = s.pkg := congrArg Seen.pkg hv
    have h2 : s0.pkgs = s.pkgs := congrArg Seen.pkgs hv
    rw [h1, hp] at hi
    simp only [Option.some.injEq] at hi
    subst hi
    refine ⟨?_, he⟩
    rw [← hv]
    simp only [seen]
    rw [h2, hP, modify_concat _ _ _ rfl]
  unfold parseFromPackage at h
  simp only at h
  by_cases hc : tag = .externalRefComment
  · subst hc
    simp only [ne_eq, not_true_eq_false, if_false] at h
    cases hx : s.pkgExtRef with
    | none => simp [hx] at h
    | some n =>
      rw [hx] at h
      simp only [bind_eq_ok] at h
      obtain ⟨s1, h1, h⟩ := h
      simp only [Res.ok.injEq] at h
      obtain ⟨i, hi, rfl⟩ := modPkg_ok h1
      rw [hp] at hi
      simp only [Option.some.injEq] at hi
      subst hi h
      refine ⟨_, ⟨n, rfl, hext n hx, rfl⟩, ?_, by simp, by simp⟩
      simp only [seen]
      rw [hP, modify_concat _ _ _ rfl]
      simp
  · rw [if_pos hc] at h
    split at h
    all_goals first
      | exact absurd rfl n1
      | exact absurd rfl n2
      | exact absurd rfl n3
      | exact absurd rfl n4
      | exact absurd rfl hc
      | (obtain ⟨h1, h2⟩ := mod _ _ h rfl rfl
         exact ⟨_, rfl, by rw [h1]; simp, by simp [h2], by simp [h2]⟩)
      | (rw [bind_eq_ok] at h
         obtain ⟨x, hx, h⟩ := h
         obtain ⟨h1, h2⟩ := mod _ _ h rfl rfl
         exact ⟨_, ⟨x, hx, rfl⟩, by rw [h1]; simp, by simp [h2], by simp [h2]⟩)
      | (split at h
         · simp at h
         · rename_i hv
           obtain ⟨h1, h2⟩ := mod _ _ h rfl rfl
           exact ⟨_, ⟨hv, rfl⟩, by rw [h1]; simp, by simp [h2], by simp [h2]⟩)
      | (split at h
         · rename_i hv
           obtain ⟨h1, h2⟩ := mod _ _ h rfl rfl
           exact ⟨_, ⟨hv, rfl⟩, by rw [h1]; simp, by simp [h2], by simp [h2]⟩
         · simp at h)
      | skip
    · -- SPDXID
      rw [bind_eq_ok] at h
      obtain ⟨e, he, h⟩ := h
      rw [bind_eq_ok] at h
      obtain ⟨s1, h1, h⟩ := h
      obtain ⟨i, hi, rfl⟩ := modPkg_ok h1
      have hi' : s.pkg = some i := hi
      rw [hp] at hi'
      simp only [Option.some.injEq] at hi'
      subst hi'
      simp only [hp] at h
      obtain ⟨d, hd, rfl⟩ := modDoc_ok h
      simp only at hd
      refine ⟨_, ⟨e, he, rfl⟩, ?_, by simp, by simp⟩
      simp only [seen, hd]
      rw [hP, modify_concat _ _ _ rfl]
      simp [hp]
    · -- ExternalRef
      simp only [hp] at h
      rw [bind_eq_ok] at h
      obtain ⟨x, hx, h⟩ := h
      rw [bind_eq_ok] at h
      obtain ⟨s1, h1, h⟩ := h
      obtain ⟨i, hi, rfl⟩ := modPkg_ok h1
      simp only [Option.some.injEq] at hi
      subst hi
      simp only [Res.ok.injEq] at h
      subst h
      refine ⟨_, ⟨x, hx, rfl⟩, ?_, ?_, by simp⟩
      · simp only [seen]
        rw [hP, modify_concat _ _ _ rfl]
        simp [hp]
      · intro n hn
        simp only [hP, Option.some.injEq] at hn
        simp at hn
        rw [lastIdx_snoc, hn]
    · -- shared
      rename_i hother
      obtain ⟨h1, h2, h3⟩ := unmoved_shared h
      refine ⟨p, ?_, ?_, ?_, ?_⟩
      · unfold PkgStep
        split <;> first | rfl | (exfalso; simp_all; done)
      · rw [h1]
        have : tag ≠ .spdxID := by intro hh; simp_all
        rw [if_neg this, List.append_nil, ← hP]
        rfl
      · simp [h2]
      · have : tag ≠ .externalRef := by intro hh; simp_all
        simp [h2, this]

/-! ## In a file section -/

/-- A pair in a file section that opens no other section. -/
theorem view_file {v : Version} {s s' : Parser} {tag : Tag} {value : Str} {B : List (File Nat)} {f : File Nat}
    (h : parseFromFile v s tag value = .ok s') (hB : s.files = B ++ [f]) (hf : s.file = some B.length)
    (haop : ∀ n, s.fileAOP = some n → lastIdx f.artifactOfProjects = some n)
    (n1 : tag ≠ .packageName) (n2 : tag ≠ .fileName) (n3 : tag ≠ .licenseID) (n4 : tag ≠ .reviewer)
    (n5 : tag ≠ .snippetSPDXID) :
    ∃ f', FileStep v tag value s.fileAOP f f' ∧ seen s' = { seen s with
        files := B ++ [f']
        docF := (seen s).docF ++ (if tag = .spdxID ∧ s.pkg = none then [B.length] else [])
        pkgs := if tag = .spdxID then (match s.pkg with
          | none => s.pkgs
          | some i => s.pkgs.modify i fun p => { p with files := p.files ++ [B.length] }) else s.pkgs } ∧
      (∀ n, s'.fileAOP = some n → lastIdx f'.artifactOfProjects = some n) ∧
      (s'.fileAOP ≠ none ↔
        tag = .artifactOfProjectName ∨ tag = .artifactOfProjectHomePage ∨ tag = .artifactOfProjectURI) := by
  have mod : ∀ (s0 : Parser) (g : File Nat → File Nat), s0.modFile g = .ok s' → seen s0 = seen s → s0.fileAOP = none →
      seen s' = { seen s with files := B ++ [g f] } ∧ s'.fileAOP = none := by
    intro s0 g h0 hv he
    obtain ⟨i, hi, rfl⟩ := modFile_ok h0
    have h1 : s0.file = s.file := congrArg Seen.file hv
    have h2 : s0.files = s.files := congrArg Seen.files hv
    rw [h1, hf] at hi
    simp only [Option.some.injEq] at hi
    subst hi
    refine ⟨?_, he⟩
    rw [← hv]
    simp only [seen]
    rw [h2, hB, modify_concat _ _ _ rfl]
  have keep : ∀ n g, s.fileAOP = some n → s.modFile (fun f => { f with artifactOfProjects := f.artifactOfProjects.modify n g }) = .ok s' →
      seen s' = { seen s with files := B ++ [{ f with artifactOfProjects := f.artifactOfProjects.modify n g }] } ∧
      s'.fileAOP = some n := by
    intro n g hx h0
    obtain ⟨i, hi, rfl⟩ := modFile_ok h0
    rw [hf] at hi
    simp only [Option.some.injEq] at hi
    subst hi
    refine ⟨?_, hx⟩
    simp only [seen]
    rw [hB, modify_concat _ _ _ rfl]
  unfold parseFromFile at h
  simp only at h
  by_cases hc1 : tag = .artifactOfProjectHomePage
  · subst hc1
    simp only [ne_eq, not_true_eq_false, false_and, if_false] at h
    cases hx : s.fileAOP with
    | none => simp [hx] at h
    | some n =>
      rw [hx] at h
      simp only at h
      obtain ⟨h1, h2⟩ := keep n _ hx h
      refine ⟨_, ⟨n, rfl, haop n hx, rfl⟩, by rw [h1]; simp [seen], ?_, by simp [h2]⟩
      intro m hm
      rw [lastIdx_modify, haop n hx, ← h2, hm]
  by_cases hc2 : tag = .artifactOfProjectURI
  · subst hc2
    simp only [ne_eq, not_true_eq_false, and_false, if_false] at h
    cases hx : s.fileAOP with
    | none => simp [hx] at h
    | some n =>
      rw [hx] at h
      simp only at h
      obtain ⟨h1, h2⟩ := keep n _ hx h
      refine ⟨_, ⟨n, rfl, haop n hx, rfl⟩, by rw [h1]; simp [seen], ?_, by simp [h2]⟩
      intro m hm
      rw [lastIdx_modify, haop n hx, ← h2, hm]
  rw [if_pos ⟨hc1, hc2⟩] at h
  split at h
  all_goals first
    | exact absurd rfl n1
    | exact absurd rfl n2
    | exact absurd rfl n3
    | exact absurd rfl n4
    | exact absurd rfl n5
    | exact absurd rfl hc1
    | exact absurd rfl hc2
    | (obtain ⟨h1, h2⟩ := mod _ _ h rfl rfl
       exact ⟨_, rfl, by rw [h1]; simp [seen], by simp [h2], by simp [h2]⟩)
    | (rw [bind_eq_ok] at h
       obtain ⟨x, hx, h⟩ := h
       obtain ⟨h1, h2⟩ := mod _ _ h rfl rfl
       exact ⟨_, ⟨x, hx, rfl⟩, by rw [h1]; simp [seen], by simp [h2], by simp [h2]⟩)
    | (split at h
       · simp at h
       · rename_i hv
         obtain ⟨h1, h2⟩ := mod _ _ h rfl rfl
         exact ⟨_, ⟨hv, rfl⟩, by rw [h1]; simp [seen], by simp [h2], by simp [h2]⟩)
    | skip
  · -- SPDXID
    rw [bind_eq_ok] at h
    obtain ⟨e, he, h⟩ := h
    rw [bind_eq_ok] at h
    obtain ⟨s1, h1, h⟩ := h
    obtain ⟨i, hi, rfl⟩ := modFile_ok h1
    have hi' : s.file = some i := hi
    rw [hf] at hi'
    simp only [Option.some.injEq] at hi'
    subst hi'
    simp only [hf] at h
    cases hpk : s.pkg with
    | none =>
      simp only [hpk] at h
      obtain ⟨d, hd, rfl⟩ := modDoc_ok h
      simp only at hd
      refine ⟨_, ⟨e, he, rfl⟩, ?_, by simp, by simp⟩
      simp only [seen, hd]
      rw [hB, modify_concat _ _ _ rfl]
      simp [hf, hpk]
    | some j =>
      simp only [hpk] at h
      obtain ⟨k, hk, rfl⟩ := modPkg_ok h
      simp only [Option.some.injEq] at hk
      subst hk
      refine ⟨_, ⟨e, he, rfl⟩, ?_, by simp, by simp⟩
      simp only [seen]
      rw [hB, modify_concat _ _ _ rfl]
      simp [hf, hpk]
  · -- ArtifactOfProjectName
    simp only [hf] at h
    rw [bind_eq_ok] at h
    obtain ⟨s1, h1, h⟩ := h
    obtain ⟨i, hi, rfl⟩ := modFile_ok h1
    simp only [Option.some.injEq] at hi
    subst hi
    simp only [Res.ok.injEq] at h
    subst h
    refine ⟨_, rfl, ?_, ?_, by simp⟩
    · simp only [seen]
      rw [hB, modify_concat _ _ _ rfl]
      simp [hf]
    · intro n hn
      simp only [hB, Option.some.injEq] at hn
      simp at hn
      rw [lastIdx_snoc, hn]
  · -- shared
    rename_i hother
    obtain ⟨h1, h2, h3⟩ := unmoved_shared h
    have hne : tag ≠ .spdxID := by intro hh; simp_all
    refine ⟨f, ?_, ?_, ?_, ?_⟩
    · unfold FileStep
      split <;> first | rfl | (exfalso; simp_all; done)
    · rw [h1]
      simp only [hne, false_and, if_false, List.append_nil]
      rw [← hB]
      rfl
    · simp [h3]
    · have : tag ≠ .artifactOfProjectName := by intro hh; simp_all
      simp [h3, this, hc1, hc2]

/-! ## In a snippet section -/

/-- A pair in a snippet section that opens no other section. -/
theorem view_snippet {v : Version} {s s' : Parser} {tag : Tag} {value : Str} {C : List Snippet} {x : Snippet}
    (h : parseFromSnippet v s tag value = .ok s') (hC : s.snips = C ++ [x]) (hx : s.snippet = some C.length)
    (n1 : tag ≠ .packageName) (n2 : tag ≠ .fileName) (n3 : tag ≠ .licenseID) (n4 : tag ≠ .reviewer)
    (n5 : tag ≠ .snippetSPDXID) :
    ∃ x', SnipStep v tag value x x' ∧ seen s' = { seen s with snips := C ++ [x'] } := by
  have mod : ∀ (g : Snippet → Snippet), s.modSnip g = .ok s' → seen s' = { seen s with snips := C ++ [g x] } := by
    intro g h0
    obtain ⟨i, hi, rfl⟩ := modSnip_ok h0
    rw [hx] at hi
    simp only [Option.some.injEq] at hi
    subst hi
    simp only [seen]
    rw [hC, modify_concat _ _ _ rfl]
  unfold parseFromSnippet at h
  split at h
  all_goals first
    | exact absurd rfl n1
    | exact absurd rfl n2
    | exact absurd rfl n3
    | exact absurd rfl n4
    | exact absurd rfl n5
    | exact ⟨_, rfl, mod _ h⟩
    | (rw [bind_eq_ok] at h
       obtain ⟨y, hy, h⟩ := h
       exact ⟨_, ⟨y, hy, rfl⟩, mod _ h⟩)
    | (split at h
       · simp at h
       · rename_i hv
         exact ⟨_, ⟨hv, rfl⟩, mod _ h⟩)
    | skip
  · -- shared
    rename_i hother
    obtain ⟨h1, -, -⟩ := unmoved_shared h
    refine ⟨x, ?_, ?_⟩
    · unfold SnipStep
      split <;> first | rfl | (exfalso; simp_all; done)
    · rw [h1, ← hC]; rfl

end Verif
