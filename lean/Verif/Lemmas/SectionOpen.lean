import Verif.Lemmas.SectionView

set_option linter.unusedSimpArgs false

/-!
# Opening a section
-/

namespace Verif
open Spec

/-- In front of the sections. -/
def Ahead (st : PState) : Prop := st = .start ∨ st = .creationInfo

instance (st : PState) : Decidable (Ahead st) := by unfold Ahead; infer_instance

/-! ## The parts -/

theorem view_openFile {s s' : Parser} {value : Str} (h : openFile s value = .ok s') :
    s.fileLacksId = false ∧ s'.fileAOP = none ∧ s'.pkgExtRef = s.pkgExtRef ∧
    seen s' = { seen s with file := some s.files.length, files := s.files ++ [{ name := value }] } := by
  unfold openFile at h
  simp only at h
  split at h
  · simp at h
  · rename_i hl
    simp only [Res.ok.injEq] at h
    subst h
    exact ⟨by simpa [Parser.fileLacksId] using hl, rfl, rfl, rfl⟩

theorem view_openPackage_new {s s' : Parser} {value : Str} (h : openPackage s value = .ok s')
    (hn : s.pkgNamedOrNil = true) :
    s.pkgLacksId = false ∧ s'.pkgExtRef = none ∧
    seen s' = { seen s with pkg := some s.pkgs.length, pkgs := s.pkgs ++ [{ filesAnalyzed := true, name := value }] } := by
  unfold openPackage at h
  have hn' : ({ s with pkgExtRef := none } : Parser).pkgNamedOrNil = true := hn
  simp only at h
  rw [if_pos hn'] at h
  split at h
  · simp at h
  · rename_i hl
    obtain ⟨i, hi, rfl⟩ := modPkg_ok h
    refine ⟨by simpa [Parser.pkgLacksId] using hl, rfl, ?_⟩
    simp only [Parser.newPkg, Option.some.injEq] at hi
    subst hi
    simp only [seen, Parser.newPkg]
    rw [modify_last]

theorem view_openPackage_first {s s' : Parser} {value : Str} (h : openPackage s.newPkg value = .ok s') :
    s'.pkgExtRef = none ∧
    seen s' = { seen s with pkg := some s.pkgs.length, pkgs := s.pkgs ++ [{ filesAnalyzed := true, name := value }] } := by
  unfold openPackage at h
  have hn' : ({ s.newPkg with pkgExtRef := none } : Parser).pkgNamedOrNil = false := by
    simp [Parser.pkgNamedOrNil, Parser.newPkg]
  simp only at h
  rw [hn'] at h
  simp only [Bool.false_eq_true, if_false] at h
  obtain ⟨i, hi, rfl⟩ := modPkg_ok h
  refine ⟨rfl, ?_⟩
  simp only [Parser.newPkg, Option.some.injEq] at hi
  subst hi
  simp only [seen, Parser.newPkg]
  rw [modify_last]

theorem view_openSnippet {s s' : Parser} {value : Str} {B : List (File Nat)} {f : File Nat}
    (h : openSnippet s value = .ok s') (hB : s.files = B ++ [f]) (hf : s.file = some B.length) :
    s.fileLacksId = false ∧ ∃ e, extractElementID value = .ok e ∧ seen s' = { seen s with
      snippet := some s.snips.length, snips := s.snips ++ [{ spdxId := e }],
      files := B ++ [{ f with snippets := mapInsert e s.snips.length f.snippets }] } := by
  unfold openSnippet at h
  split at h
  · simp at h
  · rename_i hl
    rw [bind_eq_ok] at h
    obtain ⟨e, he, h⟩ := h
    simp only [hf] at h
    obtain ⟨i, hi, rfl⟩ := modFile_ok h
    simp only [Option.some.injEq] at hi
    subst hi
    refine ⟨by simpa using hl, e, he, ?_⟩
    simp only [seen]
    rw [hB, modify_concat _ _ _ rfl]
    simp [hf]

/-- The same up to the section the parser is in. -/
def Alike (s t : Parser) : Prop := { seen s with st := .start } = { seen t with st := .start }

theorem Alike.trans {a b c : Parser} (h1 : Alike a b) (h2 : Alike b c) : Alike a c := Eq.trans h1 h2

theorem Alike.st {s t : Parser} (h : Alike s t) : seen s = { seen t with st := s.st } := by
  have := congrArg (fun x : Seen => { x with st := s.st }) h
  exact this

theorem alike_ensureDoc (s : Parser) : Alike (ensureDoc s) s := by
  unfold ensureDoc Alike
  split
  · rename_i h; simp [seen, h]
  · rfl

theorem alike_ensureCI {s : Parser} {d : HDoc} (hd : s.doc = some d) : Alike (ensureCI s d) s := by
  unfold ensureCI Alike
  split
  · simp [seen, hd]
  · rfl

theorem Unmoved.alike {s s' : Parser} (h : Unmoved s s') : Alike s' s := by unfold Alike; rw [h.1]

theorem fileLacksId_view {s t : Parser} (h : Alike s t) : s.fileLacksId = t.fileLacksId := by
  have h1 : s.file = t.file := congrArg Seen.file h
  have h2 : s.files = t.files := congrArg Seen.files h
  unfold Parser.fileLacksId; rw [h1, h2]

theorem pkgLacksId_view {s t : Parser} (h : Alike s t) : s.pkgLacksId = t.pkgLacksId := by
  have h1 : s.pkg = t.pkg := congrArg Seen.pkg h
  have h2 : s.pkgs = t.pkgs := congrArg Seen.pkgs h
  unfold Parser.pkgLacksId; rw [h1, h2]

/-! ## One pair -/

/-- The tag that opens a package section. -/
theorem pair_package {v : Version} {s s' : Parser} {p : TVPair} (h : parsePair v s p = .ok s')
    (ht : Tag.ofStr p.tag = .packageName) (hn : ¬Ahead s.st → s.pkgNamedOrNil = true)
    (hfile : Ahead s.st ∨ s.st = .package → s.file = none) (hsnip : s.st = .snippet → s.fileLacksId = false) :
    s.fileLacksId = false ∧ (¬Ahead s.st → s.pkgLacksId = false) ∧ s'.pkgExtRef = none ∧
    seen s' = { seen s with
      st := .package, file := none, snippet := s'.snippet,
      pkg := some s.pkgs.length, pkgs := s.pkgs ++ [{ filesAnalyzed := true, name := p.value }] } := by
  have ahead : ∀ s0 : Parser, Alike s0 s → s0.st = .package → Ahead s.st → openPackage s0.newPkg p.value = .ok s' →
      s.fileLacksId = false ∧ (¬Ahead s.st → s.pkgLacksId = false) ∧ s'.pkgExtRef = none ∧
      seen s' = { seen s with
      st := .package, file := none, snippet := s'.snippet,
      pkg := some s.pkgs.length, pkgs := s.pkgs ++ [{ filesAnalyzed := true, name := p.value }] } := by
    intro s0 hv hst ha h
    obtain ⟨h1, h2⟩ := view_openPackage_first h
    have hf := hfile (Or.inl ha)
    refine ⟨by simp [Parser.fileLacksId, hf], fun hh => absurd ha hh, h1, ?_⟩
    have e1 : s'.snippet = s0.snippet := congrArg Seen.snippet h2
    have e2 : s0.pkgs = s.pkgs := congrArg Seen.pkgs hv
    have e3 : s0.snippet = s.snippet := congrArg Seen.snippet hv
    rw [h2, hv.st, e1, e2, e3, hst]
    simp only [seen, hf]
  have later : ∀ s0 : Parser, Alike { s0 with file := s.file, snippet := s.snippet } s → s0.st = .package → s0.file = none → ¬Ahead s.st →
      s.fileLacksId = false → openPackage s0 p.value = .ok s' →
      s.fileLacksId = false ∧ (¬Ahead s.st → s.pkgLacksId = false) ∧ s'.pkgExtRef = none ∧
      seen s' = { seen s with
      st := .package, file := none, snippet := s'.snippet,
      pkg := some s.pkgs.length, pkgs := s.pkgs ++ [{ filesAnalyzed := true, name := p.value }] } := by
    intro s0 hv hst hf ha hl h
    have e1 : s0.pkg = s.pkg := congrArg Seen.pkg hv
    have e2 : s0.pkgs = s.pkgs := congrArg Seen.pkgs hv
    have hn0 : s0.pkgNamedOrNil = true := by
      have := hn ha
      unfold Parser.pkgNamedOrNil at this ⊢
      rw [e1, e2]; exact this
    obtain ⟨h1, h2, h3⟩ := view_openPackage_new h hn0
    refine ⟨hl, fun _ => ?_, h2, ?_⟩
    · unfold Parser.pkgLacksId at h1 ⊢
      rw [← e1, ← e2]; exact h1
    · have e4 : s'.snippet = s0.snippet := congrArg Seen.snippet h3
      have e5 : (seen s0).docP = (seen s).docP := by
        have := congrArg Seen.docP hv; exact this
      have e6 : (seen s0).docF = (seen s).docF := by
        have := congrArg Seen.docF hv; exact this
      have e7 : s0.files = s.files := congrArg Seen.files hv
      have e8 : s0.snips = s.snips := congrArg Seen.snips hv
      rw [h3, e4]
      simp only [seen] at e5 e6 ⊢
      rw [hst, hf, e2, e7, e8, e5, e6]
  unfold parsePair at h
  rw [ht] at h
  simp only at h
  split at h
  · rename_i hst
    simp only [parseFromStart, parseStartTags, parseFromCreationInfo] at h
    split at h
    · simp at h
    · rename_i d hd
      split at h
      · simp at h
      · have hd' : ({ ensureDoc s with st := .creationInfo } : Parser).doc = some d := hd
        have hal := (alike_ensureCI hd').trans (alike_ensureDoc s)
        generalize ensureCI { ensureDoc s with st := .creationInfo } d = t at h hal
        exact ahead { t with st := .package } hal rfl (Or.inl hst) h
  · rename_i hst
    simp only [parseFromCreationInfo] at h
    split at h
    · simp at h
    · rename_i d hd
      split at h
      · simp at h
      · have hal := alike_ensureCI hd
        generalize ensureCI s d = t at h hal
        exact ahead { t with st := .package } hal rfl (Or.inr hst) h
  · rename_i hst
    simp only [parseFromPackage] at h
    simp only [ne_eq, reduceCtorEq, not_false_eq_true, if_true] at h
    have hf := hfile (Or.inr hst)
    exact later _ (by unfold Alike; simp [seen]) hst hf (by simp [Ahead, hst]) (by simp [Parser.fileLacksId, hf]) h
  · rename_i hst
    simp only [parseFromFile] at h
    simp only [ne_eq, reduceCtorEq, not_false_eq_true, and_self, if_true] at h
    split at h
    · simp at h
    · rename_i hl
      exact later _ (by unfold Alike; simp [seen]) rfl rfl (by simp [Ahead, hst]) (by simpa [Parser.fileLacksId] using hl) h
  · rename_i hst
    simp only [parseFromSnippet] at h
    exact later _ (by unfold Alike; simp [seen]) rfl rfl (by simp [Ahead, hst]) (hsnip hst) h
  · simp [parseFromOtherLicense, parseShared] at h
  · simp [parseFromReview, parseShared] at h

/-- The tag that opens a file section. -/
theorem pair_file {v : Version} {s s' : Parser} {p : TVPair} (h : parsePair v s p = .ok s')
    (ht : Tag.ofStr p.tag = .fileName) (hpkg : Ahead s.st → s.pkg = none) :
    s.fileLacksId = false ∧ s'.fileAOP = none ∧
    seen s' = { seen s with
      st := .file, snippet := s'.snippet,
      file := some s.files.length, files := s.files ++ [{ name := p.value }] } := by
  have key : ∀ s0 : Parser, Alike { s0 with pkg := s.pkg, snippet := s.snippet } s → s0.st = .file → s0.pkg = s.pkg →
      openFile s0 p.value = .ok s' →
      s.fileLacksId = false ∧ s'.fileAOP = none ∧
      seen s' = { seen s with
      st := .file, snippet := s'.snippet,
      file := some s.files.length, files := s.files ++ [{ name := p.value }] } := by
    intro s0 hv hst hp h
    obtain ⟨h1, h2, -, h3⟩ := view_openFile h
    have e1 : s0.file = s.file := congrArg Seen.file hv
    have e2 : s0.files = s.files := congrArg Seen.files hv
    refine ⟨?_, h2, ?_⟩
    · unfold Parser.fileLacksId at h1 ⊢
      rw [← e1, ← e2]; exact h1
    · have e4 : s'.snippet = s0.snippet := congrArg Seen.snippet h3
      have e5 : (seen s0).docP = (seen s).docP := by
        have := congrArg Seen.docP hv; exact this
      have e6 : (seen s0).docF = (seen s).docF := by
        have := congrArg Seen.docF hv; exact this
      have e7 : s0.pkgs = s.pkgs := congrArg Seen.pkgs hv
      have e8 : s0.snips = s.snips := congrArg Seen.snips hv
      rw [h3, e4]
      simp only [seen] at e5 e6 ⊢
      rw [hst, hp, e2, e7, e8, e5, e6]
  unfold parsePair at h
  rw [ht] at h
  simp only at h
  split at h
  · rename_i hst
    simp only [parseFromStart, parseStartTags, parseFromCreationInfo] at h
    split at h
    · simp at h
    · rename_i d hd
      have hd' : ({ ensureDoc s with st := .creationInfo } : Parser).doc = some d := hd
      have hal := (alike_ensureCI hd').trans (alike_ensureDoc s)
      generalize ensureCI { ensureDoc s with st := .creationInfo } d = t at h hal
      refine key { t with st := .file, pkg := none } ?_ rfl (hpkg (Or.inl hst)).symm h
      have e1 : t.pkg = s.pkg := congrArg Seen.pkg hal
      have e2 : t.snippet = s.snippet := congrArg Seen.snippet hal
      rw [← e1, ← e2]; exact hal
  · rename_i hst
    simp only [parseFromCreationInfo] at h
    split at h
    · simp at h
    · rename_i d hd
      have hal := alike_ensureCI hd
      generalize ensureCI s d = t at h hal
      refine key { t with st := .file, pkg := none } ?_ rfl (hpkg (Or.inr hst)).symm h
      have e1 : t.pkg = s.pkg := congrArg Seen.pkg hal
      have e2 : t.snippet = s.snippet := congrArg Seen.snippet hal
      rw [← e1, ← e2]; exact hal
  · simp only [parseFromPackage] at h
    simp only [ne_eq, reduceCtorEq, not_false_eq_true, if_true] at h
    refine key _ ?_ ?_ ?_ h <;> rfl
  · rename_i hst
    simp only [parseFromFile] at h
    simp only [ne_eq, reduceCtorEq, not_false_eq_true, and_self, if_true] at h
    refine key _ ?_ hst ?_ h <;> rfl
  · simp only [parseFromSnippet] at h
    refine key _ ?_ ?_ ?_ h <;> rfl
  · simp [parseFromOtherLicense, parseShared] at h
  · simp [parseFromReview, parseShared] at h

/-- The tag that opens a snippet section. -/
theorem pair_snippet {v : Version} {s s' : Parser} {p : TVPair} (h : parsePair v s p = .ok s')
    (ht : Tag.ofStr p.tag = .snippetSPDXID) : (s.st = .file ∨ s.st = .snippet) ∧
    ∀ B f, s.files = B ++ [f] → s.file = some B.length →
      s.fileLacksId = false ∧ ∃ e, extractElementID p.value = .ok e ∧ seen s' = { seen s with
      st := .snippet, snippet := some s.snips.length, snips := s.snips ++ [{ spdxId := e }],
      files := B ++ [{ f with snippets := mapInsert e s.snips.length f.snippets }] } := by
  unfold parsePair at h
  rw [ht] at h
  simp only at h
  split at h
  · simp only [parseFromStart, parseStartTags, parseFromCreationInfo, parseShared] at h
    split at h <;> simp at h
  · simp only [parseFromCreationInfo, parseShared] at h
    split at h <;> simp at h
  · simp [parseFromPackage, parseShared] at h
  · rename_i hst
    simp only [parseFromFile] at h
    simp only [ne_eq, reduceCtorEq, not_false_eq_true, and_self, if_true] at h
    refine ⟨Or.inl hst, fun B f hB hf => ?_⟩
    exact view_openSnippet h hB hf
  · rename_i hst
    simp only [parseFromSnippet] at h
    refine ⟨Or.inr hst, fun B f hB hf => ?_⟩
    obtain ⟨h1, e, h2, h3⟩ := view_openSnippet h hB hf
    refine ⟨h1, e, h2, ?_⟩
    rw [h3]; simp only [seen]; rw [hst]
  · simp [parseFromOtherLicense, parseShared] at h
  · simp [parseFromReview, parseShared] at h

/-! ## In front of the sections -/

theorem alike_startTags {s : Parser} {tag : Tag} {value : Str} {s' : Parser}
    (h : parseStartTags s tag value = some (.ok s')) : Alike s' s ∧ s'.st = s.st := by
  unfold parseStartTags at h
  split at h
  all_goals simp only [Option.some.injEq, reduceCtorEq] at h
  all_goals first
    | (have h1 := (unmoved_modDoc h (fun d => ⟨rfl, rfl⟩)).1
       exact ⟨by unfold Alike; rw [h1], congrArg Seen.st h1⟩)
    | (rw [bind_eq_ok] at h; obtain ⟨x, -, h⟩ := h
       have h1 := (unmoved_modDoc h (fun d => ⟨rfl, rfl⟩)).1
       exact ⟨by unfold Alike; rw [h1], congrArg Seen.st h1⟩)

theorem alike_modCI {s s' : Parser} {f} (h : modCI s f = .ok s') : Alike s' s ∧ s'.st = s.st := by
  unfold modCI at h
  split at h
  · simp at h
  · rename_i d hd
    split at h
    · simp at h
    · simp at h; rw [← h]; exact ⟨by simp [Alike, seen, hd], rfl⟩

theorem alike_creationInfo {v : Version} {s s' : Parser} {tag : Tag} {value : Str}
    (h : parseFromCreationInfo v s tag value = .ok s') (hst : s.st = .creationInfo)
    (n1 : tag ≠ .packageName) (n2 : tag ≠ .fileName) (n3 : tag ≠ .licenseID) (n4 : tag ≠ .reviewer) :
    Alike s' s ∧ Ahead s'.st := by
  unfold parseFromCreationInfo at h
  split at h
  · simp at h
  · rename_i d hd
    have hal := alike_ensureCI hd
    have hst' : (ensureCI s d).st = .creationInfo := (st_ensureCI s d).trans hst
    have back : ∀ t, backToStart (ensureCI s d) t value = .ok s' → Alike s' s ∧ Ahead s'.st := by
      intro t hb
      unfold backToStart at hb
      split at hb
      · rename_i r hr
        subst hb
        obtain ⟨h1, h2⟩ := alike_startTags hr
        refine ⟨h1.trans ((alike_ensureDoc _).trans hal), ?_⟩
        rw [h2, st_ensureDoc]; exact Or.inl rfl
      · simp at hb
    have ci : ∀ f, modCI (ensureCI s d) f = .ok s' → Alike s' s ∧ Ahead s'.st := by
      intro f hm
      obtain ⟨h1, h2⟩ := alike_modCI hm
      exact ⟨h1.trans hal, by rw [h2, hst']; exact Or.inr rfl⟩
    simp only at h
    split at h
    · exact ci _ h
    · rw [bind_eq_ok] at h
      obtain ⟨⟨k, x⟩, -, h⟩ := h
      simp only at h
      split at h
      · exact ci _ h
      · simp at h
    · exact ci _ h
    · exact ci _ h
    · exact absurd rfl n1
    · exact absurd rfl n2
    · exact absurd rfl n3
    · exact absurd rfl n4
    · split at h
      · simp at h
      · exact back _ h
    · exact back _ h
    · have hu := unmoved_shared h
      refine ⟨hu.alike.trans hal, ?_⟩
      have : s'.st = (ensureCI s d).st := congrArg Seen.st hu.1
      rw [this, hst']; exact Or.inr rfl

/-- A pair in front of the sections that opens none. -/
theorem pair_ahead {v : Version} {s s' : Parser} {p : TVPair} (h : parsePair v s p = .ok s') (hst : Ahead s.st)
    (n1 : Tag.ofStr p.tag ≠ .packageName) (n2 : Tag.ofStr p.tag ≠ .fileName) (n3 : Tag.ofStr p.tag ≠ .licenseID)
    (n4 : Tag.ofStr p.tag ≠ .reviewer) : Alike s' s ∧ Ahead s'.st := by
  unfold parsePair at h
  rcases hst with hst | hst
  · rw [hst] at h
    simp only [parseFromStart] at h
    split at h
    · rename_i r hr
      subst h
      obtain ⟨h1, h2⟩ := alike_startTags hr
      exact ⟨h1.trans (alike_ensureDoc s), by rw [h2, st_ensureDoc, hst]; exact Or.inl rfl⟩
    · obtain ⟨h1, h2⟩ := alike_creationInfo h rfl n1 n2 n3 n4
      exact ⟨h1.trans (alike_ensureDoc s), h2⟩
  · rw [hst] at h
    exact alike_creationInfo h hst n1 n2 n3 n4

/-! ## Behind the sections -/

theorem alike_review {v : Version} {s s' : Parser} {tag : Tag} {value : Str} (h : parseFromReview v s tag value = .ok s') :
    Alike s' s := by
  unfold parseFromReview at h
  split at h
  · split at h
    · simp at h
    · rename_i d hd
      rw [bind_eq_ok] at h
      obtain ⟨⟨k, x⟩, _, h⟩ := h
      simp only at h
      split at h
      · simp at h; rw [← h]; simp [Alike, seen, hd]
      · simp at h
  · unfold modRev at h
    split at h
    · simp at h
    · exact (unmoved_modDoc h (fun d => ⟨rfl, rfl⟩)).alike
  · unfold modRev at h
    split at h
    · simp at h
    · exact (unmoved_modDoc h (fun d => ⟨rfl, rfl⟩)).alike
  · exact (unmoved_shared h).alike

theorem alike_modLic {s s' : Parser} {f} (h : modLic s f = .ok s') : Alike s' s := by
  unfold modLic at h
  split at h
  · simp at h
  · exact (unmoved_modDoc h (fun d => ⟨rfl, rfl⟩)).alike

theorem alike_otherLicense {v : Version} {s s' : Parser} {tag : Tag} {value : Str}
    (h : parseFromOtherLicense v s tag value = .ok s') : Alike s' s := by
  unfold parseFromOtherLicense at h
  split at h
  · split at h
    · simp at h
    · rename_i d hd; simp at h; rw [← h]; simp [Alike, seen, hd]
  · exact alike_modLic h
  · exact alike_modLic h
  · exact alike_modLic h
  · exact alike_modLic h
  · exact Alike.trans (alike_review h) rfl
  · exact (unmoved_shared h).alike

/-- A pair that opens an extracted license or a review, or comes after one. -/
theorem pair_tail {v : Version} {s s' : Parser} {p : TVPair} (h : parsePair v s p = .ok s')
    (ht : Tag.ofStr p.tag = .licenseID ∨ Tag.ofStr p.tag = .reviewer ∨ inTail s) : Alike s' s ∧ inTail s' := by
  have lic : ∀ s0 : Parser, Alike s0 s → s0.st = .otherLicense → ∀ tag value, parseFromOtherLicense v s0 tag value = .ok s' →
      Alike s' s ∧ inTail s' := by
    intro s0 ha hst tag value h
    exact ⟨(alike_otherLicense h).trans ha, by
      unfold inTail
      unfold parseFromOtherLicense at h
      split at h
      · split at h
        · simp at h
        · simp at h; rw [← h]; exact Or.inl hst
      · exact Or.inl ((same_modLic h).2.trans hst)
      · exact Or.inl ((same_modLic h).2.trans hst)
      · exact Or.inl ((same_modLic h).2.trans hst)
      · exact Or.inl ((same_modLic h).2.trans hst)
      · exact Or.inr (same_review h).2
      · exact Or.inl ((same_shared h).2.trans hst)⟩
  have rev : ∀ s0 : Parser, Alike s0 s → s0.st = .review → ∀ tag value, parseFromReview v s0 tag value = .ok s' →
      Alike s' s ∧ inTail s' := by
    intro s0 ha hst tag value h
    exact ⟨(alike_review h).trans ha, Or.inr ((same_review h).2.trans hst)⟩
  have ci : ∀ s0 : Parser, Alike s0 s → (Tag.ofStr p.tag = .licenseID ∨ Tag.ofStr p.tag = .reviewer) →
      parseFromCreationInfo v s0 (Tag.ofStr p.tag) p.value = .ok s' → Alike s' s ∧ inTail s' := by
    intro s0 ha ht h
    unfold parseFromCreationInfo at h
    split at h
    · simp at h
    · rename_i d hd
      have hal := alike_ensureCI hd
      rcases ht with ht | ht
      · rw [ht] at h
        exact lic { ensureCI s0 d with st := .otherLicense } (Alike.trans hal ha) rfl _ _ h
      · rw [ht] at h
        exact rev { ensureCI s0 d with st := .review } (Alike.trans hal ha) rfl _ _ h
  unfold parsePair at h
  simp only at h
  rcases ht with ht | ht | ht
  · split at h
    · simp only [parseFromStart, ht, parseStartTags] at h
      rw [← ht] at h
      exact ci { ensureDoc s with st := .creationInfo } (alike_ensureDoc s) (Or.inl ht) h
    · exact ci _ rfl (Or.inl ht) h
    · rw [ht] at h
      simp only [parseFromPackage] at h
      simp only [ne_eq, reduceCtorEq, not_false_eq_true, if_true] at h
      refine lic _ ?_ ?_ _ _ h <;> rfl
    · rw [ht] at h
      simp only [parseFromFile] at h
      simp only [ne_eq, reduceCtorEq, not_false_eq_true, and_self, if_true] at h
      refine lic _ ?_ ?_ _ _ h <;> rfl
    · rw [ht] at h
      simp only [parseFromSnippet] at h
      refine lic _ ?_ ?_ _ _ h <;> rfl
    · rename_i hst; exact lic _ rfl hst _ _ h
    · rename_i hst; exact rev _ rfl hst _ _ h
  · split at h
    · simp only [parseFromStart, ht, parseStartTags] at h
      rw [← ht] at h
      exact ci { ensureDoc s with st := .creationInfo } (alike_ensureDoc s) (Or.inr ht) h
    · exact ci _ rfl (Or.inr ht) h
    · rw [ht] at h
      simp only [parseFromPackage] at h
      simp only [ne_eq, reduceCtorEq, not_false_eq_true, if_true] at h
      refine rev _ ?_ ?_ _ _ h <;> rfl
    · rw [ht] at h
      simp only [parseFromFile] at h
      simp only [ne_eq, reduceCtorEq, not_false_eq_true, and_self, if_true] at h
      refine rev _ ?_ ?_ _ _ h <;> rfl
    · rw [ht] at h
      simp only [parseFromSnippet] at h
      refine rev _ ?_ ?_ _ _ h <;> rfl
    · rename_i hst; exact lic _ rfl hst _ _ h
    · rename_i hst; exact rev _ rfl hst _ _ h
  · rcases ht with ht | ht
    · rw [ht] at h; exact lic _ rfl ht _ _ h
    · rw [ht] at h; exact rev _ rfl ht _ _ h

end Verif
