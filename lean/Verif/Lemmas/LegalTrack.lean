import Verif.Lemmas.LegalStep

set_option linter.unusedSimpArgs false

/-!
# The parser state after a legal text
-/

namespace Verif
open Spec

/-! ## Moving between the states -/

theorem st_otherLicense {v : Version} {s s' : Parser} {tag : Tag} {value : Str}
    (h : parseFromOtherLicense v s tag value = .ok s') (ht : tag ≠ .reviewer) : s'.st = s.st := by
  unfold parseFromOtherLicense at h
  split at h
  · split at h
    · simp at h
    · simp at h; rw [← h]
  · exact (same_modLic h).2
  · exact (same_modLic h).2
  · exact (same_modLic h).2
  · exact (same_modLic h).2
  · exact absurd rfl ht
  · exact (same_shared h).2

theorem st_opensLicense {v : Version} {s s' : Parser} {p : TVPair} (h : parsePair v s p = .ok s')
    (ht : Tag.ofStr p.tag = .licenseID) : s'.st = .otherLicense := by
  unfold parsePair at h
  rw [ht] at h
  simp only at h
  have ci : ∀ s0, parseFromCreationInfo v s0 .licenseID p.value = .ok s' → s'.st = .otherLicense := by
    intro s0 h
    unfold parseFromCreationInfo at h
    split at h
    · simp at h
    · exact st_otherLicense h (by simp)
  split at h
  · simp only [parseFromStart, parseStartTags] at h
    exact ci _ h
  · exact ci _ h
  · simp only [parseFromPackage] at h; exact st_otherLicense h (by simp)
  · simp only [parseFromFile] at h; exact st_otherLicense h (by simp)
  · simp only [parseFromSnippet] at h; exact st_otherLicense h (by simp)
  · rename_i hst; exact (st_otherLicense h (by simp)).trans hst
  · simp [parseFromReview, parseShared] at h

theorem st_opensReview {v : Version} {s s' : Parser} {p : TVPair} (h : parsePair v s p = .ok s')
    (ht : Tag.ofStr p.tag = .reviewer) : s'.st = .review := by
  unfold parsePair at h
  rw [ht] at h
  simp only at h
  have ci : ∀ s0, parseFromCreationInfo v s0 .reviewer p.value = .ok s' → s'.st = .review := by
    intro s0 h
    unfold parseFromCreationInfo at h
    split at h
    · simp at h
    · exact (same_review h).2
  split at h
  · simp only [parseFromStart, parseStartTags] at h
    exact ci _ h
  · exact ci _ h
  · simp only [parseFromPackage] at h; exact (same_review h).2
  · simp only [parseFromFile] at h; exact (same_review h).2
  · simp only [parseFromSnippet] at h; exact (same_review h).2
  · simp only [parseFromOtherLicense] at h; exact (same_review h).2
  · rename_i hst; exact (same_review h).2.trans hst

theorem st_inTail {v : Version} {s s' : Parser} {p : TVPair} (h : parsePair v s p = .ok s') (hs : inTail s)
    (ht : Tag.ofStr p.tag ≠ .reviewer) : s'.st = s.st := by
  unfold parsePair at h
  rcases hs with hs | hs
  · rw [hs] at h; exact st_otherLicense h ht
  · rw [hs] at h; exact (same_review h).2

theorem st_creation {v : Version} {s s' : Parser} {tag : Tag} {value : Str}
    (h : parseFromCreationInfo v s tag value = .ok s') (hst : s.st = .creationInfo)
    (n1 : tag ≠ .packageName) (n2 : tag ≠ .fileName) (n3 : tag ≠ .licenseID) (n4 : tag ≠ .reviewer) :
    (s'.st = .start ↔ tag ∈ headT) := by
  unfold parseFromCreationInfo at h
  split at h
  · simp at h
  · rename_i d hd
    have hst' : (ensureCI s d).st = .creationInfo := (st_ensureCI s d).trans hst
    have back : ∀ t, backToStart (ensureCI s d) t value = .ok s' → s'.st = .start := by
      intro t hb
      unfold backToStart at hb
      split at hb
      · rename_i r hr
        subst hb
        rw [(alike_startTags hr).2, st_ensureDoc]
      · simp at hb
    have ci : ∀ f, modCI (ensureCI s d) f = .ok s' → s'.st = .creationInfo :=
      fun f hm => (alike_modCI hm).2.trans hst'
    have no : s'.st = .creationInfo → tag ∉ headT → (s'.st = .start ↔ tag ∈ headT) := fun h1 h2 => by simp [h1, h2]
    simp only at h
    split at h
    · exact no (ci _ h) (by decide)
    · rw [bind_eq_ok] at h
      obtain ⟨⟨k, x⟩, -, h⟩ := h
      simp only at h
      split at h
      · exact no (ci _ h) (by decide)
      · simp at h
    · exact no (ci _ h) (by decide)
    · exact no (ci _ h) (by decide)
    · exact absurd rfl n1
    · exact absurd rfl n2
    · exact absurd rfl n3
    · exact absurd rfl n4
    · split at h
      · simp at h
      · exact iff_of_true (back _ h) (by decide)
    · exact iff_of_true (back _ h) (by decide)
    · have hu := unmoved_shared h
      have e : s'.st = (ensureCI s d).st := congrArg Seen.st hu.1
      refine no (e.trans hst') ?_
      intro hm
      unfold parseShared at h
      split at h
      all_goals first
        | (simp [headT] at hm; done)
        | simp at h

theorem st_ahead {v : Version} {s s' : Parser} {p : TVPair} (h : parsePair v s p = .ok s') (hst : Ahead s.st)
    (n1 : Tag.ofStr p.tag ≠ .packageName) (n2 : Tag.ofStr p.tag ≠ .fileName) (n3 : Tag.ofStr p.tag ≠ .licenseID)
    (n4 : Tag.ofStr p.tag ≠ .reviewer) : (s'.st = .start ↔ Tag.ofStr p.tag ∈ headT) := by
  unfold parsePair at h
  rcases hst with hst | hst
  · rw [hst] at h
    simp only [parseFromStart] at h
    split at h
    · rename_i r hr
      subst h
      exact iff_of_true ((alike_startTags hr).2.trans ((st_ensureDoc s).trans hst))
        (Classical.not_not.1 fun hc => by rw [startTags_none.2 hc] at hr; simp at hr)
    · exact st_creation h rfl n1 n2 n3 n4
  · rw [hst] at h
    exact st_creation h hst n1 n2 n3 n4

/-! ## Places -/

theorem placeOf_snoc (a : List TVPair) (p : TVPair) : placeOf (a ++ [p]) = (opens p.tag).getD (placeOf a) := by
  unfold placeOf
  rw [List.filterMap_append]
  cases h : opens p.tag <;> simp [h]

theorem opens_iff (t : Str) : opens t =
    (match Tag.ofStr t with
      | .packageName => some .package
      | .fileName => some .file
      | .snippetSPDXID => some .snippet
      | .licenseID => some .license
      | .reviewer => some .review
      | _ => none) := by
  unfold opens
  simp only [← tag_packageName, ← tag_fileName, ← tag_snippetSPDXID, ← tag_licenseID, ← tag_reviewer]
  generalize Tag.ofStr t = tag
  cases tag <;> simp

theorem opens_none {t : Str} : opens t = none ↔ Tag.ofStr t ≠ .packageName ∧ Tag.ofStr t ≠ .fileName ∧
    Tag.ofStr t ≠ .snippetSPDXID ∧ Tag.ofStr t ≠ .licenseID ∧ Tag.ofStr t ≠ .reviewer := by
  rw [opens_iff]
  generalize Tag.ofStr t = tag
  cases tag <;> simp

/-! ## One pair -/

/-- The state after the pairs `a`. -/
structure Tracks (v : Version) (a : List TVPair) (s : Parser) : Prop where
  inv : Inv v s
  says : Says v a s
  place : stPlace s.st = placeOf a
  start : Ahead s.st → (s.st = .start ↔ ∀ q, a.getLast? = some q → Tag.ofStr q.tag ∈ headT)
  zone : ¬inTail s → ∃ z, Reads v z s
  ext : s.st = .package → (s.pkgExtRef ≠ none ↔ ∃ q, a.getLast? = some q ∧ Tag.ofStr q.tag = .externalRef)
  aop : s.st = .file → (s.fileAOP ≠ none ↔ ∃ q, a.getLast? = some q ∧ (Tag.ofStr q.tag = .artifactOfProjectName ∨
    Tag.ofStr q.tag = .artifactOfProjectHomePage ∨ Tag.ofStr q.tag = .artifactOfProjectURI))

/-- What a pair does to the open sections. -/
structure Moves (s : Parser) (p : TVPair) (s' : Parser) : Prop where
  file : s'.fileLacksId = true ↔ Tag.ofStr p.tag = .fileName ∨
    (Tag.ofStr p.tag ≠ .packageName ∧ s.fileLacksId = true ∧ ¬(s.st = .file ∧ Tag.ofStr p.tag = .spdxID))
  pkg : s'.pkgLacksId = true ↔ Tag.ofStr p.tag = .packageName ∨
    (s.pkgLacksId = true ∧ ¬(s.st = .package ∧ Tag.ofStr p.tag = .spdxID))

theorem tracks_init (v : Version) : Tracks v [] {} where
  inv := inv_init v
  says := says_init v
  place := rfl
  start := by intro _; simp
  zone := fun _ => ⟨{}, reads_empty v⟩
  ext := by intro h; simp at h
  aop := by intro h; simp at h

theorem Alike.lacks {s s' : Parser} (h : Alike s' s) : s'.fileLacksId = s.fileLacksId ∧ s'.pkgLacksId = s.pkgLacksId := by
  have e1 : s'.file = s.file := congrArg Seen.file h
  have e2 : s'.files = s.files := congrArg Seen.files h
  have e3 : s'.pkg = s.pkg := congrArg Seen.pkg h
  have e4 : s'.pkgs = s.pkgs := congrArg Seen.pkgs h
  unfold Parser.fileLacksId Parser.pkgLacksId
  rw [e1, e2, e3, e4]; exact ⟨rfl, rfl⟩

theorem lacks_file {v : Version} {z : Zip} {s : Parser} (h : Tree v z (seen s)) :
    s.fileLacksId = true ↔ ∃ f, z.fl = some f ∧ values g!"SPDXID" f.pairs = [] := by
  have := h.fileLacks
  rw [← Bool.not_eq_false, this]
  simp

theorem lacks_pkg {v : Version} {z : Zip} {s : Parser} (h : Tree v z (seen s)) :
    s.pkgLacksId = true ↔ ∃ k, z.pk = some k ∧ values g!"SPDXID" k.pairs = [] := by
  have := h.pkgLacks
  rw [← Bool.not_eq_false, this]
  simp

/-- The part of the text the open sections stand for. -/
def zonePlace (z : Zip) : Place :=
  match z.fl with
  | some f => if f.snippets = [] then .file else .snippet
  | none => if z.pk = none then .header else .package

theorem zone_place {v : Version} {z : Zip} {s : Parser} (h : Reads v z s) (ht : ¬inTail s) : stPlace s.st = zonePlace z := by
  have zone := h.zone
  unfold ZoneOK at zone
  unfold zonePlace
  rw [show (seen s).st = s.st from rfl] at zone
  cases hst : s.st with
  | start => rw [hst] at zone; simp [zone.1, zone.2, stPlace]
  | creationInfo => rw [hst] at zone; simp [zone.1, zone.2, stPlace]
  | package => rw [hst] at zone; simp [zone.1, zone.2, stPlace]
  | file => rw [hst] at zone; obtain ⟨f, h1, h2⟩ := zone; simp [h1, h2, stPlace]
  | snippet => rw [hst] at zone; obtain ⟨f, h1, h2, -⟩ := zone; simp [h1, h2, stPlace]
  | otherLicense => exact absurd (Or.inl hst) ht
  | review => exact absurd (Or.inr hst) ht

theorem stPlace_file {st : PState} : stPlace st = .file ↔ st = .file := by cases st <;> simp [stPlace]
theorem stPlace_package {st : PState} : stPlace st = .package ↔ st = .package := by cases st <;> simp [stPlace]
theorem stPlace_snippet {st : PState} : stPlace st = .snippet ↔ st = .snippet := by cases st <;> simp [stPlace]
theorem stPlace_header {st : PState} : stPlace st = .header ↔ Ahead st := by cases st <;> simp [stPlace, Ahead]

theorem zonePlace_step {z : Zip} {p : TVPair} (h1 : Tag.ofStr p.tag ≠ .licenseID) (h2 : Tag.ofStr p.tag ≠ .reviewer)
    (h3 : Tag.ofStr p.tag = .snippetSPDXID → z.fl ≠ none) :
    zonePlace (stepZ z p) = (opens p.tag).getD (zonePlace z) := by
  unfold stepZ
  rw [opens_iff]
  simp only [← tag_packageName, ← tag_fileName, ← tag_snippetSPDXID]
  by_cases t1 : Tag.ofStr p.tag = .packageName
  · simp [t1, Zip.openPackage, zonePlace]
  by_cases t2 : Tag.ofStr p.tag = .fileName
  · simp [t2, Zip.openFile, zonePlace]
  by_cases t3 : Tag.ofStr p.tag = .snippetSPDXID
  · obtain ⟨f, hf⟩ := Option.ne_none_iff_exists'.1 (h3 t3)
    simp [t3, Zip.openSnippet, zonePlace, hf]
  rw [if_neg t1, if_neg t2, if_neg t3]
  have : (zonePlace (z.add p)) = zonePlace z := by
    unfold zonePlace Zip.add
    cases hf : z.fl with
    | none => cases hk : z.pk <;> simp [hf, hk]
    | some f =>
      by_cases hs : f.snippets = []
      · simp [hs]
      · have : modLast (fun x : SnippetSec => { x with pairs := x.pairs ++ [p] }) f.snippets ≠ [] := by
          intro hc; exact hs ((modLast_eq_nil _ _).1 hc)
        simp [hs, this]
  rw [this]
  generalize Tag.ofStr p.tag = tag at *
  cases tag <;> simp_all

/-- What a pair does to the open sections, in front of the licenses and reviews. -/
theorem moves_zone {v : Version} {z : Zip} {s s' : Parser} {p : TVPair} (hr : Reads v z s) (ht : ¬inTail s)
    (hr' : Reads v (stepZ z p) s') (h3 : Tag.ofStr p.tag = .snippetSPDXID → z.fl ≠ none) : Moves s p s' := by
  have hpl := zone_place hr ht
  have f1 : s.st = .file ↔ zonePlace z = .file := by rw [← hpl, stPlace_file]
  have f2 : s.st = .package ↔ zonePlace z = .package := by rw [← hpl, stPlace_package]
  have l1 := lacks_file hr.tree
  have l2 := lacks_pkg hr.tree
  have l3 := lacks_file hr'.tree
  have l4 := lacks_pkg hr'.tree
  unfold stepZ at l3 l4
  simp only [← tag_packageName, ← tag_fileName, ← tag_snippetSPDXID] at l3 l4
  refine ⟨?_, ?_⟩
  · rw [l3, l1, f1]
    by_cases t1 : Tag.ofStr p.tag = .packageName
    · simp [t1, Zip.openPackage]
    by_cases t2 : Tag.ofStr p.tag = .fileName
    · simp [t2, Zip.openFile, values]
    by_cases t3 : Tag.ofStr p.tag = .snippetSPDXID
    · obtain ⟨f, hf⟩ := Option.ne_none_iff_exists'.1 (h3 t3)
      simp [t3, Zip.openSnippet, hf]
    rw [if_neg t1, if_neg t2, if_neg t3]
    simp only [t1, t2, ne_eq, not_false_eq_true, true_and, false_or]
    unfold zonePlace Zip.add
    cases hf : z.fl with
    | none => simp [hf]
    | some f =>
      by_cases hs : f.snippets = []
      · simp [hs, values_snoc, ← tag_spdxID]
      · simp [hs]
  · rw [l4, l2, f2]
    by_cases t1 : Tag.ofStr p.tag = .packageName
    · simp [t1, Zip.openPackage, values]
    by_cases t2 : Tag.ofStr p.tag = .fileName
    · cases hk : z.pk <;> simp [t2, Zip.openFile, hk]
    by_cases t3 : Tag.ofStr p.tag = .snippetSPDXID
    · obtain ⟨f, hf⟩ := Option.ne_none_iff_exists'.1 (h3 t3)
      simp [t3, Zip.openSnippet, hf]
    rw [if_neg t1, if_neg t2, if_neg t3]
    simp only [t1, t2, ne_eq, not_false_eq_true, true_and, false_or]
    unfold zonePlace Zip.add
    cases hf : z.fl with
    | none =>
      cases hk : z.pk with
      | none => simp [hf, hk]
      | some k => simp [values_snoc, ← tag_spdxID]
    | some f =>
      by_cases hs : f.snippets = []
      · simp [hs]
      · simp [hs]

theorem tracks_step {v : Version} {a : List TVPair} {s s' : Parser} {p : TVPair} (h : parsePair v s p = .ok s')
    (hr : Tracks v a s) (hn : p.tag = g!"PackageName" → p.value ≠ []) : Tracks v (a ++ [p]) s' ∧ Moves s p s' := by
  have hinv : Inv v s' := by
    have := safe_pair (p := p) hr.inv
    rw [h] at this; exact Or.inr this
  have hsays := says_step hr.says h
  by_cases tail : Tag.ofStr p.tag = .licenseID ∨ Tag.ofStr p.tag = .reviewer ∨ inTail s
  · obtain ⟨hal, htl⟩ := pair_tail h tail
    have hl := hal.lacks
    have hne : ¬Ahead s'.st ∧ s'.st ≠ .package ∧ s'.st ≠ .file := by
      rcases htl with e | e <;> rw [e] <;> simp [Ahead]
    have notp : Tag.ofStr p.tag ≠ .packageName ∧ Tag.ofStr p.tag ≠ .fileName ∧ Tag.ofStr p.tag ≠ .snippetSPDXID := by
      rcases tail with e | e | e
      · simp [e]
      · simp [e]
      · unfold parsePair at h
        rcases e with e | e
        · rw [e] at h
          refine ⟨fun hc => ?_, fun hc => ?_, fun hc => ?_⟩ <;> rw [hc] at h <;>
            simp [parseFromOtherLicense, parseShared] at h
        · rw [e] at h
          refine ⟨fun hc => ?_, fun hc => ?_, fun hc => ?_⟩ <;> rw [hc] at h <;>
            simp [parseFromReview, parseShared] at h
    refine ⟨⟨hinv, hsays, ?_, fun e => absurd e hne.1, fun e => absurd htl e, fun e => absurd e hne.2.1,
      fun e => absurd e hne.2.2⟩, ?_⟩
    · rw [placeOf_snoc, opens_iff]
      by_cases e1 : Tag.ofStr p.tag = .licenseID
      · rw [st_opensLicense h e1, e1]; rfl
      by_cases e2 : Tag.ofStr p.tag = .reviewer
      · rw [st_opensReview h e2, e2]; rfl
      have ht : inTail s := by simpa [e1, e2] using tail
      rw [st_inTail h ht e2, hr.place]
      obtain ⟨n1, n2, n3⟩ := notp
      generalize Tag.ofStr p.tag = tag at *
      cases tag <;> simp_all
    · have nid : ∀ st, (st = PState.file ∨ st = PState.package) → ¬(s.st = st ∧ Tag.ofStr p.tag = .spdxID) := by
        rintro st hst ⟨e1, e2⟩
        rcases tail with e | e | e
        · rw [e2] at e; simp at e
        · rw [e2] at e; simp at e
        · rcases e with e | e <;> rw [e] at e1 <;> subst e1 <;> simp at hst
      exact ⟨by simp [notp, hl.1, nid .file], by simp [notp, hl.2, nid .package]⟩
  · have ht1 : Tag.ofStr p.tag ≠ .licenseID := fun e => tail (Or.inl e)
    have ht2 : Tag.ofStr p.tag ≠ .reviewer := fun e => tail (Or.inr (Or.inl e))
    have ht : ¬inTail s := fun e => tail (Or.inr (Or.inr e))
    obtain ⟨z, hz⟩ := hr.zone ht
    obtain ⟨k1, k2, -⟩ := reads_step h hz hn (fun e => ht1 ((tag_licenseID _).2 e)) (fun e => ht2 ((tag_reviewer _).2 e)) ht
    have zone := hz.zone
    have h3 : Tag.ofStr p.tag = .snippetSPDXID → z.fl ≠ none := by
      intro e
      unfold ZoneOK at zone
      rcases (pair_snippet h e).1 with h1 | h1
      · rw [show (seen s).st = .file from h1] at zone; obtain ⟨f, hf, -⟩ := zone; simp [hf]
      · rw [show (seen s).st = .snippet from h1] at zone; obtain ⟨f, hf, -⟩ := zone; simp [hf]
    have hplace : stPlace s'.st = placeOf (a ++ [p]) := by
      rw [zone_place k1 k2, zonePlace_step ht1 ht2 h3, ← zone_place hz ht, hr.place, placeOf_snoc]
    have hpk : Tag.ofStr p.tag = .packageName → s'.pkgExtRef = none := by
      intro t1
      refine (pair_package h t1 (fun _ => hz.tree.named) ?_ ?_).2.2.1
      · intro hh
        refine hz.tree.file.2 ?_
        rcases hh with hh | hh
        · exact (hz.ahead hh).2
        · unfold ZoneOK at zone; rw [show (seen s).st = .package from hh] at zone; exact zone.2
      · intro hh
        rw [hz.tree.fileLacks]
        unfold ZoneOK at zone; rw [show (seen s).st = .snippet from hh] at zone
        obtain ⟨f, z1, -, z2, -⟩ := zone
        intro f' hf'
        rw [z1] at hf'; simp at hf'; subst hf'; exact z2
    have hfl : Tag.ofStr p.tag = .fileName → s'.fileAOP = none := fun t2 =>
      (pair_file h t2 (fun ha => hz.tree.pkg.2 (hz.ahead ha).1)).2.1
    have same : opens p.tag = none → stPlace s'.st = stPlace s.st := by
      intro e; rw [hplace, placeOf_snoc, e, hr.place]; rfl
    have other : ∀ pl, stPlace s'.st = pl → opens p.tag = some pl ∨ (opens p.tag = none ∧ stPlace s.st = pl) := by
      intro pl e
      rw [hplace, placeOf_snoc, ← hr.place] at e
      cases ho : opens p.tag with
      | none => rw [ho] at e; exact Or.inr ⟨rfl, e⟩
      | some q => rw [ho] at e; exact Or.inl (by rw [← e]; rfl)
    have onlyP : opens p.tag = some .package → Tag.ofStr p.tag = .packageName := by
      rw [opens_iff]; generalize Tag.ofStr p.tag = tag; cases tag <;> simp
    have onlyF : opens p.tag = some .file → Tag.ofStr p.tag = .fileName := by
      rw [opens_iff]; generalize Tag.ofStr p.tag = tag; cases tag <;> simp
    have onlyH : opens p.tag ≠ some .header := by
      rw [opens_iff]; generalize Tag.ofStr p.tag = tag; cases tag <;> simp
    refine ⟨⟨hinv, hsays, hplace, ?_, fun _ => ⟨_, k1⟩, ?_, ?_⟩, moves_zone hz ht k1 h3⟩
    · intro ha
      rcases other .header (stPlace_header.2 ha) with e | ⟨e, e'⟩
      · exact absurd e onlyH
      · obtain ⟨n1, n2, -, n3, n4⟩ := opens_none.1 e
        rw [st_ahead h (stPlace_header.1 e') n1 n2 n3 n4]
        simp
    · intro hs
      rcases other .package (stPlace_package.2 hs) with e | ⟨e, e'⟩
      · have := onlyP e
        simp [hpk this, this]
      · obtain ⟨n1, n2, -, n3, n4⟩ := opens_none.1 e
        have hs := stPlace_package.1 e'
        unfold parsePair at h
        rw [hs] at h
        unfold ZoneOK at zone; rw [show (seen s).st = .package from hs] at zone
        obtain ⟨P, q, e1, e2, -⟩ := hz.tree.addPackage zone.2 zone.1 p
        have e1' : s.pkgs = P ++ [q] := e1
        obtain ⟨q', -, -, -, hx⟩ := view_package h e1 e2 (hz.ext hs q (by rw [e1']; simp)) n1 n2 n3 n4
        rw [hx]; simp
    · intro hs
      rcases other .file (stPlace_file.2 hs) with e | ⟨e, e'⟩
      · have := onlyF e
        simp [hfl this, this]
      · obtain ⟨n1, n2, n5, n3, n4⟩ := opens_none.1 e
        have hs := stPlace_file.1 e'
        unfold parsePair at h
        rw [hs] at h
        unfold ZoneOK at zone; rw [show (seen s).st = .file from hs] at zone
        obtain ⟨sec, z1, z2⟩ := zone
        obtain ⟨B, f, e1, e2, -⟩ := hz.tree.addFile z1 z2 p
        have e1' : s.files = B ++ [f] := e1
        obtain ⟨f', -, -, -, hx⟩ := view_file h e1 e2 (hz.aop hs f (by rw [e1']; simp)) n1 n2 n3 n4 n5
        rw [hx]; simp

end Verif
