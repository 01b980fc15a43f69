import Verif.Lemmas.SectionInv

set_option linter.unusedSimpArgs false

/-!
# One pair, and the sections read so far
-/

namespace Verif
open Spec

/-- The parser state holds what the sections read so far say. -/
structure Reads (v : Version) (z : Zip) (s : Parser) : Prop where
  tree : Tree v z (seen s)
  zone : ZoneOK z (seen s)
  ext : s.st = .package → ∀ p, s.pkgs.getLast? = some p → ∀ n, s.pkgExtRef = some n → lastIdx p.externalRefs = some n
  aop : s.st = .file → ∀ f, s.files.getLast? = some f → ∀ n, s.fileAOP = some n → lastIdx f.artifactOfProjects = some n

theorem regs_snoc (ps : List TVPair) (q : TVPair) (n : Nat) :
    regs (ps ++ [q]) n = regs ps n ++ (if Tag.ofStr q.tag = .spdxID then [n] else []) := by
  unfold regs
  rw [values_snoc, List.map_append]
  simp only [tag_spdxID]
  split <;> simp

/-- A snippet section is opened. -/
theorem Tree.openSnippet {v : Version} {z : Zip} {w : Seen} {sec : FileSec} (h : Tree v z w) (hz : z.fl = some sec) {id e : Str}
    (he : IdReads id e) (st : PState) {B : List (File Nat)} {f : File Nat} (hB : w.files = B ++ [f]) (sn : Option Nat) :
    Tree v (z.openSnippet id) { w with
      st := st, snippet := sn, snips := w.snips ++ [{ spdxId := e }],
      files := B ++ [{ f with snippets := mapInsert e w.snips.length f.snippets }] } := by
  obtain ⟨P, B0, C, h1, h2, hc⟩ := h
  unfold FileOpen at h1
  rw [hz] at h1
  obtain ⟨e1, f0, xs, e2, e3, e4, e5, e6⟩ := h1
  rw [hB] at e2
  obtain ⟨rfl, e2⟩ := List.append_inj' e2 rfl
  obtain rfl : f = f0 := by simpa using e2
  refine ⟨P, B, C, ?_, ?_, ?_⟩
  · simp only [FileOpen, Zip.openSnippet, hz, Option.map_some]
    refine ⟨e1, _, xs ++ [{ spdxId := e }], rfl, by rw [e3, List.append_assoc], fileFields_see e4 _, ?_, e6.snoc (snippetSays_new he)⟩
    rw [linkFrom_snoc, ← e5, e3, List.length_append]
  · unfold PkgOpen at h2 ⊢
    cases hk : z.pk with
    | none => rw [hk] at h2; simpa [Zip.openSnippet, hk] using h2
    | some k =>
      rw [hk] at h2
      simp only [Zip.openSnippet, hk, hz, Option.map_some, regsF] at h2 ⊢
      exact h2
  · refine ⟨?_, hc.docP, hc.files, hc.packages⟩
    have := hc.docF
    simpa only [Zip.openSnippet, hz, Option.map_some, regsF] using this

/-- A pair of a snippet section. -/
theorem Tree.addSnippet {v : Version} {z : Zip} {w : Seen} {sec : FileSec} (h : Tree v z w) (hz : z.fl = some sec)
    (hs : sec.snippets ≠ []) (q : TVPair) : ∃ C x, w.snips = C ++ [x] ∧
    ∀ x', SnipStep v (Tag.ofStr q.tag) q.value x x' → Tree v (z.add q) { w with snips := C ++ [x'] } := by
  obtain ⟨P, B, C, h1, h2, hc⟩ := h
  unfold FileOpen at h1
  rw [hz] at h1
  obtain ⟨e1, f, xs, e2, e3, e4, e5, e6⟩ := h1
  rcases list_snoc sec.snippets with hn | ⟨ss, t, hss⟩
  · exact absurd hn hs
  rw [hss] at e6
  obtain ⟨xs, x, rfl, e6, e7⟩ := e6.snoc_left
  refine ⟨C ++ xs, x, by rw [e3, List.append_assoc], ?_⟩
  intro x' H
  have hadd : z.add q = { z with fl := some { sec with snippets := ss ++ [{ t with pairs := t.pairs ++ [q] }] } } := by
    simp [Zip.add, hz, hss, hs]
  rw [hadd]
  refine ⟨P, B, C, ?_, ?_, ?_⟩
  · refine ⟨e1, f, xs ++ [x'], e2, by rw [← List.append_assoc], e4, ?_, ?_⟩
    · rw [e5, linkFrom_snoc, linkFrom_snoc, snip_spdxId H]
    · exact e6.snoc (snippetSays_step e7 H)
  · unfold PkgOpen at h2 ⊢
    cases hk : z.pk with
    | none => rw [hk] at h2; simpa using h2
    | some k =>
      rw [hk] at h2
      simp only [hz, regsF] at h2 ⊢
      exact h2
  · refine ⟨?_, hc.docP, hc.files, hc.packages⟩
    have := hc.docF
    simpa only [hz, regsF] using this

/-- A pair of a package section. -/
theorem Tree.addPackage {v : Version} {z : Zip} {w : Seen} (h : Tree v z w) (hz : z.fl = none) (hk : z.pk ≠ none)
    (q : TVPair) : ∃ P p, w.pkgs = P ++ [p] ∧ w.pkg = some P.length ∧
    ∀ ext p', PkgStep v (Tag.ofStr q.tag) q.value ext p p' → Tree v (z.add q) { w with
      pkgs := P ++ [p'], docP := w.docP ++ (if Tag.ofStr q.tag = .spdxID then [P.length] else []) } := by
  obtain ⟨P, B, C, h1, h2, hc⟩ := h
  rcases hk' : z.pk with _ | k
  · exact absurd hk' hk
  unfold PkgOpen at h2
  rw [hk'] at h2
  obtain ⟨e1, p, e2, e3, e4, e5, e6, is, e7, e8⟩ := h2
  refine ⟨P, p, e2, e1, ?_⟩
  intro ext p' H
  have hadd : z.add q = { z with pk := some { k with pairs := k.pairs ++ [q] } } := by simp [Zip.add, hz, hk']
  rw [hadd]
  refine ⟨P, B, C, h1, ?_, ?_⟩
  · refine ⟨e1, p', rfl, ?_, e4, e5, packageFields_step e6 H, is, ?_, e8⟩
    · rw [pkg_name H]; exact e3
    · rw [pkg_files H]; exact e7
  · obtain ⟨ip, i1, i2⟩ := hc.docP
    refine ⟨?_, ⟨ip, ?_, i2⟩, hc.files, hc.packages⟩
    · have := hc.docF
      simpa only [hz, hk', regsF, reduceCtorEq, if_false] using this
    · simp only [i1, hk', regsP, regs_snoc, List.append_assoc]

/-- A pair of a file section. -/
theorem Tree.addFile {v : Version} {z : Zip} {w : Seen} {sec : FileSec} (h : Tree v z w) (hz : z.fl = some sec)
    (hs : sec.snippets = []) (q : TVPair) : ∃ B f, w.files = B ++ [f] ∧ w.file = some B.length ∧
    ∀ aop f', FileStep v (Tag.ofStr q.tag) q.value aop f f' → Tree v (z.add q) { w with
      files := B ++ [f']
      docF := w.docF ++ (if Tag.ofStr q.tag = .spdxID ∧ w.pkg = none then [B.length] else [])
      pkgs := if Tag.ofStr q.tag = .spdxID then (match w.pkg with
        | none => w.pkgs
        | some i => w.pkgs.modify i fun p => { p with files := p.files ++ [B.length] }) else w.pkgs } := by
  have hpk := h.pkg
  obtain ⟨P, B, C, h1, h2, hc⟩ := h
  unfold FileOpen at h1
  rw [hz] at h1
  obtain ⟨e1, f, xs, e2, e3, e4, e5, e6⟩ := h1
  refine ⟨B, f, e2, e1, ?_⟩
  intro aop f' H
  have hadd : z.add q = { z with fl := some { sec with pairs := sec.pairs ++ [q] } } := by simp [Zip.add, hz, hs]
  rw [hadd]
  refine ⟨P, B, C, ?_, ?_, ?_⟩
  · exact ⟨e1, f', xs, rfl, e3, fileFields_step e4 H, (file_snippets H).trans e5, e6⟩
  · unfold PkgOpen at h2 ⊢
    cases hk : z.pk with
    | none =>
      rw [hk] at h2
      refine ⟨h2.1, ?_⟩
      simp only [h2.1]
      rw [h2.2]; split <;> rfl
    | some k =>
      rw [hk] at h2
      obtain ⟨i1, p, i2, i3, i4, i5, i6, is, i7, i8⟩ := h2
      rw [hz] at i7
      simp only [i1]
      refine ⟨trivial, ?_⟩
      by_cases ht : Tag.ofStr q.tag = .spdxID
      · rw [if_pos ht, i2, modify_last]
        refine ⟨_, rfl, i3, i4, i5, packageFields_see i6 _, is, ?_, i8⟩
        simp only [regsF, regs_snoc, if_pos ht, i7, List.append_assoc]
      · rw [if_neg ht]
        refine ⟨p, i2, i3, i4, i5, i6, is, ?_, i8⟩
        simp only [regsF, regs_snoc, if_neg ht, i7, List.append_nil]
  · obtain ⟨is, i1, i2⟩ := hc.docF
    refine ⟨⟨is, ?_, i2⟩, hc.docP, hc.files, hc.packages⟩
    simp only [i1, hz, regsF, regs_snoc]
    by_cases hp : z.pk = none
    · have := hpk.2 hp
      simp [hp, this]
    · have : w.pkg ≠ none := fun hh => hp (hpk.1 hh)
      simp [hp, this]

/-- One pair of the sections about elements. -/
def stepZ (z : Zip) (p : TVPair) : Zip :=
  if p.tag = g!"PackageName" then z.openPackage p.value
  else if p.tag = g!"FileName" then z.openFile p.value
  else if p.tag = g!"SnippetSPDXID" then z.openSnippet p.value
  else z.add p

theorem Reads.ahead {v : Version} {z : Zip} {s : Parser} (h : Reads v z s) (ha : Ahead s.st) : z.pk = none ∧ z.fl = none := by
  have := h.zone
  unfold ZoneOK at this
  rcases ha with ha | ha
  · rw [show (seen s).st = .start from ha] at this; exact this
  · rw [show (seen s).st = .creationInfo from ha] at this; exact this

/-- One pair. -/
theorem reads_step {v : Version} {z : Zip} {s s' : Parser} {p : TVPair} (h : parsePair v s p = .ok s') (hr : Reads v z s)
    (hn : p.tag = g!"PackageName" → p.value ≠ []) (ht1 : p.tag ≠ g!"LicenseID") (ht2 : p.tag ≠ g!"Reviewer")
    (hst : ¬inTail s) :
    Reads v (stepZ z p) s' ∧ ¬inTail s' ∧
      ∀ ps, finish (stepZ z p) (sectionsFrom ps) = finish z (sectionsFrom (p :: ps)) := by
  have zone := hr.zone
  unfold stepZ
  by_cases t1 : p.tag = g!"PackageName"
  · rw [if_pos t1]
    obtain ⟨h1, h2, h3, h4⟩ := pair_package h ((tag_packageName _).2 t1) (fun _ => hr.tree.named)
      (by
        intro hh
        refine hr.tree.file.2 ?_
        rcases hh with hh | hh
        · exact (hr.ahead hh).2
        · unfold ZoneOK at zone; rw [show (seen s).st = .package from hh] at zone; exact zone.2)
      (by
        intro hh
        rw [hr.tree.fileLacks]
        unfold ZoneOK at zone; rw [show (seen s).st = .snippet from hh] at zone
        obtain ⟨f, z1, -, z2, -⟩ := zone
        intro f' hf'
        rw [z1] at hf'; simp at hf'; subst hf'; exact z2)
    have hids : ∀ k, z.pk = some k → values g!"SPDXID" k.pairs ≠ [] := by
      by_cases ha : Ahead s.st
      · rw [(hr.ahead ha).1]; simp
      · exact hr.tree.pkgLacks.1 (h2 ha)
    have hst' : s'.st = .package := congrArg Seen.st h4
    refine ⟨⟨?_, ?_, ?_, ?_⟩, ?_, ?_⟩
    · rw [h4]; exact hr.tree.openPackage _ (hn t1) (hr.tree.fileLacks.1 h1) hids .package s'.snippet
    · rw [h4]; exact ⟨by simp [Zip.openPackage], rfl⟩
    · intro _ p' _ n hh; rw [h3] at hh; simp at hh
    · intro hh; rw [hst'] at hh; simp at hh
    · unfold inTail; rw [hst']; simp
    · intro ps; exact finish_openPackage ps hr.tree.tidy t1
  rw [if_neg t1]
  by_cases t2 : p.tag = g!"FileName"
  · rw [if_pos t2]
    obtain ⟨h1, h2, h3⟩ := pair_file h ((tag_fileName _).2 t2) (fun ha => hr.tree.pkg.2 (hr.ahead ha).1)
    have hst' : s'.st = .file := congrArg Seen.st h3
    refine ⟨⟨?_, ?_, ?_, ?_⟩, ?_, ?_⟩
    · rw [h3]; exact hr.tree.openFile _ (hr.tree.fileLacks.1 h1) .file s'.snippet
    · rw [h3]; exact ⟨_, rfl, rfl⟩
    · intro hh; rw [hst'] at hh; simp at hh
    · intro _ p' _ n hh; rw [h2] at hh; simp at hh
    · unfold inTail; rw [hst']; simp
    · intro ps; exact finish_openFile ps hr.tree.tidy t2
  rw [if_neg t2]
  by_cases t3 : p.tag = g!"SnippetSPDXID"
  · rw [if_pos t3]
    obtain ⟨h1, h2⟩ := pair_snippet h ((tag_snippetSPDXID _).2 t3)
    obtain ⟨sec, hz⟩ : ∃ sec, z.fl = some sec := by
      unfold ZoneOK at zone
      rcases h1 with h1 | h1
      · rw [show (seen s).st = .file from h1] at zone; obtain ⟨f, hf, -⟩ := zone; exact ⟨f, hf⟩
      · rw [show (seen s).st = .snippet from h1] at zone; obtain ⟨f, hf, -⟩ := zone; exact ⟨f, hf⟩
    obtain ⟨B, f, hB, hf⟩ : ∃ B f, s.files = B ++ [f] ∧ s.file = some B.length := by
      obtain ⟨P, B, C, k1, -, -⟩ := hr.tree
      unfold FileOpen at k1
      rw [hz] at k1
      obtain ⟨e1, f, xs, e2, -⟩ := k1
      exact ⟨B, f, e2, e1⟩
    obtain ⟨h3, e, he, h4⟩ := h2 B f hB hf
    have hst' : s'.st = .snippet := congrArg Seen.st h4
    refine ⟨⟨?_, ?_, ?_, ?_⟩, ?_, ?_⟩
    · rw [h4]; exact hr.tree.openSnippet hz (idReads_iff.1 he) .snippet hB (some s.snips.length)
    · rw [h4]
      refine ⟨{ sec with snippets := sec.snippets ++ [⟨p.value, []⟩] }, by simp [Zip.openSnippet, hz], by simp, ?_, by simp⟩
      exact hr.tree.fileLacks.1 h3 sec hz
    · intro hh; rw [hst'] at hh; simp at hh
    · intro hh; rw [hst'] at hh; simp at hh
    · unfold inTail; rw [hst']; simp
    · intro ps; exact finish_openSnippet ps hz t3
  rw [if_neg t3]
  have n1 : Tag.ofStr p.tag ≠ .packageName := fun hh => t1 ((tag_packageName _).1 hh)
  have n2 : Tag.ofStr p.tag ≠ .fileName := fun hh => t2 ((tag_fileName _).1 hh)
  have n3 : Tag.ofStr p.tag ≠ .licenseID := fun hh => ht1 ((tag_licenseID _).1 hh)
  have n4 : Tag.ofStr p.tag ≠ .reviewer := fun hh => ht2 ((tag_reviewer _).1 hh)
  have n5 : Tag.ofStr p.tag ≠ .snippetSPDXID := fun hh => t3 ((tag_snippetSPDXID _).1 hh)
  suffices H : Reads v (z.add p) s' ∧ ¬inTail s' from ⟨H.1, H.2, fun ps => finish_add ps t1 t2 t3⟩
  by_cases ha : Ahead s.st
  · obtain ⟨h1, h2⟩ := pair_ahead h ha n1 n2 n3 n4
    obtain ⟨k1, k2⟩ := hr.ahead ha
    have hadd : z.add p = z := by
      cases z; simp at k1 k2; simp [Zip.add, k1, k2]
    rw [hadd]
    refine ⟨⟨?_, ?_, ?_, ?_⟩, ?_⟩
    · rw [h1.st]
      exact hr.tree.st s'.st (seen s).snippet
    · unfold ZoneOK
      rcases h2 with h2 | h2 <;> rw [show (seen s').st = s'.st from rfl, h2] <;> exact ⟨k1, k2⟩
    · intro hh; rw [hh] at h2; simp [Ahead] at h2
    · intro hh; rw [hh] at h2; simp [Ahead] at h2
    · intro hh; rcases hh with hh | hh <;> rw [hh] at h2 <;> simp [Ahead] at h2
  · cases hs : s.st with
    | start => exact absurd (Or.inl hs) ha
    | creationInfo => exact absurd (Or.inr hs) ha
    | otherLicense => exact absurd (Or.inl hs) hst
    | review => exact absurd (Or.inr hs) hst
    | package =>
      unfold parsePair at h
      rw [hs] at h
      unfold ZoneOK at zone; rw [show (seen s).st = .package from hs] at zone
      obtain ⟨P, q, e1, e2, e3⟩ := hr.tree.addPackage zone.2 zone.1 p
      have e1' : s.pkgs = P ++ [q] := e1
      obtain ⟨q', H, hv, hx, -⟩ := view_package h e1 e2 (hr.ext hs q (by rw [e1']; simp)) n1 n2 n3 n4
      have hst' : s'.st = .package := (congrArg Seen.st hv).trans hs
      have hp' : s'.pkgs = P ++ [q'] := congrArg Seen.pkgs hv
      refine ⟨⟨?_, ?_, ?_, ?_⟩, ?_⟩
      · rw [hv]; exact e3 _ _ H
      · unfold ZoneOK
        rw [show (seen s').st = .package from hst']
        rcases hk : z.pk with _ | k
        · exact absurd hk zone.1
        · simp [Zip.add, zone.2, hk]
      · intro _ x hx' n hh
        rw [hp'] at hx'; simp at hx'; subst hx'
        exact hx n hh
      · intro hh; rw [hst'] at hh; simp at hh
      · unfold inTail; rw [hst']; simp
    | file =>
      unfold parsePair at h
      rw [hs] at h
      unfold ZoneOK at zone; rw [show (seen s).st = .file from hs] at zone
      obtain ⟨sec, z1, z2⟩ := zone
      obtain ⟨B, f, e1, e2, e3⟩ := hr.tree.addFile z1 z2 p
      have e1' : s.files = B ++ [f] := e1
      obtain ⟨f', H, hv, hx, -⟩ := view_file h e1 e2 (hr.aop hs f (by rw [e1']; simp)) n1 n2 n3 n4 n5
      have hst' : s'.st = .file := (congrArg Seen.st hv).trans hs
      have hf' : s'.files = B ++ [f'] := congrArg Seen.files hv
      refine ⟨⟨?_, ?_, ?_, ?_⟩, ?_⟩
      · rw [hv]; exact e3 _ _ H
      · unfold ZoneOK
        rw [show (seen s').st = .file from hst']
        exact ⟨{ sec with pairs := sec.pairs ++ [p] }, by simp [Zip.add, z1, z2], z2⟩
      · intro hh; rw [hst'] at hh; simp at hh
      · intro _ x hx' n hh
        rw [hf'] at hx'; simp at hx'; subst hx'
        exact hx n hh
      · unfold inTail; rw [hst']; simp
    | snippet =>
      unfold parsePair at h
      rw [hs] at h
      unfold ZoneOK at zone; rw [show (seen s).st = .snippet from hs] at zone
      obtain ⟨sec, z1, z2, z3, z4⟩ := zone
      obtain ⟨C, x, e1, e3⟩ := hr.tree.addSnippet z1 z2 p
      have e1' : s.snips = C ++ [x] := e1
      have z4' : s.snippet = some C.length := by
        have : s.snippet = some (s.snips.length - 1) := z4
        rw [this, e1']; simp
      obtain ⟨x', H, hv⟩ := view_snippet h e1 z4' n1 n2 n3 n4 n5
      have hst' : s'.st = .snippet := (congrArg Seen.st hv).trans hs
      refine ⟨⟨?_, ?_, ?_, ?_⟩, ?_⟩
      · rw [hv]; exact e3 _ H
      · unfold ZoneOK
        rw [show (seen s').st = .snippet from hst']
        refine ⟨{ sec with snippets := modLast (fun x => { x with pairs := x.pairs ++ [p] }) sec.snippets },
          by simp [Zip.add, z1, z2], by simpa [modLast_eq_nil] using z2, z3, ?_⟩
        rw [hv]
        simp [seen, z4']
      · intro hh; rw [hst'] at hh; simp at hh
      · intro hh; rw [hst'] at hh; simp at hh
      · unfold inTail; rw [hst']; simp

/-- The pairs about elements. -/
theorem reads_pairs {v : Version} {ps : List TVPair} : ∀ {z : Zip} {s s' : Parser}, parsePairs v s ps = .ok s' → Reads v z s →
    (∀ p ∈ ps, p.tag = g!"PackageName" → p.value ≠ []) → (∀ p ∈ ps, p.tag ≠ g!"LicenseID" ∧ p.tag ≠ g!"Reviewer") →
    ¬inTail s → ∃ z', Reads v z' s' ∧ ¬inTail s' ∧ finish z' (sectionsFrom []) = finish z (sectionsFrom ps) := by
  induction ps with
  | nil =>
    intro z s s' h hr _ _ hst
    simp only [parsePairs, Res.ok.injEq] at h
    subst h
    exact ⟨z, hr, hst, rfl⟩
  | cons p ps ih =>
    intro z s s' h hr hn ht hst
    simp only [parsePairs] at h
    split at h
    · rename_i s1 h1
      obtain ⟨k1, k2, k3⟩ := reads_step h1 hr (hn p (by simp)) (ht p (by simp)).1 (ht p (by simp)).2 hst
      obtain ⟨z', i1, i2, i3⟩ := ih h k1 (fun q hq => hn q (by simp [hq])) (fun q hq => ht q (by simp [hq])) k2
      exact ⟨z', i1, i2, i3.trans (k3 ps)⟩
    · simp at h
    · simp at h

/-- The pairs behind them. -/
theorem alike_tail {v : Version} {ps : List TVPair} : ∀ {s s' : Parser}, parsePairs v s ps = .ok s' → inTail s → Alike s' s := by
  induction ps with
  | nil =>
    intro s s' h _
    simp only [parsePairs, Res.ok.injEq] at h
    subst h; rfl
  | cons p ps ih =>
    intro s s' h hst
    simp only [parsePairs] at h
    split at h
    · rename_i s1 h1
      obtain ⟨k1, k2⟩ := pair_tail h1 (Or.inr (Or.inr hst))
      exact (ih h k2).trans k1
    · simp at h
    · simp at h

theorem reads_empty (v : Version) : Reads v {} {} := by
  refine ⟨⟨[], [], [], ⟨rfl, rfl, rfl⟩, ⟨rfl, rfl⟩, ⟨[], rfl, .nil⟩, ⟨[], rfl, .nil⟩, by simp, by simp⟩, ⟨rfl, rfl⟩, ?_, ?_⟩ <;>
    intro h <;> simp at h

/-- A whole text. -/
theorem tree_text {v : Version} {tvs : List TVPair} {s : Parser} (h : parsePairs v {} tvs = .ok s) (hn : PackagesNamed tvs) :
    ∃ z, Tree v z (seen s) ∧ finish z (sectionsFrom []) = finish {} (sectionsOf tvs) := by
  have hsplit := List.takeWhile_append_dropWhile (p := fun p : TVPair => decide (p.tag ≠ g!"LicenseID" ∧ p.tag ≠ g!"Reviewer")) (l := tvs)
  rw [← hsplit, parsePairs_append] at h
  have hel : tvs.takeWhile (fun p : TVPair => decide (p.tag ≠ g!"LicenseID" ∧ p.tag ≠ g!"Reviewer")) = elementPairs tvs := rfl
  rw [hel] at h hsplit
  rw [bind_eq_ok] at h
  obtain ⟨s1, h1, h2⟩ := h
  obtain ⟨z, hr, hst, hz⟩ := reads_pairs h1 (reads_empty v)
    (fun p hp => hn p (by rw [← hsplit]; exact List.mem_append_left _ hp))
    (fun p hp => by
      have := List.all_eq_true.1 (List.all_takeWhile (l := tvs)
        (p := fun p : TVPair => decide (p.tag ≠ g!"LicenseID" ∧ p.tag ≠ g!"Reviewer"))) p hp
      exact of_decide_eq_true this)
    (by simp [inTail])
  refine ⟨z, ?_, hz⟩
  have hal : Alike s s1 := by
    cases hd : tvs.dropWhile (fun p : TVPair => decide (p.tag ≠ g!"LicenseID" ∧ p.tag ≠ g!"Reviewer")) with
    | nil =>
      rw [hd] at h2
      simp only [parsePairs, Res.ok.injEq] at h2
      subst h2; rfl
    | cons q ps =>
      rw [hd] at h2
      have hq : ¬(q.tag ≠ g!"LicenseID" ∧ q.tag ≠ g!"Reviewer") := by
        have := List.head?_dropWhile_not (p := fun p : TVPair => decide (p.tag ≠ g!"LicenseID" ∧ p.tag ≠ g!"Reviewer")) tvs
        rw [hd] at this
        simpa using this
      have hq' : Tag.ofStr q.tag = .licenseID ∨ Tag.ofStr q.tag = .reviewer := by
        rw [tag_licenseID, tag_reviewer]
        by_cases e : q.tag = g!"LicenseID"
        · exact Or.inl e
        · by_cases e' : q.tag = g!"Reviewer"
          · exact Or.inr e'
          · exact absurd ⟨e, e'⟩ hq
      simp only [parsePairs] at h2
      split at h2
      · rename_i s2 h3
        obtain ⟨k1, k2⟩ := pair_tail h3 (by rcases hq' with e | e <;> simp [e])
        exact (alike_tail h2 k2).trans k1
      · simp at h2
      · simp at h2
  rw [hal.st]
  exact hr.tree.st s.st (seen s1).snippet

end Verif
