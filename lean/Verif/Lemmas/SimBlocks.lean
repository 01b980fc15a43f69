import Verif.Lemmas.SimFields

set_option linter.unusedSimpArgs false

/-!
# Parsing the blocks the writer prints

A file with its snippets, and a package with its files.
-/

namespace Verif
open Spec

theorem pairsOf_field (t x : Str) : pairsOf [.field t x] = [⟨t, x⟩] := rfl

theorem parsePairs_cons {v : Version} {s s' : Parser} {p : TVPair} (h : parsePair v s p = .ok s') (ps : List TVPair) :
    parsePairs v s ([p] ++ ps) = parsePairs v s' ps := by
  simp only [List.singleton_append, parsePairs, h]

/-- A state in which a file or package section may begin. -/
structure Ready (c : CreationInfo) (s : Parser) : Prop where
  st : s.st = .creationInfo ∧ s.pkg = none ∨ s.st = .package ∨ s.st = .file ∨ s.st = .snippet
  ci : ∃ d, s.doc = some d ∧ d.creationInfo = some c
  fileId : s.fileLacksId = false
  pkgId : s.pkgLacksId = false
  pkgName : s.pkgNamedOrNil = true

theorem open_file {v : Version} {c : CreationInfo} {s : Parser} (h : Ready c s) (x : Str) :
    ∃ e sn, parsePair v s ⟨g!"FileName", x⟩ = .ok { s with
      st := .file, pkgExtRef := e, snippet := sn, file := some s.files.length,
      files := s.files ++ [{ name := x }], fileAOP := none } := by
  have ht : Tag.ofStr g!"FileName" = .fileName := by decide +kernel
  obtain ⟨h1, ⟨d, hd, hc⟩, h3, h4, h5⟩ := h
  obtain ⟨doc, st, pkg, er, file, aop, snip, ol, rln, ann, rev, pkgs, files, snips⟩ := s
  simp only at hd h1
  subst hd
  simp [Parser.fileLacksId] at h3
  rcases h1 with ⟨rfl, rfl⟩ | rfl | rfl | rfl
  · refine ⟨er, snip, ?_⟩
    simp [parsePair, ht, parseFromCreationInfo, ensureCI, hc, openFile, Parser.fileLacksId, h3, Parser.newFile]
  · refine ⟨none, snip, ?_⟩
    simp [parsePair, ht, parseFromPackage, openFile, Parser.fileLacksId, h3, Parser.newFile]
  · refine ⟨er, snip, ?_⟩
    simp [parsePair, ht, parseFromFile, openFile, Parser.fileLacksId, h3, Parser.newFile]
  · refine ⟨er, none, ?_⟩
    simp [parsePair, ht, parseFromSnippet, openFile, Parser.fileLacksId, h3, Parser.newFile]

theorem open_pkg {v : Version} {c : CreationInfo} {s : Parser} (h : Ready c s) (x : Str) :
    ∃ e fi a sn, (fi = none ∨ fi = s.file) ∧ parsePair v s ⟨g!"PackageName", x⟩ = .ok { s with
      st := .package, pkgExtRef := e, file := fi, fileAOP := a, snippet := sn, pkg := some s.pkgs.length,
      pkgs := s.pkgs ++ [{ name := x, filesAnalyzed := true }] } := by
  have ht : Tag.ofStr g!"PackageName" = .packageName := by decide +kernel
  obtain ⟨h1, ⟨d, hd, hc⟩, h3, h4, h5⟩ := h
  obtain ⟨doc, st, pkg, er, file, aop, snip, ol, rln, ann, rev, pkgs, files, snips⟩ := s
  simp only at hd h1
  subst hd
  simp [Parser.fileLacksId, Parser.pkgLacksId, Parser.pkgNamedOrNil] at h3 h4 h5
  rcases h1 with ⟨rfl, rfl⟩ | rfl | rfl | rfl
  · refine ⟨none, file, aop, snip, .inr rfl, ?_⟩
    simp [parsePair, ht, parseFromCreationInfo, ensureCI, hc, Parser.fileLacksId, h3, openPackage, Parser.newPkg,
      Parser.pkgNamedOrNil, Parser.modPkg, modify_last]
  · refine ⟨none, file, aop, snip, .inr rfl, ?_⟩
    simp [parsePair, ht, parseFromPackage, openPackage, Parser.newPkg, Parser.pkgNamedOrNil, Parser.pkgLacksId,
      h4, h5, Parser.modPkg, modify_last]
  · refine ⟨none, none, none, snip, .inl rfl, ?_⟩
    simp [parsePair, ht, parseFromFile, Parser.fileLacksId, h3, openPackage, Parser.newPkg, Parser.pkgNamedOrNil,
      Parser.pkgLacksId, h4, h5, Parser.modPkg, modify_last]
  · refine ⟨none, none, aop, none, .inl rfl, ?_⟩
    simp [parsePair, ht, parseFromSnippet, Parser.fileLacksId, h3, openPackage, Parser.newPkg, Parser.pkgNamedOrNil,
      Parser.pkgLacksId, h4, h5, Parser.modPkg, modify_last]

theorem extractElementID_rep {e : Str} (h : Ident e) : extractElementID (renderElementID e) = .ok e :=
  extractElementID_eq_ok.2 ⟨rfl, h.1.1, h.2⟩

/-! ## Snippets of a file -/

/-- The snippet map of a file whose snippets were read in this order into a heap of size `n`. -/
def keyed : Nat → List Snippet → List (Str × Nat)
  | _, [] => []
  | n, x :: xs => (x.spdxId, n) :: keyed (n + 1) xs

theorem keyed_snoc (n : Nat) (l : List Snippet) (x : Snippet) :
    keyed n (l ++ [x]) = keyed n l ++ [(x.spdxId, n + l.length)] := by
  induction l generalizing n with
  | nil => rfl
  | cons y l ih => simp [keyed, ih]; omega

theorem keyed_keys (n : Nat) (l : List Snippet) : (keyed n l).map (·.1) = l.map (·.spdxId) := by
  induction l generalizing n with
  | nil => rfl
  | cons y l ih => simp [keyed, ih]

theorem mapInsert_fresh {α : Type} {k : Str} {x : α} {m : List (Str × α)} (h : k ∉ m.map (·.1)) :
    mapInsert k x m = m ++ [(k, x)] := by
  induction m with
  | nil => rfl
  | cons p m ih =>
    obtain ⟨k', y⟩ := p
    simp only [List.map_cons, List.mem_cons, not_or] at h
    simp [mapInsert, Ne.symm h.1, ih h.2]

theorem keyed_deref (S : List Snippet) (l : List Snippet) (rest : List Snippet) :
    (keyed S.length l).mapM (fun (k, i) => ((S ++ l ++ rest)[i]?).map fun x => (k, x)) =
      some (l.map fun x => (x.spdxId, x)) := by
  induction l generalizing S with
  | nil => rfl
  | cons y l ih =>
    have e : S ++ (y :: l) ++ rest = (S ++ [y]) ++ l ++ rest := by simp
    have := ih (S ++ [y])
    rw [e]
    simp only [List.length_append, List.length_singleton] at this
    simp only [keyed, List.mapM_cons, this]
    simp

/-- The parser has read the fields of the last file and the snippets `done`. -/
def AtSnips (s0 : Parser) (F : List (File Nat)) (fh : File Nat) (S done : List Snippet) (s : Parser) : Prop :=
  ∃ st sn e, (st = .file ∨ st = .snippet) ∧
    s = { s0 with st := st, snippet := sn, fileAOP := e, file := some F.length,
                  files := F ++ [{ fh with snippets := keyed S.length done }], snips := S ++ done }

theorem snip_block {v : Version} {s0 : Parser} {F : List (File Nat)} {fh : File Nat} {S done : List Snippet}
    {x : Snippet} {s : Parser} (h : RepSnippet v x) (hfh : fh.spdxId ≠ []) (hx : x.spdxId ∉ done.map (·.spdxId))
    (hs : AtSnips s0 F fh S done s) :
    ∃ s', parsePairs v s (pairsOf (renderSnippet v x)) = .ok s' ∧ AtSnips s0 F fh S (done ++ [x]) s' := by
  obtain ⟨st, sn, e, hst, rfl⟩ := hs
  have ht : Tag.ofStr g!"SnippetSPDXID" = .snippetSPDXID := by decide +kernel
  have hid := extractElementID_rep h.spdxId
  have h1 : ∃ e', parsePair v
      { s0 with
        st := st, snippet := sn, fileAOP := e, file := some F.length,
        files := F ++ [{ fh with snippets := keyed S.length done }], snips := S ++ done }
      ⟨g!"SnippetSPDXID", renderElementID x.spdxId⟩ =
      .ok { s0 with
        st := .snippet, snippet := some (S ++ done).length, fileAOP := e', file := some F.length,
        files := F ++ [{ fh with snippets := keyed S.length (done ++ [x]) }],
        snips := (S ++ done) ++ [({ spdxId := x.spdxId } : Snippet)] } := by
    have hk : mapInsert x.spdxId (S.length + done.length) (keyed S.length done) = keyed S.length (done ++ [x]) := by
      rw [keyed_snoc, mapInsert_fresh]
      rw [keyed_keys]; exact hx
    rcases hst with rfl | rfl
    · refine ⟨none, ?_⟩
      simp [parsePair, ht, parseFromFile, openSnippet, hid, Parser.fileLacksId, hfh, Parser.modFile, modify_last, hk]
    · refine ⟨e, ?_⟩
      simp [parsePair, ht, parseFromSnippet, openSnippet, hid, Parser.fileLacksId, hfh, Parser.modFile, modify_last, hk]
  obtain ⟨e', h1⟩ := h1
  have h2 : AtSnip
      { s0 with
        fileAOP := e', file := some F.length,
        files := F ++ [{ fh with snippets := keyed S.length (done ++ [x]) }] } (S ++ done)
      { spdxId := x.spdxId } _ := rfl
  obtain ⟨s2, e2, a2⟩ := snip_fields h _ h2
  refine ⟨s2, ?_, ?_⟩
  · have hne : x.spdxId ≠ [] := h.spdxId.1.1
    rw [renderSnippet_eq, optId, if_neg hne, pairsOf_append]
    rw [pairsOf_field, parsePairs_cons h1]
    exact e2
  · rw [a2]
    exact ⟨.snippet, some (S ++ done).length, e', .inr rfl, by simp only [List.append_assoc]⟩

theorem snips_block {v : Version} {s0 : Parser} {F : List (File Nat)} {fh : File Nat} {S done l : List Snippet}
    {s : Parser} (h : ∀ x ∈ l, RepSnippet v x) (hfh : fh.spdxId ≠ []) (hd : ((done ++ l).map (·.spdxId)).Nodup)
    (hs : AtSnips s0 F fh S done s) :
    ∃ s', parsePairs v s (pairsOf (l.flatMap (renderSnippet v))) = .ok s' ∧ AtSnips s0 F fh S (done ++ l) s' := by
  induction l generalizing done s with
  | nil => exact ⟨s, rfl, by simpa using hs⟩
  | cons x l ih =>
    have hx : x.spdxId ∉ done.map (·.spdxId) := by
      simp only [List.map_append, List.map_cons, List.nodup_append, List.mem_cons] at hd
      intro hm
      exact hd.2.2 _ hm _ (.inl rfl) rfl
    obtain ⟨s1, e1, a1⟩ := snip_block (h x (by simp)) hfh hx hs
    obtain ⟨s2, e2, a2⟩ := ih (fun y hy => h y (by simp [hy])) (by simpa using hd) a1
    refine ⟨s2, ?_, by simpa using a2⟩
    rw [List.flatMap_cons, pairsOf_append, parsePairs_append, e1]
    exact e2

/-! ## Files -/

/-- A file as it comes back from being written: its snippets are listed in order. -/
def writtenFile (so : Sorter) (f : FileV) : FileV :=
  { f with snippets := (snippetsInOrder so f).map fun x => (x.spdxId, x) }

/-- The state after the fields and snippets of a file whose reference has been stored already. -/
theorem file_rest {v : Version} {so : Sorter} {s0 s : Parser} {F : List (File Nat)} {f : FileV} (h : RepFile v f)
    (hs : AtFile s0 F { name := f.name, spdxId := f.spdxId } s) (hsn : ((snippetsInOrder so f).map (·.spdxId)).Nodup)
    (hrep : ∀ x ∈ snippetsInOrder so f, RepSnippet v x) :
    ∃ s', parsePairs v s (pairsOf (fileRest v f ++ (snippetsInOrder so f).flatMap (renderSnippet v))) = .ok s' ∧
    AtSnips s0 F { f with snippets := [] } s0.snips (snippetsInOrder so f) s' := by
  obtain ⟨s1, e1, e, rfl⟩ := file_fields h s hs
  have hs1 : AtSnips s0 F { f with snippets := [] } s0.snips []
      { s0 with
        st := .file, file := some F.length, files := F ++ [{ f with snippets := [] }], fileAOP := e } :=
    ⟨.file, s0.snippet, e, .inl rfl, by simp [keyed]⟩
  obtain ⟨s2, e2, a2⟩ := snips_block (l := snippetsInOrder so f) hrep (fh := { f with snippets := [] })
    h.spdxId.1.1 (by simpa using hsn) hs1
  refine ⟨s2, ?_, by simpa using a2⟩
  rw [pairsOf_append, parsePairs_append, e1]
  exact e2

theorem snippets_rep {v : Version} {so : Sorter} {f : FileV} (h : RepFile v f) :
    (∀ x ∈ snippetsInOrder so f, RepSnippet v x) ∧
    (snippetsInOrder so f).map (·.spdxId) = so.run id (f.snippets.map Prod.fst) ∧
    ((snippetsInOrder so f).map (·.spdxId)).Nodup := by
  have key : ∀ ks : List Str, (∀ k ∈ ks, k ∈ f.snippets.map Prod.fst) →
      (ks.filterMap fun k => mapGet k f.snippets).map (·.spdxId) = ks := by
    intro ks hks
    induction ks with
    | nil => rfl
    | cons k ks ih =>
      obtain ⟨⟨k', x⟩, hm, rfl⟩ := List.mem_map.1 (hks k (by simp))
      have := (mapGet_eq_some_iff h.snippetKeys).2 hm
      rw [List.filterMap_cons, this]
      simp only [List.map_cons]
      rw [ih fun k hk => hks k (by simp [hk])]
      rw [← (h.snippets _ hm).1]
  have h2 : (snippetsInOrder so f).map (·.spdxId) = so.run id (f.snippets.map Prod.fst) :=
    key _ fun k hk => (so.mem _ _ _).1 hk
  refine ⟨?_, h2, ?_⟩
  · intro x hx
    obtain ⟨k, hm⟩ := mem_snippetsInOrder hx
    exact (h.snippets _ hm).2
  · rw [h2]; exact (so.perm _ _).nodup_iff.2 h.snippetKeys

/-- Where the reference to a new file is stored. -/
def storeFile (s : Parser) (d : HDoc) (i : Nat) : Parser :=
  match s.pkg with
  | none => { s with doc := some { d with files := d.files ++ [i] } }
  | some j => { s with pkgs := s.pkgs.modify j fun p => { p with files := p.files ++ [i] } }

/-- Parsing a file block. -/
theorem file_block {v : Version} {so : Sorter} {c : CreationInfo} {s : Parser} {d : HDoc} {f : FileV}
    (hr : Ready c s) (hd : s.doc = some d) (h : RepFile v f) :
    ∃ e sn s', parsePairs v s (pairsOf (renderFile v so f)) = .ok s' ∧
      AtSnips (storeFile { s with pkgExtRef := e, snippet := sn } d s.files.length) s.files
        { f with snippets := [] } s.snips (snippetsInOrder so f) s' := by
  obtain ⟨hrep, -, hnd⟩ := snippets_rep (so := so) h
  obtain ⟨e, sn, h1⟩ := open_file (v := v) hr f.name
  have ht : Tag.ofStr g!"SPDXID" = .spdxID := by decide +kernel
  have h2 : parsePair v { s with
      st := .file, pkgExtRef := e, snippet := sn, file := some s.files.length,
      files := s.files ++ [{ name := f.name }], fileAOP := none } ⟨g!"SPDXID", renderElementID f.spdxId⟩ =
      .ok { storeFile { s with pkgExtRef := e, snippet := sn } d s.files.length with
        st := .file, file := some s.files.length,
        files := s.files ++ [{ name := f.name, spdxId := f.spdxId }], fileAOP := none } := by
    obtain ⟨doc, st, pkg, er, file, aop, snip, ol, rln, ann, rev, pkgs, files, snips⟩ := s
    simp only at hd
    subst hd
    cases pkg with
    | none => simp [parsePair, ht, parseFromFile, extractElementID_rep h.spdxId, Parser.modFile, modify_last,
        storeFile, Parser.modDoc]
    | some j => simp [parsePair, ht, parseFromFile, extractElementID_rep h.spdxId, Parser.modFile, modify_last,
        storeFile, Parser.modPkg]
  have h3 : AtFile (storeFile { s with pkgExtRef := e, snippet := sn } d s.files.length) s.files
      { name := f.name, spdxId := f.spdxId } _ := ⟨none, rfl⟩
  obtain ⟨s', e3, a3⟩ := file_rest (so := so) h h3 hnd hrep
  refine ⟨e, sn, s', ?_, ?_⟩
  · rw [renderFile, renderFileFields_eq, List.append_assoc, List.append_assoc]
    rw [opt, if_neg h.name.1, optId, if_neg h.spdxId.1.1, pairsOf_append, pairsOf_append]
    rw [pairsOf_field, pairsOf_field, parsePairs_cons h1, parsePairs_cons h2]
    exact e3
  · have e : (storeFile { s with pkgExtRef := e, snippet := sn } d s.files.length).snips = s.snips := by
      unfold storeFile; split <;> rfl
    rw [e] at a3
    exact a3

/-! ## What pointers denote while the heaps grow -/

theorem getElem?_grow {α : Type} {l t : List α} {i : Nat} {a : α} (h : l[i]? = some a) : (l ++ t)[i]? = some a := by
  obtain ⟨hi, _⟩ := List.getElem?_eq_some_iff.1 h
  rw [List.getElem?_append_left hi, h]

theorem derefFile_mono {s s' : Parser} (hs : s.snips <+: s'.snips) {f : File Nat} {x : FileV}
    (h : derefFile s f = some x) : derefFile s' f = some x := by
  unfold derefFile at h ⊢
  cases hm : (f.snippets.mapM fun (k, i) => (s.snips[i]?).map fun x => (k, x)) with
  | none => rw [hm] at h; exact absurd h (by simp)
  | some m =>
    rw [hm] at h
    have : (f.snippets.mapM fun (k, i) => (s'.snips[i]?).map fun x => (k, x)) = some m := by
      refine mapM_mono ?_ hm
      rintro ⟨k, i⟩ y hy
      simp only [Option.map_eq_some_iff] at hy ⊢
      obtain ⟨a, ha, rfl⟩ := hy
      obtain ⟨t, ht⟩ := hs
      exact ⟨a, by rw [← ht]; exact getElem?_grow ha, rfl⟩
    rw [this]
    exact h

theorem derefFileRef_mono {s s' : Parser} (hf : s.files <+: s'.files) (hs : s.snips <+: s'.snips) {i : Nat} {x : FileV}
    (h : derefFileRef s i = some x) : derefFileRef s' i = some x := by
  unfold derefFileRef at h ⊢
  cases hm : s.files[i]? with
  | none => rw [hm] at h; exact absurd h (by simp)
  | some f =>
    rw [hm] at h
    obtain ⟨t, ht⟩ := hf
    rw [← ht, getElem?_grow hm]
    exact derefFile_mono hs h

theorem derefPackageRef_mono {s s' : Parser} (hp : s.pkgs <+: s'.pkgs) (hf : s.files <+: s'.files)
    (hs : s.snips <+: s'.snips) {i : Nat} {x : PackageV}
    (h : derefPackageRef s i = some x) : derefPackageRef s' i = some x := by
  unfold derefPackageRef at h ⊢
  cases hm : s.pkgs[i]? with
  | none => rw [hm] at h; exact absurd h (by simp)
  | some p =>
    rw [hm] at h
    obtain ⟨t, ht⟩ := hp
    rw [← ht, getElem?_grow hm]
    cases hq : p.files.mapM (derefFileRef s) with
    | none => simp [hq] at h
    | some m =>
      have : p.files.mapM (derefFileRef s') = some m := mapM_mono (fun _ _ => derefFileRef_mono hf hs) hq
      simp only [Option.bind_eq_bind, Option.bind_some, hq, this] at h ⊢
      exact h

theorem deref_written {s : Parser} {so : Sorter} {F : List (File Nat)} {S : List Snippet} {f : FileV}
    (hf : s.files = F ++ [{ f with snippets := keyed S.length (snippetsInOrder so f) }])
    (hs : s.snips = S ++ snippetsInOrder so f) :
    derefFileRef s F.length = some (writtenFile so f) := by
  have := keyed_deref S (snippetsInOrder so f) []
  rw [List.append_nil] at this
  unfold derefFileRef derefFile
  rw [hf, hs]
  simp only [List.getElem?_concat_length, Option.bind_eq_bind, Option.bind_some, this]
  rfl

theorem file_unpackaged {v : Version} {so : Sorter} {c : CreationInfo} {s : Parser} {d : HDoc} {f : FileV}
    (hr : Ready c s) (hd : s.doc = some d) (hp : s.pkg = none) (h : RepFile v f) :
    ∃ s', parsePairs v s (pairsOf (renderFile v so f)) = .ok s' ∧ Ready c s' ∧ s'.pkg = none ∧ s'.pkgs = s.pkgs ∧
      s'.doc = some { d with files := d.files ++ [s.files.length] } ∧ s.files <+: s'.files ∧ s.snips <+: s'.snips ∧
      derefFileRef s' s.files.length = some (writtenFile so f) := by
  obtain ⟨e, sn, s', hs', st, sn', e', hst, ha⟩ := file_block (so := so) hr hd h
  obtain ⟨d', hd', hc⟩ := hr.ci
  rw [hd] at hd'; cases hd'
  simp only [storeFile, hp] at ha
  refine ⟨s', hs', ?_, ?_⟩
  · subst ha
    refine ⟨?_, ⟨_, rfl, hc⟩, ?_, ?_, ?_⟩
    · rcases hst with rfl | rfl
      · exact .inr (.inr (.inl rfl))
      · exact .inr (.inr (.inr rfl))
    · have := h.spdxId.1.1
      simp [Parser.fileLacksId, this]
    · simp [Parser.pkgLacksId]
    · simp [Parser.pkgNamedOrNil]
  · have hw : derefFileRef s' s.files.length = some (writtenFile so f) :=
      deref_written (S := s.snips) (by rw [ha]) (by rw [ha])
    refine ⟨by rw [ha], by rw [ha], by rw [ha], ?_, ?_, hw⟩
    · rw [ha]; exact List.prefix_append _ _
    · rw [ha]; exact List.prefix_append _ _

theorem file_packaged {v : Version} {so : Sorter} {c : CreationInfo} {s : Parser} {d : HDoc} {f : FileV}
    {P : List (Package Nat)} {p : Package Nat}
    (hr : Ready c s) (hd : s.doc = some d) (hp : s.pkg = some P.length) (hP : s.pkgs = P ++ [p]) (h : RepFile v f) :
    ∃ s', parsePairs v s (pairsOf (renderFile v so f)) = .ok s' ∧ Ready c s' ∧ s'.pkg = some P.length ∧
      s'.pkgs = P ++ [{ p with files := p.files ++ [s.files.length] }] ∧
      s'.doc = some d ∧ s.files <+: s'.files ∧ s.snips <+: s'.snips ∧
      derefFileRef s' s.files.length = some (writtenFile so f) := by
  obtain ⟨e, sn, s', hs', st, sn', e', hst, ha⟩ := file_block (so := so) hr hd h
  obtain ⟨d', hd', hc⟩ := hr.ci
  rw [hd] at hd'; cases hd'
  simp only [storeFile, hp, hP, modify_last] at ha
  have h4 := hr.pkgId
  have h5 := hr.pkgName
  simp [Parser.pkgLacksId, Parser.pkgNamedOrNil, hp, hP] at h4 h5
  refine ⟨s', hs', ?_, ?_⟩
  · subst ha
    refine ⟨?_, ⟨_, hd, hc⟩, ?_, ?_, ?_⟩
    · rcases hst with rfl | rfl
      · exact .inr (.inr (.inl rfl))
      · exact .inr (.inr (.inr rfl))
    · have := h.spdxId.1.1
      simp [Parser.fileLacksId, this]
    · simp [Parser.pkgLacksId, h4]
    · simp [Parser.pkgNamedOrNil, h5]
  · have hw : derefFileRef s' s.files.length = some (writtenFile so f) :=
      deref_written (S := s.snips) (by rw [ha]) (by rw [ha])
    refine ⟨by rw [ha], by rw [ha], by rw [ha]; exact hd, ?_, ?_, hw⟩
    · rw [ha]; exact List.prefix_append _ _
    · rw [ha]; exact List.prefix_append _ _

/-! ## Lists of files -/

/-- The parsed document so far denotes `d0` with the unpackaged files `U` and the packages `Q`. -/
structure InBody (c : CreationInfo) (d0 : HDoc) (U : List FileV) (Q : List PackageV) (s : Parser) : Prop where
  ready : Ready c s
  doc : ∃ fr pr, s.doc = some { d0 with files := fr, packages := pr } ∧ fr.mapM (derefFileRef s) = some U ∧
    pr.mapM (derefPackageRef s) = some Q

theorem files_unpackaged {v : Version} {so : Sorter} {c : CreationInfo} {d0 : HDoc} {U : List FileV} {l : List FileV}
    {s : Parser} (h : InBody c d0 U [] s) (hp : s.pkg = none) (hl : ∀ f ∈ l, RepFile v f) :
    ∃ s', parsePairs v s (pairsOf (l.flatMap (renderFile v so))) = .ok s' ∧
      InBody c d0 (U ++ l.map (writtenFile so)) [] s' := by
  induction l generalizing U s with
  | nil => exact ⟨s, rfl, by simpa using h⟩
  | cons f l ih =>
    obtain ⟨hr, fr, pr, hd, hU, hQ⟩ := h
    obtain ⟨s1, e1, r1, p1, k1, d1, f1, n1, w1⟩ := file_unpackaged (so := so) hr hd hp (hl f (by simp))
    have hpr : pr = [] := by
      cases pr with
      | nil => rfl
      | cons a l =>
        exfalso
        simp only [List.mapM_cons] at hQ
        cases h1 : derefPackageRef s a with
        | none => simp [h1] at hQ
        | some y => cases h2 : l.mapM (derefPackageRef s) <;> simp [h1, h2] at hQ
    subst hpr
    have hU1 : (fr ++ [s.files.length]).mapM (derefFileRef s1) = some (U ++ [writtenFile so f]) :=
      mapM_append_some (mapM_mono (fun _ _ => derefFileRef_mono f1 n1) hU) (by simp [w1])
    obtain ⟨s2, e2, b2⟩ := ih (U := U ++ [writtenFile so f]) (s := s1)
      ⟨r1, fr ++ [s.files.length], [], d1, hU1, rfl⟩ p1 (fun y hy => hl y (by simp [hy]))
    refine ⟨s2, ?_, by simpa using b2⟩
    rw [List.flatMap_cons, pairsOf_append, parsePairs_append, e1]
    exact e2

/-- The parser is reading the files of the last package `p`. -/
structure InPkgBody (c : CreationInfo) (d0 : HDoc) (U : List FileV) (Q : List PackageV) (P : List (Package Nat))
    (p : PackageV) (s : Parser) : Prop where
  ready : Ready c s
  pkg : s.pkg = some P.length
  pkgs : ∃ pf, s.pkgs = P ++ [{ p with files := pf }] ∧ pf.mapM (derefFileRef s) = some p.files
  doc : ∃ fr pr, s.doc = some { d0 with files := fr, packages := pr ++ [P.length] } ∧
    fr.mapM (derefFileRef s) = some U ∧ pr.mapM (derefPackageRef { s with pkgs := P }) = some Q

theorem files_packaged {v : Version} {so : Sorter} {c : CreationInfo} {d0 : HDoc} {U : List FileV}
    {Q : List PackageV} {P : List (Package Nat)} {p : PackageV} {l : List FileV} {s : Parser}
    (h : InPkgBody c d0 U Q P p s) (hl : ∀ f ∈ l, RepFile v f) :
    ∃ s', parsePairs v s (pairsOf (l.flatMap (renderFile v so))) = .ok s' ∧
      InPkgBody c d0 U Q P { p with files := p.files ++ l.map (writtenFile so) } s' := by
  induction l generalizing p s with
  | nil => exact ⟨s, rfl, by simpa using h⟩
  | cons f l ih =>
    obtain ⟨hr, hp, ⟨pf, hP, hpf⟩, fr, pr, hd, hU, hQ⟩ := h
    obtain ⟨s1, e1, r1, p1, k1, d1, f1, n1, w1⟩ := file_packaged (so := so) hr hd hp hP (hl f (by simp))
    have hpf1 : (pf ++ [s.files.length]).mapM (derefFileRef s1) = some (p.files ++ [writtenFile so f]) :=
      mapM_append_some (mapM_mono (fun _ _ => derefFileRef_mono f1 n1) hpf) (by simp [w1])
    have h1 : InPkgBody c d0 U Q P { p with files := p.files ++ [writtenFile so f] } s1 := by
      refine ⟨r1, p1, ⟨_, k1, hpf1⟩, fr, pr, d1, mapM_mono (fun _ _ => derefFileRef_mono f1 n1) hU, ?_⟩
      exact mapM_mono (fun _ _ => derefPackageRef_mono (s := { s with pkgs := P }) (s' := { s1 with pkgs := P })
        (List.prefix_refl P) f1 n1) hQ
    obtain ⟨s2, e2, b2⟩ := ih h1 (fun y hy => hl y (by simp [hy]))
    refine ⟨s2, ?_, by simpa using b2⟩
    rw [List.flatMap_cons, pairsOf_append, parsePairs_append, e1]
    exact e2

theorem InPkgBody.toBody {c : CreationInfo} {d0 : HDoc} {U : List FileV} {Q : List PackageV} {P : List (Package Nat)}
    {p : PackageV} {s : Parser} (h : InPkgBody c d0 U Q P p s) : InBody c d0 U (Q ++ [p]) s := by
  obtain ⟨hr, hp, ⟨pf, hP, hpf⟩, fr, pr, hd, hU, hQ⟩ := h
  refine ⟨hr, fr, pr ++ [P.length], hd, hU, mapM_append_some (mapM_mono ?_ hQ) ?_⟩
  · intro i q hq
    refine derefPackageRef_mono (s := { s with pkgs := P }) (s' := s) ?_ (List.prefix_refl _) (List.prefix_refl _) hq
    rw [hP]; exact List.prefix_append _ _
  · have : derefPackageRef s P.length = some p := by
      unfold derefPackageRef
      rw [hP]
      simp [hpf]
    simp [this]

/-! ## Packages -/

/-- A package as it comes back from being written. -/
def writtenPackage (so : Sorter) (p : PackageV) : PackageV :=
  { p with files := (so.run (·.spdxId) p.files).map (writtenFile so) }

theorem package_block {v : Version} {so : Sorter} {c : CreationInfo} {d0 : HDoc} {U : List FileV}
    {Q : List PackageV} {s : Parser} {p : PackageV} (h : InBody c d0 U Q s) (hp : RepPackage v p) :
    ∃ s', parsePairs v s (pairsOf (renderPackageGroup v so p)) = .ok s' ∧
      InBody c d0 U (Q ++ [writtenPackage so p]) s' := by
  obtain ⟨hr, fr, pr, hd, hU, hQ⟩ := h
  obtain ⟨e, fi, a, sn, hfi, h1⟩ := open_pkg (v := v) hr p.name
  have ht : Tag.ofStr g!"SPDXID" = .spdxID := by decide +kernel
  have h2 : parsePair v
      { s with
        st := .package, pkgExtRef := e, file := fi, fileAOP := a, snippet := sn, pkg := some s.pkgs.length,
        pkgs := s.pkgs ++ [{ name := p.name, filesAnalyzed := true }] }
      ⟨g!"SPDXID", renderElementID p.spdxId⟩ =
      .ok { s with
        doc := some { d0 with files := fr, packages := pr ++ [s.pkgs.length] },
        st := .package, pkgExtRef := none, file := fi, fileAOP := a, snippet := sn, pkg := some s.pkgs.length,
        pkgs := s.pkgs ++ [{ name := p.name, spdxId := p.spdxId, filesAnalyzed := true }] } := by
    simp [parsePair, ht, parseFromPackage, extractElementID_rep hp.spdxId, Parser.modPkg, modify_last,
      Parser.modDoc, hd]
  have h3 : AtPkg
      { s with
        doc := some { d0 with files := fr, packages := pr ++ [s.pkgs.length] },
        file := fi, fileAOP := a, snippet := sn }
      s.pkgs { name := p.name, spdxId := p.spdxId, filesAnalyzed := true } _ := ⟨none, rfl⟩
  obtain ⟨s3, e3, er, a3⟩ := pkg_fields hp _ h3
  obtain ⟨d', hd', hc⟩ := hr.ci
  rw [hd] at hd'; cases hd'
  have hid := hp.spdxId.1.1
  have hname := hp.name.1
  have hfid := hr.fileId
  have h4 : InPkgBody c d0 U Q s.pkgs { p with files := [] } s3 := by
    subst a3
    refine ⟨⟨.inr (.inl rfl), ⟨_, rfl, hc⟩, ?_, ?_, ?_⟩, rfl, ⟨[], rfl, rfl⟩, fr, pr, rfl, ?_, ?_⟩
    · rcases hfi with rfl | rfl
      · rfl
      · exact hfid
    · simp [Parser.pkgLacksId, hid]
    · simp [Parser.pkgNamedOrNil, hname]
    · exact hU
    · exact hQ
  obtain ⟨s5, e5, b5⟩ := files_packaged (so := so) (l := (sortPackageFiles so p).files) h4
    (fun f hf => hp.files f ((so.mem _ _ _).1 hf))
  refine ⟨s5, ?_, ?_⟩
  · rw [renderPackageGroup, renderPackage, renderPackageFields_eq, List.append_assoc, List.append_assoc]
    rw [opt, if_neg hp.name.1, optId, if_neg hid, pairsOf_append, pairsOf_append, pairsOf_append, pairsOf_append]
    have e0 : pairsOf [.line (g!"##### Package: " ++ p.name), .line []] = [] := rfl
    rw [pairsOf_field, pairsOf_field, e0, List.nil_append, parsePairs_cons h1, parsePairs_cons h2,
      parsePairs_append, e3]
    exact e5
  · have := b5.toBody
    simpa [writtenPackage, sortPackageFiles] using this

theorem packages_block {v : Version} {so : Sorter} {c : CreationInfo} {d0 : HDoc} {U : List FileV}
    {Q : List PackageV} {l : List PackageV} {s : Parser} (h : InBody c d0 U Q s) (hl : ∀ p ∈ l, RepPackage v p) :
    ∃ s', parsePairs v s (pairsOf (l.flatMap (renderPackageGroup v so))) = .ok s' ∧
      InBody c d0 U (Q ++ l.map (writtenPackage so)) s' := by
  induction l generalizing Q s with
  | nil => exact ⟨s, rfl, by simpa using h⟩
  | cons p l ih =>
    obtain ⟨s1, e1, b1⟩ := package_block (so := so) h (hl p (by simp))
    obtain ⟨s2, e2, b2⟩ := ih b1 (fun y hy => hl y (by simp [hy]))
    refine ⟨s2, ?_, by simpa using b2⟩
    rw [List.flatMap_cons, pairsOf_append, parsePairs_append, e1]
    exact e2

end Verif
