import Verif.Lemmas.ParsedDoc
import Verif.Spec.Outline

set_option linter.unusedSimpArgs false

/-!
# The parser follows the outline of the text
-/

namespace Verif
open Spec

/-! ## The outline, from the front -/

def modLast {α : Type} (f : α → α) : List α → List α
  | [] => []
  | [x] => [f x]
  | x :: y :: l => x :: modLast f (y :: l)

@[simp] theorem modLast_nil {α : Type} (f : α → α) : modLast f [] = [] := rfl

@[simp] theorem modLast_concat {α : Type} (f : α → α) (l : List α) (x : α) : modLast f (l ++ [x]) = l ++ [f x] := by
  induction l with
  | nil => rfl
  | cons a l ih =>
    cases l with
    | nil => rfl
    | cons b l => simp only [List.cons_append] at ih ⊢; simp [modLast, ih]

abbrev Out := List Entry × List (Entry × List Entry)

def addE (x : Str) (e : Entry) : Entry := (e.1, e.2 ++ [x])

def addIdG (x : Str) (g : Entry × List Entry) : Entry × List Entry :=
  if g.2 = [] then (addE x g.1, []) else (g.1, modLast (addE x) g.2)

def addId (x : Str) (o : Out) : Out :=
  if o.2 = [] then (modLast (addE x) o.1, []) else (o.1, modLast (addIdG x) o.2)

def addPkg (x : Str) (o : Out) : Out := (o.1, o.2 ++ [((x, []), [])])

def addFile (x : Str) (o : Out) : Out :=
  if o.2 = [] then (o.1 ++ [(x, [])], []) else (o.1, modLast (fun g => (g.1, g.2 ++ [(x, [])])) o.2)

def outStep (o : Out) (p : TVPair) : Out :=
  if p.tag = g!"PackageName" then addPkg p.value o
  else if p.tag = g!"FileName" then addFile p.value o
  else if p.tag = g!"SPDXID" then addId p.value o
  else o

@[simp] theorem addId_nil (x : Str) : addId x ([], []) = ([], []) := rfl
@[simp] theorem addId_loose (x : Str) (u : List Entry) (e : Entry) :
    addId x (u ++ [e], []) = (u ++ [addE x e], []) := by simp [addId]
@[simp] theorem addId_pkg (x : Str) (u : List Entry) (g : List (Entry × List Entry)) (e : Entry) :
    addId x (u, g ++ [(e, [])]) = (u, g ++ [(addE x e, [])]) := by simp [addId, addIdG]
@[simp] theorem addId_file (x : Str) (u : List Entry) (g : List (Entry × List Entry)) (q : Entry) (fs : List Entry)
    (e : Entry) : addId x (u, g ++ [(q, fs ++ [e])]) = (u, g ++ [(q, fs ++ [addE x e])]) := by
  simp [addId, addIdG]
@[simp] theorem addFile_loose (x : Str) (u : List Entry) : addFile x (u, []) = (u ++ [(x, [])], []) := rfl
@[simp] theorem addFile_pkg (x : Str) (u : List Entry) (g : List (Entry × List Entry)) (e : Entry) (fs : List Entry) :
    addFile x (u, g ++ [(e, fs)]) = (u, g ++ [(e, fs ++ [(x, [])])]) := by simp [addFile]

theorem foldl_outStep (ps : List TVPair) :
    (List.foldl outStep ([], []) ps = (outlineFrom ps).2) ∧
    (∀ u n i, List.foldl outStep (u ++ [(n, i)], []) ps =
      (u ++ [(n, i ++ (outlineFrom ps).1)] ++ (outlineFrom ps).2.1, (outlineFrom ps).2.2)) ∧
    (∀ u g n i, List.foldl outStep (u, g ++ [((n, i), [])]) ps =
      (u, g ++ [((n, i ++ (outlineFrom ps).1), (outlineFrom ps).2.1)] ++ (outlineFrom ps).2.2)) ∧
    (∀ u g q fs n i, List.foldl outStep (u, g ++ [(q, fs ++ [(n, i)])]) ps =
      (u, g ++ [(q, fs ++ [(n, i ++ (outlineFrom ps).1)] ++ (outlineFrom ps).2.1)] ++ (outlineFrom ps).2.2)) := by
  induction ps with
  | nil => simp [outlineFrom]
  | cons p ps ih =>
    obtain ⟨h1, h2, h3, h4⟩ := ih
    simp only [List.foldl_cons, outStep, outlineFrom]
    split
    · refine ⟨?_, ?_, ?_, ?_⟩
      · have := h3 [] [] p.value []; simpa [addPkg] using this
      · intro u n i; have := h3 (u ++ [(n, i)]) [] p.value []; simpa [addPkg] using this
      · intro u g n i; have := h3 u (g ++ [((n, i), [])]) p.value []; simpa [addPkg] using this
      · intro u g q fs n i; have := h3 u (g ++ [(q, fs ++ [(n, i)])]) p.value []; simpa [addPkg] using this
    · split
      · refine ⟨?_, ?_, ?_, ?_⟩
        · have := h2 [] p.value []; simpa using this
        · intro u n i; rw [addFile_loose]; have := h2 (u ++ [(n, i)]) p.value []; simpa using this
        · intro u g n i; rw [addFile_pkg]; have := h4 u g (n, i) [] p.value []; simpa using this
        · intro u g q fs n i; rw [addFile_pkg]; have := h4 u g q (fs ++ [(n, i)]) p.value []; simpa using this
      · split
        · refine ⟨?_, ?_, ?_, ?_⟩
          · simpa using h1
          · intro u n i; rw [addId_loose]; have := h2 u n (i ++ [p.value]); simpa [addE] using this
          · intro u g n i; rw [addId_pkg]; have := h3 u g n (i ++ [p.value]); simpa [addE] using this
          · intro u g q fs n i; rw [addId_file]; have := h4 u g q fs n (i ++ [p.value]); simpa [addE] using this
        · exact ⟨h1, h2, h3, h4⟩

/-- At most one identifier per section. -/
def Once (o : Out) : Prop :=
  (∀ e ∈ o.1, e.2.length ≤ 1) ∧ (∀ g ∈ o.2, g.1.2.length ≤ 1 ∧ ∀ e ∈ g.2, e.2.length ≤ 1)

theorem list_snoc {α : Type} (l : List α) : l = [] ∨ ∃ i x, l = i ++ [x] := by
  rcases List.eq_nil_or_concat l with h | ⟨i, x, h⟩
  · exact Or.inl h
  · exact Or.inr ⟨i, x, by rw [h, List.concat_eq_append]⟩

theorem once_step {o : Out} {p : TVPair} (h : Once (outStep o p)) : Once o := by
  obtain ⟨u, g⟩ := o
  unfold outStep at h
  split at h
  · exact ⟨h.1, fun x hx => h.2 x (by simp [addPkg]; exact Or.inl hx)⟩
  · split at h
    · rcases list_snoc g with rfl | ⟨g, ⟨e, fs⟩, rfl⟩
      · rw [addFile_loose] at h
        exact ⟨fun x hx => h.1 x (by simp at hx ⊢; exact Or.inl hx), by simp⟩
      · rw [addFile_pkg] at h
        refine ⟨h.1, ?_⟩
        intro x hx
        rcases List.mem_append.1 hx with hx | hx
        · exact h.2 x (by simp; exact Or.inl hx)
        · simp at hx; subst hx
          have := h.2 (e, fs ++ [(p.value, [])]) (by simp)
          exact ⟨this.1, fun y hy => this.2 y (by simp; exact Or.inl hy)⟩
    · split at h
      · rcases list_snoc g with rfl | ⟨g, ⟨e, fs⟩, rfl⟩
        · rcases list_snoc u with rfl | ⟨u, e, rfl⟩
          · exact ⟨by simp, by simp⟩
          · rw [addId_loose] at h
            refine ⟨?_, by simp⟩
            intro x hx
            rcases List.mem_append.1 hx with hx | hx
            · exact h.1 x (by simp; exact Or.inl hx)
            · simp at hx; subst hx
              have := h.1 (addE p.value x) (by simp)
              simp [addE] at this; simp [this]
        · rcases list_snoc fs with rfl | ⟨fs, f, rfl⟩
          · rw [addId_pkg] at h
            refine ⟨h.1, ?_⟩
            intro x hx
            rcases List.mem_append.1 hx with hx | hx
            · exact h.2 x (by simp; exact Or.inl hx)
            · simp at hx; subst hx
              have := h.2 (addE p.value e, []) (by simp)
              simp [addE] at this; simp [this]
          · rw [addId_file] at h
            refine ⟨h.1, ?_⟩
            intro x hx
            rcases List.mem_append.1 hx with hx | hx
            · exact h.2 x (by simp; exact Or.inl hx)
            · simp at hx; subst hx
              have := h.2 (e, fs ++ [addE p.value f]) (by simp)
              refine ⟨this.1, ?_⟩
              intro y hy
              rcases List.mem_append.1 hy with hy | hy
              · exact this.2 y (by simp; exact Or.inl hy)
              · simp at hy; subst hy
                have := this.2 (addE p.value y) (by simp)
                simp [addE] at this; simp [this]
      · exact h

theorem once_foldl {o : Out} {ps : List TVPair} (h : Once (List.foldl outStep o ps)) : Once o := by
  induction ps generalizing o with
  | nil => exact h
  | cons p ps ih => exact once_step (ih h)

/-! ## The skeleton of a parser state -/

structure Skel where
  pkg : Option Nat
  file : Option Nat
  docP : List Nat
  docF : List Nat
  PS : List (Str × Str × List Nat)
  FS : List (Str × Str)

def skel (s : Parser) : Skel where
  pkg := s.pkg
  file := s.file
  docP := match s.doc with | none => [] | some d => d.packages
  docF := match s.doc with | none => [] | some d => d.files
  PS := s.pkgs.map fun p => (p.name, p.spdxId, p.files)
  FS := s.files.map fun f => (f.name, f.spdxId)

def Same (s s' : Parser) : Prop := skel s' = skel s ∧ s'.st = s.st

theorem map_modify_of_eq {α β : Type} {l : List α} {i : Nat} {f : α → α} {g : α → β} (h : ∀ x, g (f x) = g x) :
    (l.modify i f).map g = l.map g := by
  apply List.ext_getElem?
  intro k
  simp only [List.getElem?_map, List.getElem?_modify]
  cases l[k]? with
  | none => simp
  | some x => simp only [Option.map_eq_map, Option.map_some, Option.some.injEq]; split <;> simp [h]

theorem same_modDoc {s s' : Parser} {f : HDoc → HDoc} (h : s.modDoc f = .ok s')
    (hf : ∀ d, (f d).packages = d.packages ∧ (f d).files = d.files) : Same s s' := by
  obtain ⟨d, hd, rfl⟩ := modDoc_ok h
  exact ⟨by simp [skel, hd, hf], rfl⟩

theorem same_modPkg {s s' : Parser} {f : Package Nat → Package Nat}
    (h : s.modPkg f = .ok s')
    (hf : ∀ p, (f p).name = p.name ∧ (f p).spdxId = p.spdxId ∧ (f p).files = p.files) : Same s s' := by
  obtain ⟨i, hi, rfl⟩ := modPkg_ok h
  refine ⟨?_, rfl⟩
  simp only [skel]
  rw [map_modify_of_eq (by intro x; simp [hf])]

theorem same_modFile {s s' : Parser} {f : File Nat → File Nat}
    (h : s.modFile f = .ok s')
    (hf : ∀ p, (f p).name = p.name ∧ (f p).spdxId = p.spdxId) : Same s s' := by
  obtain ⟨i, hi, rfl⟩ := modFile_ok h
  refine ⟨?_, rfl⟩
  simp only [skel]
  rw [map_modify_of_eq (by intro x; simp [hf])]

theorem same_modSnip {s s' : Parser} {f : Snippet → Snippet} (h : s.modSnip f = .ok s') : Same s s' := by
  obtain ⟨i, hi, rfl⟩ := modSnip_ok h
  exact ⟨rfl, rfl⟩

theorem same_modAnn {s s' : Parser} {f} (h : modAnn s f = .ok s') : Same s s' := by
  unfold modAnn at h
  split at h
  · simp at h
  · exact same_modDoc h (fun d => ⟨rfl, rfl⟩)

theorem same_shared {v s tag value s'} (h : parseShared v s tag value = .ok s') : Same s s' := by
  unfold parseShared at h
  split at h
  · unfold parseForRelationship at h
    simp only at h
    split at h
    · simp at h
    · rename_i d hd
      rw [bind_eq_ok] at h; obtain ⟨r, _, h⟩ := h; simp at h; rw [← h]
      exact ⟨by simp [skel, hd], rfl⟩
  · unfold parseForRelationship at h
    simp only at h
    split at h
    · simp at h
    · exact same_modDoc h (fun d => ⟨rfl, rfl⟩)
  · unfold parseForAnnotation at h
    simp only at h
    split at h
    · simp at h
    · rename_i d hd
      rw [bind_eq_ok] at h; obtain ⟨r, _, h⟩ := h; simp at h; rw [← h]
      exact ⟨by simp [skel, hd], rfl⟩
  · exact same_modAnn h
  · exact same_modAnn h
  · unfold parseForAnnotation at h
    simp only at h
    split at h
    · simp at h
    · rw [bind_eq_ok] at h; obtain ⟨r, _, h⟩ := h; exact same_modAnn h
  · exact same_modAnn h
  · simp at h

theorem same_review {v s tag value s'} (h : parseFromReview v s tag value = .ok s') : Same s s' := by
  unfold parseFromReview at h
  split at h
  · split at h
    · simp at h
    · rename_i d hd
      rw [bind_eq_ok] at h
      obtain ⟨⟨k, x⟩, _, h⟩ := h
      simp only at h
      split at h
      · simp at h; rw [← h]; exact ⟨by simp [skel, hd], rfl⟩
      · simp at h
  · unfold modRev at h
    split at h
    · simp at h
    · exact same_modDoc h (fun d => ⟨rfl, rfl⟩)
  · unfold modRev at h
    split at h
    · simp at h
    · exact same_modDoc h (fun d => ⟨rfl, rfl⟩)
  · exact same_shared h

theorem same_modLic {s s' : Parser} {f} (h : modLic s f = .ok s') : Same s s' := by
  unfold modLic at h
  split at h
  · simp at h
  · exact same_modDoc h (fun d => ⟨rfl, rfl⟩)

theorem skel_st (s : Parser) (st : PState) : skel { s with st := st } = skel s := rfl

theorem skel_otherLicense {v s tag value s'} (h : parseFromOtherLicense v s tag value = .ok s') :
    skel s' = skel s := by
  unfold parseFromOtherLicense at h
  split at h
  · split at h
    · simp at h
    · rename_i d hd; simp at h; rw [← h]; simp [skel, hd]
  · exact (same_modLic h).1
  · exact (same_modLic h).1
  · exact (same_modLic h).1
  · exact (same_modLic h).1
  · exact (same_review h).1
  · exact (same_shared h).1

/-- How the section may change on a pair that opens no package or file. -/
def StStep (c : Prop) (a b : PState) : Prop :=
  b = a ∨ b = .otherLicense ∨ b = .review ∨ (a = .start ∧ b = .creationInfo) ∨
    (a = .creationInfo ∧ b = .start) ∨ (a = .file ∧ b = .snippet ∧ c)

def Keep (s s' : Parser) : Prop := skel s' = skel s ∧ StStep (s.fileLacksId = false) s.st s'.st

theorem Same.keep {s s' : Parser} (h : Same s s') : Keep s s' := ⟨h.1, Or.inl h.2⟩

theorem keep_licenseID {v s value s'} (h : parseFromOtherLicense v { s with st := .otherLicense } .licenseID value = .ok s') :
    Keep s s' := ⟨(skel_otherLicense h).trans (skel_st s _), by rw [st_licenseID h]; exact Or.inr (Or.inl rfl)⟩

theorem keep_reviewer {v s value s'} (h : parseFromReview v { s with st := .review } .reviewer value = .ok s') :
    Keep s s' := ⟨(same_review h).1.trans (skel_st s _), by rw [st_review h]; exact Or.inr (Or.inr (Or.inl rfl))⟩

theorem keep_snippet {v s tag value s'} (h : parseFromSnippet v s tag value = .ok s')
    (h1 : tag ≠ .packageName) (h2 : tag ≠ .fileName) : Keep s s' := by
  unfold parseFromSnippet at h
  split at h
  all_goals first
    | exact absurd rfl h1
    | exact absurd rfl h2
    | exact keep_licenseID h
    | exact keep_reviewer h
    | exact (same_shared h).keep
    | exact (same_modSnip h).keep
    | (rw [bind_eq_ok] at h; obtain ⟨x, -, h⟩ := h; exact (same_modSnip h).keep)
    | (split at h
       · simp at h
       · exact (same_modSnip h).keep)
    | skip
  · -- SnippetSPDXID
    unfold openSnippet at h
    split at h
    · simp at h
    · rw [bind_eq_ok] at h
      obtain ⟨e, -, h⟩ := h
      simp only at h
      split at h
      · simp at h; rw [← h]; exact ⟨rfl, Or.inl rfl⟩
      · have := same_modFile h (fun p => by simp)
        exact ⟨this.1, Or.inl this.2⟩

theorem keep_file {v s tag value s'} (h : parseFromFile v s tag value = .ok s') (hst : s.st = .file)
    (h1 : tag ≠ .packageName) (h2 : tag ≠ .fileName) (h3 : tag ≠ .spdxID) : Keep s s' := by
  unfold parseFromFile at h
  simp only at h
  generalize hs0 : (if tag ≠ .artifactOfProjectHomePage ∧ tag ≠ .artifactOfProjectURI
    then { s with fileAOP := none } else s) = s0 at h
  have hk : skel s0 = skel s := by rw [← hs0]; split <;> rfl
  have hl0 : s0.fileLacksId = s.fileLacksId := by rw [← hs0]; split <;> rfl
  have hst0 : s0.st = .file := by rw [← hs0]; split <;> exact hst
  suffices Keep s0 s' by
    refine ⟨by rw [this.1, hk], ?_⟩
    have := this.2; rw [hst0, hl0] at this; rw [hst]; exact this
  clear hs0 hk hst hl0
  split at h
  all_goals first
    | exact absurd rfl h1
    | exact absurd rfl h2
    | exact absurd rfl h3
    | exact keep_licenseID h
    | exact keep_reviewer h
    | exact (same_shared h).keep
    | exact (same_modFile h (fun p => by simp)).keep
    | (rw [bind_eq_ok] at h; obtain ⟨x, -, h⟩ := h; exact (same_modFile h (fun p => by simp)).keep)
    | (split at h
       · simp at h
       · exact (same_modFile h (fun p => by simp)).keep)
    | skip
  · -- SnippetSPDXID
    unfold openSnippet at h
    split at h
    · simp at h
    · rename_i hlack
      have hlack : s0.fileLacksId = false := by simpa [Parser.fileLacksId] using hlack
      rw [bind_eq_ok] at h
      obtain ⟨e, -, h⟩ := h
      simp only at h
      split at h
      · simp at h; rw [← h]; exact ⟨rfl, by rw [hst0]; exact Or.inr (Or.inr (Or.inr (Or.inr (Or.inr ⟨rfl, rfl, hlack⟩))))⟩
      · have := same_modFile h (fun p => by simp)
        refine ⟨this.1, ?_⟩
        rw [this.2, hst0]; exact Or.inr (Or.inr (Or.inr (Or.inr (Or.inr ⟨rfl, rfl, hlack⟩))))
  · -- ArtifactOfProjectName
    split at h
    · simp at h
    · rw [bind_eq_ok] at h
      obtain ⟨s1, hs1, h⟩ := h
      have := same_modFile hs1 (fun p => by simp)
      simp at h; rw [← h]
      exact ⟨this.1, Or.inl this.2⟩

theorem keep_package {v s tag value s'} (h : parseFromPackage v s tag value = .ok s') (hst : s.st = .package)
    (h1 : tag ≠ .packageName) (h2 : tag ≠ .fileName) (h3 : tag ≠ .spdxID) : Keep s s' := by
  unfold parseFromPackage at h
  simp only at h
  generalize hs0 : (if tag ≠ .externalRefComment then { s with pkgExtRef := none } else s) = s0 at h
  have hk : skel s0 = skel s := by rw [← hs0]; split <;> rfl
  have hl0 : s0.fileLacksId = s.fileLacksId := by rw [← hs0]; split <;> rfl
  have hst0 : s0.st = .package := by rw [← hs0]; split <;> exact hst
  suffices Keep s0 s' by
    refine ⟨by rw [this.1, hk], ?_⟩
    have := this.2; rw [hst0, hl0] at this; rw [hst]; exact this
  clear hs0 hk hst
  split at h
  all_goals first
    | exact absurd rfl h1
    | exact absurd rfl h2
    | exact absurd rfl h3
    | exact keep_licenseID h
    | exact keep_reviewer h
    | exact (same_shared h).keep
    | exact (same_modPkg h (fun p => by simp)).keep
    | (rw [bind_eq_ok] at h; obtain ⟨x, -, h⟩ := h; exact (same_modPkg h (fun p => by simp)).keep)
    | (split at h
       · simp at h
       · exact (same_modPkg h (fun p => by simp)).keep)
    | (split at h
       · exact (same_modPkg h (fun p => by simp)).keep
       · simp at h)
    | skip
  · -- ExternalRef
    split at h
    · simp at h
    · rw [bind_eq_ok] at h
      obtain ⟨x, -, h⟩ := h
      rw [bind_eq_ok] at h
      obtain ⟨s1, hs1, h⟩ := h
      have := same_modPkg hs1 (fun p => by simp)
      simp at h; rw [← h]
      exact ⟨this.1, Or.inl this.2⟩
  · -- ExternalRefComment
    split at h
    · simp at h
    · rw [bind_eq_ok] at h
      obtain ⟨s1, hs1, h⟩ := h
      have := same_modPkg hs1 (fun p => by simp)
      simp at h; rw [← h]
      exact ⟨this.1, Or.inl this.2⟩

theorem same_startTags {s : Parser} {tag : Tag} {value : Str} {s' : Parser}
    (h : parseStartTags s tag value = some (.ok s')) : Same s s' := by
  unfold parseStartTags at h
  split at h
  all_goals simp only [Option.some.injEq, reduceCtorEq] at h
  all_goals first
    | exact same_modDoc h (fun d => ⟨rfl, rfl⟩)
    | (rw [bind_eq_ok] at h; obtain ⟨x, -, h⟩ := h; exact same_modDoc h (fun d => ⟨rfl, rfl⟩))

theorem skel_ensureDoc (s : Parser) : skel (ensureDoc s) = skel s := by
  unfold ensureDoc
  cases hd : s.doc with
  | none => simp [skel, hd]
  | some d => rfl

theorem st_ensureDoc (s : Parser) : (ensureDoc s).st = s.st := by
  unfold ensureDoc
  split <;> rfl

theorem skel_ensureCI {s : Parser} {d : HDoc} (hd : s.doc = some d) : skel (ensureCI s d) = skel s := by
  unfold ensureCI
  split
  · simp [skel, hd]
  · rfl

theorem st_ensureCI (s : Parser) (d : HDoc) : (ensureCI s d).st = s.st := by
  unfold ensureCI
  split <;> rfl

theorem same_modCI {s s' : Parser} {f} (h : modCI s f = .ok s') : Same s s' := by
  unfold modCI at h
  split at h
  · simp at h
  · rename_i d hd
    split at h
    · simp at h
    · simp at h; rw [← h]; exact ⟨by simp [skel, hd], rfl⟩

theorem skel_backToStart {s : Parser} {tag value s'} (h : backToStart s tag value = .ok s') :
    skel s' = skel s ∧ s'.st = .start := by
  unfold backToStart at h
  split at h
  · rename_i r hr
    subst h
    have := same_startTags hr
    refine ⟨by rw [this.1, skel_ensureDoc]; rfl, by rw [this.2, st_ensureDoc]⟩
  · simp at h

theorem keep_creationInfo {v s tag value s'} (h : parseFromCreationInfo v s tag value = .ok s')
    (hst : s.st = .creationInfo) (h1 : tag ≠ .packageName) (h2 : tag ≠ .fileName) : Keep s s' := by
  unfold parseFromCreationInfo at h
  split at h
  · simp at h
  · rename_i d hd
    simp only at h
    have hk := skel_ensureCI hd
    have hst0 := st_ensureCI s d
    generalize ensureCI s d = s0 at h hk hst0
    suffices Keep s0 s' by
      refine ⟨by rw [this.1, hk], ?_⟩
      have := this.2; rw [hst0] at this; rw [hst] at this ⊢
      rcases this with h | h | h | h | h | ⟨h, -⟩ <;> simp_all [StStep]
    rw [hst] at hst0
    clear hk hst hd
    split at h
    · exact (same_modCI h).keep
    · rw [bind_eq_ok] at h
      obtain ⟨⟨k, x⟩, -, h⟩ := h
      simp only at h
      split at h
      · exact (same_modCI h).keep
      · simp at h
    · exact (same_modCI h).keep
    · exact (same_modCI h).keep
    · exact absurd rfl h1
    · exact absurd rfl h2
    · exact keep_licenseID h
    · exact keep_reviewer h
    · split at h
      · simp at h
      · have := skel_backToStart h
        exact ⟨this.1, by rw [this.2, hst0]; exact Or.inr (Or.inr (Or.inr (Or.inr (Or.inl ⟨rfl, rfl⟩))))⟩
    · have := skel_backToStart h
      exact ⟨this.1, by rw [this.2, hst0]; exact Or.inr (Or.inr (Or.inr (Or.inr (Or.inl ⟨rfl, rfl⟩))))⟩
    · exact (same_shared h).keep

theorem keep_start {v s tag value s'} (h : parseFromStart v s tag value = .ok s')
    (hst : s.st = .start) (h1 : tag ≠ .packageName) (h2 : tag ≠ .fileName) : Keep s s' := by
  unfold parseFromStart at h
  simp only at h
  split at h
  · rename_i r hr
    subst h
    have := same_startTags hr
    exact ⟨by rw [this.1, skel_ensureDoc], Or.inl (by rw [this.2, st_ensureDoc])⟩
  · have := keep_creationInfo h rfl h1 h2
    refine ⟨by rw [this.1]; rw [skel_st, skel_ensureDoc], ?_⟩
    have := this.2
    simp only [StStep] at this ⊢
    rw [hst]
    rcases this with h | h | h | h | h | h <;> simp_all

/-! ## Headers and identifiers -/

theorem modify_last {α : Type} (l : List α) (x : α) (f : α → α) : (l ++ [x]).modify l.length f = l ++ [f x] := by
  induction l with
  | nil => rfl
  | cons a l ih => simp [ih]

theorem skel_openFile {s s' : Parser} {value : Str} (h : openFile s value = .ok s') :
    s.fileLacksId = false ∧ s'.st = s.st ∧
    skel s' = { skel s with file := some (skel s).FS.length, FS := (skel s).FS ++ [(value, [])] } := by
  unfold openFile at h
  simp only at h
  split at h
  · simp at h
  · rename_i hl
    simp at h; rw [← h]
    refine ⟨by simpa [Parser.fileLacksId] using hl, rfl, ?_⟩
    simp [skel, Parser.newFile]

theorem skel_openPackage_new {s s' : Parser} {value : Str} (h : openPackage s value = .ok s')
    (hn : s.pkgNamedOrNil = true) :
    s.pkgLacksId = false ∧ s'.st = s.st ∧
    skel s' = { skel s with pkg := some (skel s).PS.length, PS := (skel s).PS ++ [(value, [], [])] } := by
  unfold openPackage at h
  have hn' : ({ s with pkgExtRef := none } : Parser).pkgNamedOrNil = true := hn
  simp only at h
  rw [if_pos hn'] at h
  split at h
  · simp at h
  · rename_i hl
    obtain ⟨i, hi, rfl⟩ := modPkg_ok h
    refine ⟨by simpa [Parser.pkgLacksId] using hl, rfl, ?_⟩
    simp only [Parser.newPkg, Option.some.injEq] at hi
    subst hi
    simp only [skel, Parser.newPkg, List.length_map, List.map_append, List.map_cons, List.map_nil]
    rw [modify_last]
    simp

theorem skel_openPackage_first {s s' : Parser} {value : Str} (h : openPackage s.newPkg value = .ok s') :
    s'.st = s.st ∧
    skel s' = { skel s with pkg := some (skel s).PS.length, PS := (skel s).PS ++ [(value, [], [])] } := by
  unfold openPackage at h
  have hn' : ({ s.newPkg with pkgExtRef := none } : Parser).pkgNamedOrNil = false := by
    simp [Parser.pkgNamedOrNil, Parser.newPkg]
  simp only at h
  rw [hn'] at h
  simp only [Bool.false_eq_true, if_false] at h
  obtain ⟨i, hi, rfl⟩ := modPkg_ok h
  refine ⟨rfl, ?_⟩
  simp only [Parser.newPkg, Option.some.injEq] at hi
  subst hi
  simp only [skel, Parser.newPkg, List.length_map, List.map_append, List.map_cons, List.map_nil]
  rw [modify_last]
  simp

/-! ## The relation between the skeleton and the outline -/

/-- The identifiers an object has so far. -/
def idsOf (e : Str) : List Str := if e = [] then [] else [spdxRefPrefix ++ e]

def lookF (B : List (Str × Str)) (i : Nat) : Option Entry :=
  match B[i]? with
  | none => none
  | some (n, e) => if e = [] then none else some (n, [spdxRefPrefix ++ e])

def lookP (P : List (Str × Str × List Nat)) (B : List (Str × Str)) (i : Nat) : Option (Entry × List Entry) :=
  match P[i]? with
  | none => none
  | some (n, e, fs) => if e = [] then none else (fs.mapM (lookF B)).map fun es => ((n, [spdxRefPrefix ++ e]), es)

/-- The position of the current object once it has an identifier. -/
def idx (n : Nat) (e : Str) : List Nat := if e = [] then [] else [n]

/-- The current file (if any) at the end of the file heap. -/
structure FileCur (k : Skel) (B : List (Str × Str)) (cur : Option (Str × Str)) : Prop where
  heap : k.FS = B ++ cur.toList
  ptr : k.file = cur.map fun _ => B.length

def curIdx (B : List (Str × Str)) (cur : Option (Str × Str)) : List Nat :=
  match cur with
  | none => []
  | some c => idx B.length c.2

def curEntries (cur : Option (Str × Str)) : List Entry :=
  match cur with
  | none => []
  | some c => [(c.1, idsOf c.2)]

def NoPkg (k : Skel) (o : Out) (B : List (Str × Str)) (cur : Option (Str × Str)) : Prop :=
  k.pkg = none ∧ k.PS = [] ∧ k.docP = [] ∧
    ∃ is es, is.mapM (lookF B) = some es ∧ k.docF = is ++ curIdx B cur ∧ o = (es ++ curEntries cur, [])

def InPkg (k : Skel) (o : Out) (B : List (Str × Str)) (cur : Option (Str × Str)) : Prop :=
  ∃ P n e fs, k.PS = P ++ [(n, e, fs)] ∧ k.pkg = some P.length ∧ n ≠ [] ∧
    (∃ u, k.docF.mapM (lookF B) = some u ∧
    ∃ ip gs, ip.mapM (lookP P B) = some gs ∧ k.docP = ip ++ idx P.length e ∧
    ∃ is es, is.mapM (lookF B) = some es ∧ fs = is ++ curIdx B cur ∧
      o = (u, gs ++ [((n, idsOf e), es ++ curEntries cur)]))

def OutRel (k : Skel) (o : Out) : Prop :=
  ∃ B cur, FileCur k B cur ∧ (NoPkg k o B cur ∨ InPkg k o B cur)

/-- Where the parser is, in terms of the skeleton. -/
def Zone (st : PState) (k : Skel) : Prop :=
  match st with
  | .start | .creationInfo => k = ⟨none, none, [], [], [], []⟩
  | .package => k.pkg ≠ none ∧ k.file = none ∧ ∀ P n e fs, k.PS = P ++ [(n, e, fs)] → fs = []
  | .file | .snippet => k.file ≠ none
  | _ => True

theorem zone_step {c : Prop} {a b : PState} {k : Skel} (h : Zone a k) (hs : StStep c a b) : Zone b k := by
  rcases hs with rfl | rfl | rfl | ⟨rfl, rfl⟩ | ⟨rfl, rfl⟩ | ⟨rfl, rfl, -⟩
  · exact h
  · trivial
  · trivial
  · exact h
  · exact h
  · exact h

theorem lookF_mono {B : List (Str × Str)} {x : List (Str × Str)} {i : Nat} {e : Entry} (h : lookF B i = some e) :
    lookF (B ++ x) i = some e := by
  unfold lookF at h ⊢
  cases hb : B[i]? with
  | none => simp [hb] at h
  | some y =>
    rw [List.getElem?_append_left (List.getElem?_eq_some_iff.1 hb).1, hb]
    rw [hb] at h; exact h

theorem mapM_mono {α β : Type} {f g : α → Option β} {l : List α} {ys : List β} (hfg : ∀ x y, f x = some y → g x = some y)
    (h : l.mapM f = some ys) : l.mapM g = some ys := by
  induction l generalizing ys with
  | nil => exact h
  | cons a l ih =>
    simp only [List.mapM_cons, Option.bind_eq_bind, Option.bind_eq_some_iff, Option.pure_def,
      Option.some.injEq] at h ⊢
    obtain ⟨y, hy, zs, hzs, rfl⟩ := h
    exact ⟨y, hfg _ _ hy, zs, ih hzs, rfl⟩

theorem lookP_mono {P Q : List (Str × Str × List Nat)} {B : List (Str × Str)} {x : List (Str × Str)} {i : Nat}
    {e : Entry × List Entry} (h : lookP P B i = some e) : lookP (P ++ Q) (B ++ x) i = some e := by
  unfold lookP at h ⊢
  cases hb : P[i]? with
  | none => simp [hb] at h
  | some y =>
    rw [List.getElem?_append_left (List.getElem?_eq_some_iff.1 hb).1, hb]
    rw [hb] at h
    obtain ⟨n, e', fs⟩ := y
    simp only at h ⊢
    split at h
    · simp at h
    · rename_i hne
      rw [if_neg hne]
      simp only [Option.map_eq_some_iff] at h ⊢
      obtain ⟨es, hes, rfl⟩ := h
      exact ⟨es, mapM_mono (fun _ _ => lookF_mono) hes, rfl⟩

/-- Closing the current file: it has an identifier, so it can be looked up. -/
theorem close_file {B : List (Str × Str)} {cur : Option (Str × Str)} (hid : ∀ c, cur = some c → c.2 ≠ [])
    {is : List Nat} {es : List Entry} (h : is.mapM (lookF B) = some es) :
    (is ++ curIdx B cur).mapM (lookF (B ++ cur.toList)) = some (es ++ curEntries cur) := by
  refine mapM_append_some (mapM_mono (fun _ _ => lookF_mono) h) ?_
  cases cur with
  | none => rfl
  | some c =>
    have := hid c rfl
    simp [curIdx, curEntries, idx, idsOf, this, lookF]

theorem curIdx_new {B : List (Str × Str)} (v : Str) : curIdx B (some (v, [])) = [] := by simp [curIdx, idx]
theorem curEntries_new (v : Str) : curEntries (some (v, [])) = [(v, [])] := by simp [curEntries, idsOf]

/-- A new file section. -/
theorem rel_addFile {k : Skel} {o : Out} {value : Str} (h : OutRel k o)
    (hid : ∀ B c, FileCur k B (some c) → c.2 ≠ []) :
    OutRel { k with file := some k.FS.length, FS := k.FS ++ [(value, [])] } (addFile value o) := by
  obtain ⟨B, cur, hf, h⟩ := h
  have hid' : ∀ c, cur = some c → c.2 ≠ [] := by rintro c rfl; exact hid B c hf
  refine ⟨k.FS, some (value, []), ⟨rfl, rfl⟩, ?_⟩
  rcases h with ⟨h1, h2, h3, is, es, hm, hd, rfl⟩ | ⟨P, n, e, fs, hP, hp, hn, u, hu, ip, gs, hip, hdp, is, es, hm, rfl, rfl⟩
  · left
    refine ⟨h1, h2, h3, is ++ curIdx B cur, es ++ curEntries cur, ?_, ?_, ?_⟩
    · rw [hf.heap]; exact close_file hid' hm
    · simp [hd, curIdx_new]
    · rw [addFile_loose, curEntries_new]
  · right
    refine ⟨P, n, e, _, hP, hp, hn, u, ?_, ip, gs, ?_, hdp, is ++ curIdx B cur, es ++ curEntries cur, ?_, ?_, ?_⟩
    · rw [hf.heap]; exact mapM_mono (fun _ _ => lookF_mono) hu
    · rw [hf.heap]
      refine mapM_mono (fun i y hy => ?_) hip
      have := lookP_mono (Q := []) (x := cur.toList) hy
      simpa using this
    · rw [hf.heap]; exact close_file hid' hm
    · simp [curIdx_new]
    · rw [addFile_pkg, curEntries_new]

/-- A new package section. -/
theorem rel_addPkg {k : Skel} {o : Out} {value : Str} (h : OutRel k o) (hv : value ≠ [])
    (hid : ∀ B c, FileCur k B (some c) → c.2 ≠ [])
    (hpid : ∀ P n e fs, k.PS = P ++ [(n, e, fs)] → e ≠ []) :
    OutRel { k with file := none, pkg := some k.PS.length, PS := k.PS ++ [(value, [], [])] } (addPkg value o) := by
  obtain ⟨B, cur, hf, h⟩ := h
  have hid' : ∀ c, cur = some c → c.2 ≠ [] := by rintro c rfl; exact hid B c hf
  refine ⟨k.FS, none, ⟨by simp, rfl⟩, Or.inr ?_⟩
  refine ⟨k.PS, value, [], [], rfl, rfl, hv, ?_⟩
  rcases h with ⟨h1, h2, h3, is, es, hm, hd, rfl⟩ | ⟨P, n, e, fs, hP, hp, hn, u, hu, ip, gs, hip, hdp, is, es, hm, rfl, rfl⟩
  · refine ⟨es ++ curEntries cur, ?_, [], [], rfl, by simp [h3, idx], [], [], rfl, by simp [curIdx], ?_⟩
    · simp only; rw [hd, hf.heap]; exact close_file hid' hm
    · simp [addPkg, idsOf, curEntries]
  · have he := hpid P n e _ hP
    refine ⟨u, ?_, ip ++ idx P.length e, gs ++ [((n, idsOf e), es ++ curEntries cur)], ?_, by simp [hdp, idx], [], [], rfl,
      by simp [curIdx], ?_⟩
    · rw [hf.heap]; exact mapM_mono (fun _ _ => lookF_mono) hu
    · refine mapM_append_some ?_ ?_
      · rw [hf.heap, hP]; exact mapM_mono (fun _ _ => lookP_mono) hip
      · simp only [idx, if_neg he]
        have hl := close_file hid' hm
        rw [← hf.heap] at hl
        simp [lookP, hP, he, hl, idsOf]
    · simp [addPkg, idsOf, curEntries]

/-- An identifier for the current package. -/
theorem rel_pkgId {k : Skel} {o : Out} {x : Str} {i : Nat} (h : OutRel k o) (hp : k.pkg = some i) (hfile : k.file = none)
    (hfs : ∀ P n e fs, k.PS = P ++ [(n, e, fs)] → fs = [])
    (hx : x ≠ []) (honce : Once (addId (spdxRefPrefix ++ x) o)) :
    OutRel { k with docP := k.docP ++ [i], PS := k.PS.modify i fun p => (p.1, x, p.2.2) }
      (addId (spdxRefPrefix ++ x) o) := by
  obtain ⟨B, cur, hf, h⟩ := h
  have hcur : cur = none := by
    have := hf.ptr; rw [hfile] at this
    cases cur with
    | none => rfl
    | some c => simp at this
  subst hcur
  refine ⟨B, none, ⟨hf.heap, hf.ptr⟩, Or.inr ?_⟩
  rcases h with ⟨h1, -⟩ | ⟨P, n, e, fs, hP, hp', hn, u, hu, ip, gs, hip, hdp, is, es, hm, rfl, rfl⟩
  · rw [h1] at hp; simp at hp
  · rw [hp'] at hp; simp only [Option.some.injEq] at hp; subst hp
    have his := hfs _ _ _ _ hP
    simp only [curIdx, List.append_nil] at his
    subst his
    simp at hm; subst hm
    simp only [curEntries, List.append_nil, addId_pkg] at honce ⊢
    have he : e = [] := by
      have := honce.2 (addE (spdxRefPrefix ++ x) (n, idsOf e), []) (by simp)
      simp only [addE, idsOf] at this
      by_cases he : e = []
      · exact he
      · simp [he] at this
    subst he
    refine ⟨P, n, x, [], ?_, hp', hn, u, hu, ip, gs, hip, ?_, [], [], rfl, by simp [curIdx], ?_⟩
    · simp only [hP]; rw [modify_last]; simp [curIdx]
    · simp [hdp, idx, hx]
    · simp [addE, idsOf, hx, curEntries]

/-- An identifier for the current file. -/
theorem rel_fileId {k : Skel} {o : Out} {x : Str} {i : Nat} (h : OutRel k o) (hfile : k.file = some i)
    (hx : x ≠ []) (honce : Once (addId (spdxRefPrefix ++ x) o)) :
    (k.pkg = none → OutRel { k with docF := k.docF ++ [i], FS := k.FS.modify i fun p => (p.1, x) }
      (addId (spdxRefPrefix ++ x) o)) ∧
    (∀ j, k.pkg = some j → OutRel { k with PS := k.PS.modify j (fun p => (p.1, p.2.1, p.2.2 ++ [i])), FS := k.FS.modify i (fun p => (p.1, x)) }
      (addId (spdxRefPrefix ++ x) o)) := by
  obtain ⟨B, cur, hf, h⟩ := h
  cases cur with
  | none => have := hf.ptr; rw [hfile] at this; simp at this
  | some c =>
  obtain ⟨m, e⟩ := c
  have hi : i = B.length := by have := hf.ptr; rw [hfile] at this; simpa using this
  subst hi
  have hheap : k.FS.modify B.length (fun p => (p.1, x)) = B ++ [(m, x)] := by
    rw [hf.heap]; simp only [Option.toList]; rw [modify_last]
  have hptr := hf.ptr
  rcases h with ⟨h1, h2, h3, is, es, hm, hd, rfl⟩ | ⟨P, n, e', fs, hP, hp', hn, u, hu, ip, gs, hip, hdp, is, es, hm, rfl, rfl⟩
  · refine ⟨fun _ => ?_, fun j hj => by rw [h1] at hj; simp at hj⟩
    simp only [curEntries, addId_loose] at honce ⊢
    have he : e = [] := by
      have := honce.1 (addE (spdxRefPrefix ++ x) (m, idsOf e)) (by simp)
      simp only [addE, idsOf] at this
      by_cases he : e = []
      · exact he
      · simp [he] at this
    subst he
    refine ⟨B, some (m, x), ⟨hheap, hptr⟩, Or.inl ⟨h1, h2, h3, is, es, hm, ?_, ?_⟩⟩
    · simp [hd, curIdx, idx, hx]
    · simp [addE, idsOf, hx, curEntries]
  · refine ⟨fun hnone => by rw [hp'] at hnone; simp at hnone, fun j hj => ?_⟩
    rw [hp'] at hj; simp only [Option.some.injEq] at hj; subst hj
    simp only [curEntries, addId_file] at honce ⊢
    have he : e = [] := by
      have := (honce.2 _ (List.mem_append_right _ (List.mem_singleton.2 rfl))).2
        (addE (spdxRefPrefix ++ x) (m, idsOf e)) (by simp)
      simp only [addE, idsOf] at this
      by_cases he : e = []
      · exact he
      · simp [he] at this
    subst he
    refine ⟨B, some (m, x), ⟨hheap, hptr⟩, Or.inr ⟨P, n, e', _, ?_, hp', hn, u, hu, ip, gs, hip, hdp, is, es, hm, rfl, ?_⟩⟩
    · simp only [hP]; rw [modify_last]; simp [curIdx, idx, hx]
    · simp [addE, idsOf, hx, curEntries]

/-! ## One pair -/

theorem fileLacksId_cur {s : Parser} {B : List (Str × Str)} {c : Str × Str} (h : FileCur (skel s) B (some c)) :
    s.fileLacksId = decide (c.2 = []) := by
  have h1 := h.heap
  have h2 := h.ptr
  simp only [skel, Option.map_some, Option.toList] at h1 h2
  unfold Parser.fileLacksId
  rw [h2]
  simp only
  have : (s.files.map fun f => (f.name, f.spdxId))[B.length]? = some c := by rw [h1]; simp
  rw [List.getElem?_map] at this
  cases hf : s.files[B.length]? with
  | none => simp [hf] at this
  | some f =>
    simp only [hf, Option.map_some, Option.some.injEq] at this
    rw [← this]
    simp only
    cases f.spdxId <;> rfl

theorem fileClosed {s : Parser} (h : s.fileLacksId = false) : ∀ B c, FileCur (skel s) B (some c) → c.2 ≠ [] := by
  intro B c hc
  rw [fileLacksId_cur hc] at h
  simpa using h

theorem pkg_at {s : Parser} {i : Nat} {P : List (Str × Str × List Nat)} {n e fs} (hi : s.pkg = some i)
    (hP : (skel s).PS = P ++ [(n, e, fs)]) (hl : i = P.length) :
    ∃ p, s.pkgs[i]? = some p ∧ p.name = n ∧ p.spdxId = e ∧ p.files = fs := by
  subst hl
  have : (s.pkgs.map fun p => (p.name, p.spdxId, p.files))[P.length]? = some (n, e, fs) := by
    simp only [skel] at hP; rw [hP]; simp
  rw [List.getElem?_map] at this
  cases hf : s.pkgs[P.length]? with
  | none => simp [hf] at this
  | some p =>
    simp only [hf, Option.map_some, Option.some.injEq, Prod.mk.injEq] at this
    exact ⟨p, rfl, this⟩

theorem pkgNamed_of_rel {s : Parser} {o : Out} (h : OutRel (skel s) o) : s.pkgNamedOrNil = true := by
  obtain ⟨B, cur, hf, h⟩ := h
  unfold Parser.pkgNamedOrNil
  rcases h with ⟨h1, -⟩ | ⟨P, n, e, fs, hP, hp, hn, -⟩
  · simp only [skel] at h1; rw [h1]
  · have hp' : s.pkg = some P.length := hp
    obtain ⟨p, hpp, rfl, -⟩ := pkg_at hp' hP rfl
    rw [hp']; simp only [hpp]
    cases hname : p.name with
    | nil => exact absurd hname hn
    | cons a l => rfl

theorem pkgClosed {s : Parser} {o : Out} (h : OutRel (skel s) o) (hl : s.pkgLacksId = false) :
    ∀ P n e fs, (skel s).PS = P ++ [(n, e, fs)] → e ≠ [] := by
  intro P n e fs hP
  obtain ⟨B, cur, hf, h⟩ := h
  rcases h with ⟨-, h2, -⟩ | ⟨P', n', e', fs', hP', hp, -⟩
  · rw [h2] at hP; simp at hP
  · have hlen : P'.length = P.length := by
      have := congrArg List.length (hP.symm.trans hP'); simp at this; exact this.symm
    have hp' : s.pkg = some P.length := by rw [← hlen]; exact hp
    obtain ⟨p, hpp, -, rfl, -⟩ := pkg_at hp' hP rfl
    unfold Parser.pkgLacksId at hl
    rw [hp'] at hl
    simp only [hpp] at hl
    intro he; rw [he] at hl; simp at hl

theorem rel_empty : OutRel ⟨none, none, [], [], [], []⟩ ([], []) :=
  ⟨[], none, ⟨rfl, rfl⟩, Or.inl ⟨rfl, rfl, rfl, [], [], rfl, rfl, rfl⟩⟩

/-- A `FileName` pair opens a file section. -/
theorem step_fileName {v : Version} {s s' : Parser} {o : Out} {p : TVPair} (ht : Tag.ofStr p.tag = .fileName)
    (h : parsePair v s p = .ok s') (hr : OutRel (skel s) o) (hz : Zone s.st (skel s)) :
    OutRel (skel s') (addFile p.value o) ∧ Zone s'.st (skel s') := by
  have key : ∀ s0 : Parser, openFile s0 p.value = .ok s' → s0.st = .file → OutRel (skel s0) o →
      OutRel (skel s') (addFile p.value o) ∧ Zone s'.st (skel s') := by
    intro s0 h0 hst0 hr0
    obtain ⟨hl, hst, hk⟩ := skel_openFile h0
    rw [hk, hst, hst0]
    exact ⟨rel_addFile hr0 (fileClosed hl), by simp [Zone]⟩
  unfold parsePair at h
  rw [ht] at h
  simp only at h
  split at h
  · rename_i hst
    simp only [parseFromStart, parseStartTags, parseFromCreationInfo] at h
    split at h
    · simp at h
    · rename_i d hd
      refine key _ h rfl ?_
      have hk : skel { ensureCI { ensureDoc s with st := .creationInfo } d with st := .file, pkg := none } =
          { skel s with pkg := none } := by
        have h1 : skel (ensureCI { ensureDoc s with st := .creationInfo } d) = skel s :=
          (skel_ensureCI (s := { ensureDoc s with st := .creationInfo }) hd).trans
            ((skel_st (ensureDoc s) .creationInfo).trans (skel_ensureDoc s))
        rw [← h1]; rfl
      rw [hk]
      rw [hst] at hz
      simp only [Zone] at hz
      rw [hz] at hr ⊢
      exact hr
  · rename_i hst
    simp only [parseFromCreationInfo] at h
    split at h
    · simp at h
    · rename_i d hd
      refine key _ h rfl ?_
      have hk : skel { ensureCI s d with st := .file, pkg := none } = { skel s with pkg := none } := by
        rw [← skel_ensureCI hd]; rfl
      rw [hk]
      rw [hst] at hz
      simp only [Zone] at hz
      rw [hz] at hr ⊢
      exact hr
  · simp only [parseFromPackage] at h
    simp at h
    exact key _ h rfl hr
  · rename_i hst
    simp only [parseFromFile] at h
    simp at h
    exact key _ h hst hr
  · simp only [parseFromSnippet] at h
    exact key _ h rfl hr
  · simp [parseFromOtherLicense, parseShared] at h
  · simp [parseFromReview, parseShared] at h

/-- A `PackageName` pair opens a package section. -/
theorem step_packageName {v : Version} {s s' : Parser} {o : Out} {p : TVPair} (ht : Tag.ofStr p.tag = .packageName)
    (hv : p.value ≠ [])
    (h : parsePair v s p = .ok s') (hr : OutRel (skel s) o) (hz : Zone s.st (skel s))
    (hsnip : s.st = .snippet → s.fileLacksId = false) :
    OutRel (skel s') (addPkg p.value o) ∧ Zone s'.st (skel s') := by
  have zone : ∀ k : Skel, Zone .package { k with file := none, pkg := some k.PS.length, PS := k.PS ++ [(p.value, [], [])] } := by
    intro k
    refine ⟨by simp, rfl, ?_⟩
    intro P n e fs hP
    simp only at hP
    have := List.append_inj_right' hP rfl
    simp at this
    exact this.2.2
  have key : ∀ s0 : Parser, openPackage s0 p.value = .ok s' → s0.st = .package → OutRel { skel s0 with file := (skel s).file } o →
      (skel s0).file = none → s.fileLacksId = false →
      ({ skel s0 with file := (skel s).file } : Skel) = skel s →
      OutRel (skel s') (addPkg p.value o) ∧ Zone s'.st (skel s') := by
    intro s0 h0 hst0 hr0 hf0 hfl heq
    have hn : s0.pkgNamedOrNil = true := by
      have := pkgNamed_of_rel hr
      have hp : s0.pkg = s.pkg := show (skel s0).pkg = (skel s).pkg by rw [← heq]
      have hP : (skel s0).PS = (skel s).PS := by rw [← heq]
      obtain ⟨B, cur, hf, h⟩ := hr
      unfold Parser.pkgNamedOrNil
      rw [hp]
      rcases h with ⟨h1, -⟩ | ⟨P, n, e, fs, hPs, hp', hn, -⟩
      · simp only [skel] at h1; rw [h1]
      · have hp2 : s.pkg = some P.length := hp'
        obtain ⟨q, hqq, rfl, -⟩ := pkg_at (s := s0) (hp.trans hp2) (hP.trans hPs) rfl
        rw [hp2]; simp only [hqq]
        cases hname : q.name with
        | nil => exact absurd hname hn
        | cons a l => rfl
    obtain ⟨hl, hst, hk⟩ := skel_openPackage_new h0 hn
    have hlS : s.pkgLacksId = false := by
      have hp : s0.pkg = s.pkg := show (skel s0).pkg = (skel s).pkg by rw [← heq]
      have hP : (skel s0).PS = (skel s).PS := by rw [← heq]
      have hr' := hr
      obtain ⟨B, cur, hf, h⟩ := hr'
      unfold Parser.pkgLacksId at hl ⊢
      rw [hp] at hl
      rcases h with ⟨h1, -⟩ | ⟨P, n, e, fs, hPs, hp', hn, -⟩
      · simp only [skel] at h1; rw [h1]
      · have hp2 : s.pkg = some P.length := hp'
        obtain ⟨q, hqq, -, hqe, -⟩ := pkg_at (s := s0) (hp.trans hp2) (hP.trans hPs) rfl
        obtain ⟨q', hqq', -, hqe', -⟩ := pkg_at (s := s) hp2 hPs rfl
        rw [hp2] at hl ⊢
        simp only [hqq, hqq', hqe, hqe'] at hl ⊢
        exact hl
    rw [hk, hst, hst0]
    have hres := rel_addPkg (value := p.value) hr hv (fileClosed hfl) (pkgClosed hr hlS)
    have hsk : ({ skel s0 with pkg := some (skel s0).PS.length, PS := (skel s0).PS ++ [(p.value, [], [])] } : Skel) =
        { skel s with file := none, pkg := some (skel s).PS.length, PS := (skel s).PS ++ [(p.value, [], [])] } := by
      rw [← heq]
      simp [hf0]
    rw [hsk]
    exact ⟨hres, zone _⟩
  have first : ∀ s0 : Parser, openPackage ({ s0 with st := .package } : Parser).newPkg p.value = .ok s' →
      skel s0 = ⟨none, none, [], [], [], []⟩ → skel s = ⟨none, none, [], [], [], []⟩ →
      OutRel (skel s') (addPkg p.value o) ∧ Zone s'.st (skel s') := by
    intro s0 h0 he hes
    obtain ⟨hst, hk⟩ := skel_openPackage_first h0
    have hk2 : skel { s0 with st := .package } = _ := (skel_st s0 .package).trans he
    rw [hk2] at hk
    rw [hk, hst]
    rw [hes] at hr
    have hres := rel_addPkg (value := p.value) hr hv (by
      intro B c hc; have := hc.ptr; simp at this) (by intro P n e fs hP; simp at hP)
    exact ⟨hres, zone ⟨none, none, [], [], [], []⟩⟩
  unfold parsePair at h
  rw [ht] at h
  simp only at h
  split at h
  · rename_i hst
    simp only [parseFromStart, parseStartTags, parseFromCreationInfo] at h
    rw [hst] at hz
    split at h
    · simp at h
    · rename_i d hd
      split at h
      · simp at h
      · refine first _ h ?_ hz
        exact (skel_ensureCI (s := { ensureDoc s with st := .creationInfo }) hd).trans
          ((skel_st (ensureDoc s) .creationInfo).trans ((skel_ensureDoc s).trans hz))
  · rename_i hst
    simp only [parseFromCreationInfo] at h
    rw [hst] at hz
    split at h
    · simp at h
    · rename_i d hd
      split at h
      · simp at h
      · refine first _ h ?_ hz
        rw [skel_ensureCI hd]; exact hz
  · rename_i hst
    simp only [parseFromPackage] at h
    simp at h
    rw [hst] at hz
    have hf : s.file = none := hz.2.1
    refine key _ h hst hr hf (by simp [Parser.fileLacksId, hf]) rfl
  · simp only [parseFromFile] at h
    simp at h
    have hl : s.fileLacksId = false := by
      cases hb : s.fileLacksId with
      | false => rfl
      | true =>
        exfalso
        have : ({ s with fileAOP := none } : Parser).fileLacksId = true := hb
        rw [this] at h; simp at h
    have : ({ s with fileAOP := none } : Parser).fileLacksId = false := hl
    rw [this] at h
    simp at h
    exact key _ h rfl hr rfl hl rfl
  · rename_i hst
    simp only [parseFromSnippet] at h
    exact key _ h rfl hr rfl (hsnip hst) rfl
  · simp [parseFromOtherLicense, parseShared] at h
  · simp [parseFromReview, parseShared] at h

theorem fileLacksId_skel {s s' : Parser} (h : skel s' = skel s) : s'.fileLacksId = s.fileLacksId := by
  have h1 : s'.file = s.file := congrArg Skel.file h
  have h2 : s'.files.map (fun f => (f.name, f.spdxId)) = s.files.map fun f => (f.name, f.spdxId) := congrArg Skel.FS h
  unfold Parser.fileLacksId
  rw [h1]
  cases hi : s.file with
  | none => rfl
  | some i =>
    simp only
    have := congrArg (fun l => l[i]?) h2
    simp only [List.getElem?_map] at this
    cases ha : s'.files[i]? <;> cases hb : s.files[i]? <;> simp [ha, hb] at this ⊢
    rw [this.2]

theorem skel_modPkg {s s' : Parser} {f : Package Nat → Package Nat} {g : Str × Str × List Nat → Str × Str × List Nat}
    {i : Nat} (hi : s.pkg = some i) (h : s.modPkg f = .ok s')
    (hf : ∀ p, ((f p).name, (f p).spdxId, (f p).files) = g (p.name, p.spdxId, p.files)) :
    skel s' = { skel s with PS := (skel s).PS.modify i g } ∧ s'.st = s.st ∧ s'.pkg = s.pkg ∧ s'.doc = s.doc := by
  obtain ⟨j, hj, rfl⟩ := modPkg_ok h
  rw [hi] at hj; simp only [Option.some.injEq] at hj; subst hj
  refine ⟨?_, rfl, rfl, rfl⟩
  simp only [skel, Skel.mk.injEq, true_and, and_true]
  apply List.ext_getElem?
  intro k
  simp only [List.getElem?_map, List.getElem?_modify]
  cases s.pkgs[k]? with
  | none => simp
  | some x => simp only [Option.map_eq_map, Option.map_some, Option.some.injEq]; split <;> simp [hf]

theorem skel_modFile {s s' : Parser} {f : File Nat → File Nat} {g : Str × Str → Str × Str}
    {i : Nat} (hi : s.file = some i) (h : s.modFile f = .ok s')
    (hf : ∀ p, ((f p).name, (f p).spdxId) = g (p.name, p.spdxId)) :
    skel s' = { skel s with FS := (skel s).FS.modify i g } ∧ s'.st = s.st ∧ s'.file = s.file ∧ s'.pkg = s.pkg := by
  obtain ⟨j, hj, rfl⟩ := modFile_ok h
  rw [hi] at hj; simp only [Option.some.injEq] at hj; subst hj
  refine ⟨?_, rfl, rfl, rfl⟩
  simp only [skel, Skel.mk.injEq, true_and, and_true]
  apply List.ext_getElem?
  intro k
  simp only [List.getElem?_map, List.getElem?_modify]
  cases s.files[k]? with
  | none => simp
  | some x => simp only [Option.map_eq_map, Option.map_some, Option.some.injEq]; split <;> simp [hf]

/-- An `SPDXID` pair. -/
theorem step_spdxID {v : Version} {s s' : Parser} {o : Out} {p : TVPair} (ht : Tag.ofStr p.tag = .spdxID)
    (h : parsePair v s p = .ok s') (hr : OutRel (skel s) o) (hz : Zone s.st (skel s))
    (honce : Once (addId p.value o)) :
    OutRel (skel s') (addId p.value o) ∧ Zone s'.st (skel s') ∧ s'.st ≠ .snippet := by
  unfold parsePair at h
  rw [ht] at h
  simp only at h
  split at h
  · rename_i hst
    rw [hst] at hz
    have hk := keep_start h hst (by simp) (by simp)
    have hz' : Zone s'.st (skel s) := by have := hk.2; rw [hst] at this; exact zone_step hz this
    rw [hk.1]
    have he : skel s = ⟨none, none, [], [], [], []⟩ := hz
    refine ⟨?_, hz', ?_⟩
    · rw [he] at hr ⊢
      obtain ⟨B, cur, hf, hr⟩ := hr
      have hc : cur = none := by
        have := hf.ptr
        cases cur with
        | none => rfl
        | some c => simp at this
      subst hc
      rcases hr with ⟨-, -, -, is, es, hm, hd, rfl⟩ | ⟨P, n, e, fs, hP, -⟩
      · have : is = [] := by simpa [curIdx] using hd
        subst this
        simp at hm; subst hm
        exact rel_empty
      · simp at hP
    · intro hsn
      have := hk.2; rw [hst, hsn] at this; simp [StStep] at this
  · rename_i hst
    simp only [parseFromCreationInfo] at h
    split at h <;> simp [parseShared] at h
  · -- package
    rename_i hst
    rw [hst] at hz
    simp only [parseFromPackage] at h
    simp only [ne_eq, reduceCtorEq, not_false_eq_true, if_true] at h
    rw [bind_eq_ok] at h
    obtain ⟨e, he, h⟩ := h
    obtain ⟨hval, he1, he2⟩ := extractElementID_eq_ok.1 he
    rw [bind_eq_ok] at h
    obtain ⟨s1, hs1, h⟩ := h
    obtain ⟨i, hi, -⟩ := modPkg_ok hs1
    have hi' : s.pkg = some i := hi
    obtain ⟨hk1, hst1, hp1, hd1⟩ := skel_modPkg (g := fun p => (p.1, e, p.2.2)) hi hs1 (fun p => rfl)
    rw [hp1] at h
    simp only [hi'] at h
    obtain ⟨d, hd, rfl⟩ := modDoc_ok h
    have hd0 : s.doc = some d := by rw [hd1] at hd; exact hd
    have hk1' : skel s1 = { skel s with PS := (skel s).PS.modify i fun p => (p.1, e, p.2.2) } := hk1
    have hk : skel { s1 with doc := some { d with packages := d.packages ++ [i] } } =
        { skel s with docP := (skel s).docP ++ [i], PS := (skel s).PS.modify i fun p => (p.1, e, p.2.2) } := by
      have : skel { s1 with doc := some { d with packages := d.packages ++ [i] } } =
          { skel s1 with docP := (skel s1).docP ++ [i] } := by simp [skel, hd]
      rw [this, hk1']
    rw [hk]
    have hst' : s1.st = .package := by rw [hst1]; exact hst
    have hrel := rel_pkgId hr (x := e) (i := i) hi' hz.2.1 hz.2.2 he1 (by rw [hval] at honce; exact honce)
    refine ⟨by rw [hval]; exact hrel, ?_, by simp only; rw [hst']; simp⟩
    simp only; rw [hst']
    refine ⟨hz.1, hz.2.1, ?_⟩
    intro P n e' fs hP
    simp only at hP
    -- the last package keeps its files
    rcases hr with ⟨B, cur, -, hr⟩
    rcases hr with ⟨h1, -⟩ | ⟨P', n', e'', fs', hP', hp', -⟩
    · simp only [skel] at h1; rw [hi'] at h1; simp at h1
    · have hil : i = P'.length := by
        have : s.pkg = some P'.length := hp'
        rw [hi'] at this; simpa using this
      subst hil
      rw [hP', modify_last] at hP
      have := List.append_inj_right' hP rfl
      simp only [List.cons.injEq, Prod.mk.injEq, and_true] at this
      rw [← this.2.2]
      exact hz.2.2 _ _ _ _ hP'
  · -- file
    rename_i hst
    rw [hst] at hz
    simp only [parseFromFile] at h
    simp only [ne_eq, reduceCtorEq, not_false_eq_true, and_self, if_true] at h
    rw [bind_eq_ok] at h
    obtain ⟨e, he, h⟩ := h
    obtain ⟨hval, he1, he2⟩ := extractElementID_eq_ok.1 he
    rw [bind_eq_ok] at h
    obtain ⟨s1, hs1, h⟩ := h
    obtain ⟨i, hi, -⟩ := modFile_ok hs1
    have hi' : s.file = some i := hi
    obtain ⟨hk1, hst1, hf1, hp1⟩ := skel_modFile (g := fun p => (p.1, e)) hi hs1 (fun p => rfl)
    have hk1' : skel s1 = { skel s with FS := (skel s).FS.modify i fun p => (p.1, e) } := hk1
    have hst' : s1.st = .file := by rw [hst1]; exact hst
    rw [hf1] at h
    simp only [hi'] at h
    have hrel := rel_fileId hr (x := e) (i := i) hi' he1 (by rw [hval] at honce; exact honce)
    split at h
    · rename_i hpk
      obtain ⟨d, hd, rfl⟩ := modDoc_ok h
      have hk : skel { s1 with doc := some { d with files := d.files ++ [i] } } =
          { skel s with docF := (skel s).docF ++ [i], FS := (skel s).FS.modify i fun p => (p.1, e) } := by
        have : skel { s1 with doc := some { d with files := d.files ++ [i] } } =
            { skel s1 with docF := (skel s1).docF ++ [i] } := by simp [skel, hd]
        rw [this, hk1']
      rw [hk]
      refine ⟨by rw [hval]; exact hrel.1 (by have : s.pkg = none := hp1.symm.trans hpk; exact this), ?_,
        by simp only; rw [hst']; simp⟩
      simp only; rw [hst']; exact hz
    · rename_i j hpk
      obtain ⟨hk2, hst2, -, -⟩ := skel_modPkg (g := fun p => (p.1, p.2.1, p.2.2 ++ [i])) hpk h (fun p => rfl)
      rw [hk2, hst2, hst', hk1']
      refine ⟨by rw [hval]; exact hrel.2 j (by have : s.pkg = some j := hp1.symm.trans hpk; exact this), ?_, by simp⟩
      exact hz
  · simp [parseFromSnippet, parseShared] at h
  · simp [parseFromOtherLicense, parseShared] at h
  · simp [parseFromReview, parseShared] at h

theorem tag_of_ofStr {t : Str} {x : Tag} (h : Tag.ofStr t = x) (hx : x ≠ .other) : (t, x) ∈ tagTable := by
  unfold Tag.ofStr at h
  split at h
  · rename_i y hy; subst h; exact mem_of_mapGet hy
  · exact absurd h.symm hx

theorem ofStr_header (t : Str) :
    (t = g!"PackageName" ↔ Tag.ofStr t = .packageName) ∧ (t = g!"FileName" ↔ Tag.ofStr t = .fileName) ∧
    (t = g!"SPDXID" ↔ Tag.ofStr t = .spdxID) := by
  have key : ∀ e ∈ tagTable, (e.2 = .packageName → e.1 = g!"PackageName") ∧ (e.2 = .fileName → e.1 = g!"FileName") ∧
      (e.2 = .spdxID → e.1 = g!"SPDXID") := by decide +kernel
  refine ⟨⟨?_, ?_⟩, ⟨?_, ?_⟩, ⟨?_, ?_⟩⟩
  · rintro rfl; decide +kernel
  · intro h; exact (key _ (tag_of_ofStr h (by simp))).1 rfl
  · rintro rfl; decide +kernel
  · intro h; exact (key _ (tag_of_ofStr h (by simp))).2.1 rfl
  · rintro rfl; decide +kernel
  · intro h; exact (key _ (tag_of_ofStr h (by simp))).2.2 rfl

/-- The state follows the outline. -/
structure Follows (s : Parser) (o : Out) : Prop where
  rel : OutRel (skel s) o
  zone : Zone s.st (skel s)
  snip : s.st = .snippet → s.fileLacksId = false

theorem follows_step {v : Version} {s s' : Parser} {o : Out} {p : TVPair} (hf : Follows s o)
    (h : parsePair v s p = .ok s') (hname : p.tag = g!"PackageName" → p.value ≠ [])
    (honce : Once (outStep o p)) : Follows s' (outStep o p) := by
  obtain ⟨e1, e2, e3⟩ := ofStr_header p.tag
  unfold outStep at honce ⊢
  by_cases h1 : p.tag = g!"PackageName"
  · rw [if_pos h1] at honce ⊢
    have := step_packageName (e1.1 h1) (hname h1) h hf.rel hf.zone hf.snip
    refine ⟨this.1, this.2, ?_⟩
    intro hst
    have hz := this.2
    rw [hst] at hz
    exfalso
    -- a package section follows a package name
    have hst' : s'.st = .package := by
      have h' := h
      unfold parsePair at h'
      rw [e1.1 h1] at h'
      simp only at h'
      have hop : ∀ s0, openPackage s0 p.value = .ok s' → s'.st = s0.st := by
        intro s0 h0
        unfold openPackage at h0
        simp only at h0
        split at h0
        · split at h0
          · simp at h0
          · obtain ⟨i, -, rfl⟩ := modPkg_ok h0; rfl
        · obtain ⟨i, -, rfl⟩ := modPkg_ok h0; rfl
      split at h'
      · simp only [parseFromStart, parseStartTags, parseFromCreationInfo] at h'
        split at h'
        · simp at h'
        · split at h'
          · simp at h'
          · exact hop _ h'
      · simp only [parseFromCreationInfo] at h'
        split at h'
        · simp at h'
        · split at h'
          · simp at h'
          · exact hop _ h'
      · rename_i hs0
        simp only [parseFromPackage] at h'
        simp at h'
        rw [hop _ h']; exact hs0
      · simp only [parseFromFile] at h'
        simp only [ne_eq, reduceCtorEq, not_false_eq_true, and_self, if_true] at h'
        split at h'
        · simp at h'
        · rw [hop _ h']
      · simp only [parseFromSnippet] at h'
        rw [hop _ h']
      · simp [parseFromOtherLicense, parseShared] at h'
      · simp [parseFromReview, parseShared] at h'
    rw [hst] at hst'; simp at hst'
  · rw [if_neg h1] at honce ⊢
    by_cases h2 : p.tag = g!"FileName"
    · rw [if_pos h2] at honce ⊢
      have := step_fileName (e2.1 h2) h hf.rel hf.zone
      refine ⟨this.1, this.2, ?_⟩
      intro hst
      exfalso
      have hst' : s'.st = .file := by
        have h' := h
        unfold parsePair at h'
        rw [e2.1 h2] at h'
        simp only at h'
        split at h'
        · simp only [parseFromStart, parseStartTags, parseFromCreationInfo] at h'
          split at h'
          · simp at h'
          · exact (skel_openFile h').2.1
        · simp only [parseFromCreationInfo] at h'
          split at h'
          · simp at h'
          · exact (skel_openFile h').2.1
        · simp only [parseFromPackage] at h'
          exact (skel_openFile h').2.1
        · rename_i hs0
          simp only [parseFromFile] at h'
          rw [(skel_openFile h').2.1]
          split <;> exact hs0
        · simp only [parseFromSnippet] at h'
          exact (skel_openFile h').2.1
        · simp [parseFromOtherLicense, parseShared] at h'
        · simp [parseFromReview, parseShared] at h'
      rw [hst] at hst'; simp at hst'
    · rw [if_neg h2] at honce ⊢
      by_cases h3 : p.tag = g!"SPDXID"
      · rw [if_pos h3] at honce ⊢
        have := step_spdxID (e3.1 h3) h hf.rel hf.zone honce
        exact ⟨this.1, this.2.1, fun hst => absurd hst this.2.2⟩
      · rw [if_neg h3] at honce ⊢
        have n1 : Tag.ofStr p.tag ≠ .packageName := fun hh => h1 (e1.2 hh)
        have n2 : Tag.ofStr p.tag ≠ .fileName := fun hh => h2 (e2.2 hh)
        have n3 : Tag.ofStr p.tag ≠ .spdxID := fun hh => h3 (e3.2 hh)
        have hk : Keep s s' := by
          unfold parsePair at h
          simp only at h
          split at h
          · rename_i hst; exact keep_start h hst n1 n2
          · rename_i hst; exact keep_creationInfo h hst n1 n2
          · rename_i hst; exact keep_package h hst n1 n2 n3
          · rename_i hst; exact keep_file h hst n1 n2 n3
          · exact keep_snippet h n1 n2
          · rename_i hst
            refine ⟨skel_otherLicense h, ?_⟩
            have := tail_otherLicense (Or.inl hst) h
            rcases this with hh | hh
            · rw [hh]; exact Or.inr (Or.inl rfl)
            · rw [hh]; exact Or.inr (Or.inr (Or.inl rfl))
          · exact (same_review h).keep
        refine ⟨by rw [hk.1]; exact hf.rel, by rw [hk.1]; exact zone_step hf.zone hk.2, ?_⟩
        intro hst
        rw [fileLacksId_skel hk.1]
        have := hk.2
        rw [hst] at this
        rcases this with hh | hh | hh | hh | hh | hh
        · exact hf.snip hh.symm
        · simp at hh
        · simp at hh
        · simp at hh
        · simp at hh
        · exact hh.2.2

theorem follows_init : Follows {} ([], []) := ⟨rel_empty, rfl, by simp⟩

theorem follows_pairs {v : Version} {s s' : Parser} {o : Out} {ps : List TVPair} (hf : Follows s o)
    (h : parsePairs v s ps = .ok s') (hname : ∀ p ∈ ps, p.tag = g!"PackageName" → p.value ≠ [])
    (honce : Once (List.foldl outStep o ps)) : Follows s' (List.foldl outStep o ps) := by
  induction ps generalizing s o with
  | nil => simp only [parsePairs, Res.ok.injEq] at h; subst h; exact hf
  | cons p ps ih =>
    simp only [parsePairs] at h
    cases hp : parsePair v s p with
    | err => simp [hp] at h
    | panic => simp [hp] at h
    | ok s1 =>
      simp only [hp] at h
      simp only [List.foldl_cons] at honce ⊢
      exact ih (follows_step hf hp (hname p (by simp)) (once_foldl honce)) h
        (fun q hq => hname q (by simp [hq])) honce

/-! ## The result -/

theorem lookF_deref {s : Parser} {i : Nat} {e : Entry} {f : FileV} (h : lookF (skel s).FS i = some e)
    (hf : derefFileRef s i = some f) : fileEntry f = e := by
  simp only [derefFileRef, Option.bind_eq_bind, Option.bind_eq_some_iff] at hf
  obtain ⟨g, hg, hf⟩ := hf
  simp only [derefFile, Option.bind_eq_bind, Option.bind_eq_some_iff, Option.pure_def, Option.some.injEq] at hf
  obtain ⟨sn, -, rfl⟩ := hf
  unfold lookF at h
  simp only [skel, List.getElem?_map, hg, Option.map_some] at h
  split at h
  · simp at h
  · simp at h; exact h

theorem mapM_deref {s : Parser} {is : List Nat} {es : List Entry} {fs : List FileV}
    (h : is.mapM (lookF (skel s).FS) = some es) (hf : is.mapM (derefFileRef s) = some fs) : fs.map fileEntry = es := by
  induction is generalizing es fs with
  | nil => simp at h hf; subst h hf; rfl
  | cons a l ih =>
    simp only [List.mapM_cons, Option.bind_eq_bind, Option.bind_eq_some_iff, Option.pure_def,
      Option.some.injEq] at h hf
    obtain ⟨y, hy, zs, hzs, rfl⟩ := h
    obtain ⟨f, hff, fs', hfs', rfl⟩ := hf
    simp [lookF_deref hy hff, ih hzs hfs']

theorem mapM_derefP {s : Parser} {is : List Nat} {es : List (Entry × List Entry)} {ps : List PackageV}
    (h : is.mapM (lookP (skel s).PS (skel s).FS) = some es) (hf : is.mapM (derefPackageRef s) = some ps) :
    ps.map packageEntry = es := by
  induction is generalizing es ps with
  | nil => simp at h hf; subst h hf; rfl
  | cons a l ih =>
    simp only [List.mapM_cons, Option.bind_eq_bind, Option.bind_eq_some_iff, Option.pure_def,
      Option.some.injEq] at h hf
    obtain ⟨y, hy, zs, hzs, rfl⟩ := h
    obtain ⟨p, hp, ps', hps', rfl⟩ := hf
    have : packageEntry p = y := by
      simp only [derefPackageRef, Option.bind_eq_bind, Option.bind_eq_some_iff, Option.pure_def,
        Option.some.injEq] at hp
      obtain ⟨q, hq, fs, hfs, rfl⟩ := hp
      unfold lookP at hy
      simp only [skel, List.getElem?_map, hq, Option.map_some] at hy
      split at hy
      · simp at hy
      · simp only [Option.map_eq_some_iff] at hy
        obtain ⟨es, hes, rfl⟩ := hy
        have := mapM_deref hes hfs
        simp [packageEntry, this]; rfl
    simp [this, ih hzs hps']

theorem follows_result {s : Parser} {o : Out} {d : HDoc} {doc : Doc} (hf : Follows s o) (hfile : s.fileLacksId = false)
    (hpkg : s.pkgLacksId = false) (hd : s.doc = some d) (hdoc : derefDoc s d = some doc) :
    doc.files.map fileEntry = o.1 ∧ doc.packages.map packageEntry = o.2 := by
  simp only [derefDoc, Option.bind_eq_bind, Option.bind_eq_some_iff, Option.pure_def, Option.some.injEq] at hdoc
  obtain ⟨ps, hps, fs, hfs, rfl⟩ := hdoc
  have hdP : (skel s).docP = d.packages := by simp [skel, hd]
  have hdF : (skel s).docF = d.files := by simp [skel, hd]
  have hrel := hf.rel
  obtain ⟨B, cur, hc, hr⟩ := hrel
  have hid' : ∀ c, cur = some c → c.2 ≠ [] := by rintro c rfl; exact fileClosed hfile B c hc
  simp only
  rcases hr with ⟨h1, h2, h3, is, es, hm, hdf, rfl⟩ | ⟨P, n, e, fs', hP, hp, hn, u, hu, ip, gs, hip, hdp, is, es, hm, rfl, rfl⟩
  · have hl := close_file hid' hm
    rw [← hc.heap, ← hdf, hdF] at hl
    refine ⟨mapM_deref hl hfs, ?_⟩
    rw [← hdP, h3] at hps
    simp at hps; subst hps; rfl
  · have he := pkgClosed hf.rel hpkg _ _ _ _ hP
    constructor
    · refine mapM_deref ?_ hfs
      rw [← hdF, hc.heap]; exact mapM_mono (fun _ _ => lookF_mono) hu
    · refine mapM_derefP ?_ hps
      rw [← hdP, hdp]
      refine mapM_append_some ?_ ?_
      · rw [hc.heap, hP]; exact mapM_mono (fun _ _ => lookP_mono) hip
      · simp only [idx, if_neg he]
        have hl := close_file hid' hm
        rw [← hc.heap] at hl
        simp [lookP, hP, he, hl, idsOf]

end Verif
