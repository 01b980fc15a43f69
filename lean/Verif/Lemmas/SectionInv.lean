import Verif.Lemmas.SectionTree
import Verif.Lemmas.Map

set_option linter.unusedSimpArgs false

/-!
# The parser follows the sections of the text
-/

namespace Verif
open Spec

/-! ## Looking up -/

/-- The snippets of a file. -/
def seeS (C : List Snippet) (m : List (Str × Nat)) : Option (List (Str × Snippet)) :=
  m.mapM fun (k, i) => (C[i]?).map fun x => (k, x)

/-- The file at an index. -/
def seeF (B : List (File Nat)) (C : List Snippet) (i : Nat) : Option FileV := do
  let f ← B[i]?
  let sn ← seeS C f.snippets
  pure { f with snippets := sn }

/-- The package at an index. -/
def seeP (P : List (Package Nat)) (B : List (File Nat)) (C : List Snippet) (i : Nat) : Option PackageV := do
  let p ← P[i]?
  let fs ← p.files.mapM (seeF B C)
  pure { p with files := fs }

theorem get_mono {α : Type} {l m : List α} {i : Nat} {x : α} (h : l[i]? = some x) : (l ++ m)[i]? = some x := by
  rw [List.getElem?_append_left]; exact h
  exact (List.getElem?_eq_some_iff.1 h).1

theorem seeS_mono {C D : List Snippet} {m : List (Str × Nat)} {n : List (Str × Snippet)} (h : seeS C m = some n) :
    seeS (C ++ D) m = some n := by
  refine mapM_mono ?_ h
  rintro ⟨k, i⟩ y hy
  simp only [Option.map_eq_some_iff] at hy ⊢
  obtain ⟨x, hx, rfl⟩ := hy
  exact ⟨x, get_mono hx, rfl⟩

theorem seeF_some {B : List (File Nat)} {C : List Snippet} {i : Nat} {y : FileV} :
    seeF B C i = some y ↔ ∃ f n, B[i]? = some f ∧ seeS C f.snippets = some n ∧ y = { f with snippets := n } := by
  simp only [seeF, Option.bind_eq_bind, Option.bind_eq_some_iff, Option.pure_def, Option.some.injEq]
  constructor
  · rintro ⟨f, h1, n, h2, rfl⟩; exact ⟨f, n, h1, h2, rfl⟩
  · rintro ⟨f, n, h1, h2, rfl⟩; exact ⟨f, h1, n, h2, rfl⟩

theorem seeP_some {P : List (Package Nat)} {B : List (File Nat)} {C : List Snippet} {i : Nat} {y : PackageV} :
    seeP P B C i = some y ↔ ∃ p fs, P[i]? = some p ∧ p.files.mapM (seeF B C) = some fs ∧ y = { p with files := fs } := by
  simp only [seeP, Option.bind_eq_bind, Option.bind_eq_some_iff, Option.pure_def, Option.some.injEq]
  constructor
  · rintro ⟨f, h1, n, h2, rfl⟩; exact ⟨f, n, h1, h2, rfl⟩
  · rintro ⟨f, n, h1, h2, rfl⟩; exact ⟨f, h1, n, h2, rfl⟩

theorem seeF_mono {B B' : List (File Nat)} {C C' : List Snippet} {i : Nat} {y : FileV} (h : seeF B C i = some y) :
    seeF (B ++ B') (C ++ C') i = some y := by
  rw [seeF_some] at h ⊢
  obtain ⟨f, n, h1, h2, h3⟩ := h
  exact ⟨f, n, get_mono h1, seeS_mono h2, h3⟩

theorem seeP_mono {P P' : List (Package Nat)} {B B' : List (File Nat)} {C C' : List Snippet} {i : Nat} {y : PackageV}
    (h : seeP P B C i = some y) : seeP (P ++ P') (B ++ B') (C ++ C') i = some y := by
  rw [seeP_some] at h ⊢
  obtain ⟨p, fs, h1, h2, h3⟩ := h
  exact ⟨p, fs, get_mono h1, mapM_mono (fun _ _ => seeF_mono) h2, h3⟩

/-- The file at an index is what the section says. -/
def GoodF (v : Version) (B : List (File Nat)) (C : List Snippet) (s : FileSec) (i : Nat) : Prop :=
  ∃ y, seeF B C i = some y ∧ FileSectionSays v s y

/-- The package at an index is what the section says. -/
def GoodP (v : Version) (P : List (Package Nat)) (B : List (File Nat)) (C : List Snippet) (s : PackageSec) (i : Nat) : Prop :=
  ∃ y, seeP P B C i = some y ∧ PackageSectionSays v s y

theorem GoodF.mono {v : Version} {B : List (File Nat)} {C : List Snippet} {s : FileSec} {i : Nat} (h : GoodF v B C s i)
    (B' : List (File Nat)) (C' : List Snippet) : GoodF v (B ++ B') (C ++ C') s i := by
  obtain ⟨y, h1, h2⟩ := h
  exact ⟨y, seeF_mono h1, h2⟩

theorem GoodP.mono {v : Version} {P : List (Package Nat)} {B : List (File Nat)} {C : List Snippet} {s : PackageSec} {i : Nat}
    (h : GoodP v P B C s i) (P' : List (Package Nat)) (B' : List (File Nat)) (C' : List Snippet) :
    GoodP v (P ++ P') (B ++ B') (C ++ C') s i := by
  obtain ⟨y, h1, h2⟩ := h
  exact ⟨y, seeP_mono h1, h2⟩

/-! ## The snippets of a file -/

/-- The snippets registered with a file: from index `n` on. -/
def linkFrom (m : List (Str × Nat)) (n : Nat) : List Snippet → List (Str × Nat)
  | [] => m
  | x :: xs => linkFrom (mapInsert x.spdxId n m) (n + 1) xs

theorem linkFrom_snoc (m : List (Str × Nat)) (n : Nat) (xs : List Snippet) (x : Snippet) :
    linkFrom m n (xs ++ [x]) = mapInsert x.spdxId (n + xs.length) (linkFrom m n xs) := by
  induction xs generalizing m n with
  | nil => rfl
  | cons a xs ih => simp only [List.cons_append, linkFrom, ih, List.length_cons]; congr 1; omega

theorem seeS_insert {C : List Snippet} {m : List (Str × Nat)} {n : List (Str × Snippet)} {e : Str} {i : Nat} {x : Snippet}
    (h : seeS C m = some n) (hx : C[i]? = some x) : seeS C (mapInsert e i m) = some (mapInsert e x n) := by
  induction m generalizing n with
  | nil => simp [seeS] at h; subst h; simp [seeS, mapInsert, hx]
  | cons a m ih =>
    obtain ⟨k, j⟩ := a
    simp only [seeS, List.mapM_cons, Option.bind_eq_bind, Option.bind_eq_some_iff, Option.map_eq_some_iff,
      Option.pure_def, Option.some.injEq] at h
    obtain ⟨-, ⟨y, hy, rfl⟩, n', hn', rfl⟩ := h
    simp only [mapInsert]
    split
    · simp only [seeS, List.mapM_cons, hx]
      have : seeS C m = some n' := hn'
      unfold seeS at this
      simp [this]
    · have := ih hn'
      simp only [seeS] at this
      simp [seeS, List.mapM_cons, hy, this]

theorem seeS_link (C xs : List Snippet) : ∃ m, seeS (C ++ xs) (linkFrom [] C.length xs) = some m ∧
    (m.map fun e => e.1).Nodup ∧ ∀ id, mapGet id m = xs.reverse.find? fun x => x.spdxId = id := by
  suffices H : ∀ ys : List Snippet, ∀ xs, xs = ys.reverse → ∃ m, seeS (C ++ xs) (linkFrom [] C.length xs) = some m ∧
    (m.map fun e => e.1).Nodup ∧ ∀ id, mapGet id m = xs.reverse.find? fun x => x.spdxId = id from
    H xs.reverse xs (by simp)
  intro ys
  induction ys with
  | nil => rintro xs rfl; exact ⟨[], rfl, by simp, by simp [mapGet]⟩
  | cons y ys ih =>
    rintro xs rfl
    obtain ⟨m, h1, h2, h3⟩ := ih _ rfl
    rw [List.reverse_cons, linkFrom_snoc]
    refine ⟨mapInsert y.spdxId y m, ?_, mapInsert_nodup _ _ _ h2, ?_⟩
    · have h1' := seeS_mono (D := [y]) h1
      rw [List.append_assoc] at h1'
      refine seeS_insert h1' ?_
      rw [← List.append_assoc, List.getElem?_append_right (by simp)]
      simp
    · intro id
      rw [mapGet_mapInsert, h3]
      simp only [List.reverse_append, List.reverse_reverse, List.reverse_cons, List.reverse_nil, List.nil_append,
        List.singleton_append, List.find?_cons]
      by_cases h : y.spdxId = id <;> simp [h]

/-! ## The invariant -/

/-- One registration for each identifier. -/
def regs (ps : List TVPair) (n : Nat) : List Nat := (values g!"SPDXID" ps).map fun _ => n

/-- The registrations of the file section open now. -/
def regsF (fl : Option FileSec) (n : Nat) : List Nat := match fl with
  | none => []
  | some f => regs f.pairs n

/-- The registrations of the package section open now. -/
def regsP (pk : Option PackageSec) (n : Nat) : List Nat := match pk with
  | none => []
  | some k => regs k.pairs n

/-- The file section open now, if any: the files `B` and the snippets `C` are complete. -/
def FileOpen (v : Version) (fl : Option FileSec) (B : List (File Nat)) (C : List Snippet) (w : Seen) : Prop :=
  match fl with
  | none => w.file = none ∧ w.files = B ∧ w.snips = C
  | some sec => w.file = some B.length ∧ ∃ f xs, w.files = B ++ [f] ∧ w.snips = C ++ xs ∧
      FileFields v sec.name sec.pairs f ∧ f.snippets = linkFrom [] C.length xs ∧ Pointwise SnippetSectionSays sec.snippets xs

/-- The package section open now, if any: the packages `P` are complete. -/
def PkgOpen (v : Version) (pk : Option PackageSec) (fl : Option FileSec) (P : List (Package Nat)) (B : List (File Nat))
    (C : List Snippet) (w : Seen) : Prop :=
  match pk with
  | none => w.pkg = none ∧ w.pkgs = P
  | some k => w.pkg = some P.length ∧ ∃ p, w.pkgs = P ++ [p] ∧ p.name ≠ [] ∧ k.snippets = [] ∧
      (∀ f ∈ k.files, values g!"SPDXID" f.pairs ≠ []) ∧
      PackageFields v k.name k.pairs p ∧ ∃ is, p.files = is ++ regsF fl B.length ∧
        Pointwise (GoodF v B C) (listed FileSec.pairs k.files) is

/-- What is complete. -/
structure Closed (v : Version) (z : Zip) (P : List (Package Nat)) (B : List (File Nat)) (C : List Snippet) (w : Seen) : Prop where
  docF : ∃ is, w.docF = is ++ (if z.pk = none then regsF z.fl B.length else []) ∧
    Pointwise (GoodF v B C) (listed FileSec.pairs z.loose) is
  docP : ∃ ip, w.docP = ip ++ regsP z.pk P.length ∧ Pointwise (GoodP v P B C) (listed PackageSec.pairs z.packages) ip
  files : ∀ f ∈ z.loose, values g!"SPDXID" f.pairs ≠ []
  packages : ∀ p ∈ z.packages, values g!"SPDXID" p.pairs ≠ [] ∧ p.snippets = [] ∧
    ∀ f ∈ p.files, values g!"SPDXID" f.pairs ≠ []

/-- Where the parser is. -/
def ZoneOK (z : Zip) (w : Seen) : Prop := match w.st with
  | .start => z.pk = none ∧ z.fl = none
  | .creationInfo => z.pk = none ∧ z.fl = none
  | .package => z.pk ≠ none ∧ z.fl = none
  | .file => ∃ f, z.fl = some f ∧ f.snippets = []
  | .snippet => ∃ f, z.fl = some f ∧ f.snippets ≠ [] ∧ values g!"SPDXID" f.pairs ≠ [] ∧
      w.snippet = some (w.snips.length - 1)
  | .otherLicense => True
  | .review => True

/-- The parser state holds what the sections read so far say. -/
def Tree (v : Version) (z : Zip) (w : Seen) : Prop :=
  ∃ P B C, FileOpen v z.fl B C w ∧ PkgOpen v z.pk z.fl P B C w ∧ Closed v z P B C w

/-! ## Completing what is open -/

theorem fileFields_see {σ τ : Type} {v : Version} {name : Str} {ps : List TVPair} {f : File σ} (h : FileFields v name ps f)
    (n : List (Str × τ)) : FileFields v name ps ({ f with snippets := n } : File τ) := by
  cases h; constructor <;> assumption

theorem packageFields_see {σ τ : Type} {v : Version} {name : Str} {ps : List TVPair} {p : Package σ}
    (h : PackageFields v name ps p) (n : List τ) : PackageFields v name ps ({ p with files := n } : Package τ) := by
  cases h; constructor <;> assumption

theorem shut_file {v : Version} {fl : Option FileSec} {B : List (File Nat)} {C : List Snippet} {w : Seen}
    (h : FileOpen v fl B C w) : (∃ B' C', w.files = B ++ B' ∧ w.snips = C ++ C') ∧
    Pointwise (GoodF v w.files w.snips) (listed FileSec.pairs fl.toList) (regsF fl B.length) := by
  unfold FileOpen at h
  cases fl with
  | none =>
    obtain ⟨-, h1, h2⟩ := h
    exact ⟨⟨[], [], by simp [h1], by simp [h2]⟩, .nil⟩
  | some sec =>
    obtain ⟨-, f, xs, h1, h2, h3, h4, h5⟩ := h
    refine ⟨⟨[f], xs, h1, h2⟩, ?_⟩
    simp only [Option.toList_some]
    rw [listed_one]
    unfold regsF regs
    refine pointwise_each ?_ _
    rw [h1, h2]
    obtain ⟨m, hm, hn, hg⟩ := seeS_link C xs
    rw [← h4] at hm
    exact ⟨_, seeF_some.2 ⟨f, m, by simp, hm, rfl⟩, fileFields_see h3 m, hn, xs, h5, hg⟩

theorem shut_pkg {v : Version} {pk : Option PackageSec} {fl : Option FileSec} {P : List (Package Nat)} {B : List (File Nat)}
    {C : List Snippet} {w : Seen} (hf : FileOpen v fl B C w) (h : PkgOpen v pk fl P B C w) :
    (∃ P', w.pkgs = P ++ P') ∧
    Pointwise (GoodP v w.pkgs w.files w.snips)
      (listed PackageSec.pairs (pk.map fun k => { k with files := k.files ++ fl.toList }).toList) (regsP pk P.length) := by
  unfold PkgOpen at h
  cases pk with
  | none => exact ⟨⟨[], by simp [h.2]⟩, .nil⟩
  | some k =>
    obtain ⟨-, p, h1, h2, h3, h4, h5, is, h6, h7⟩ := h
    refine ⟨⟨[p], h1⟩, ?_⟩
    simp only [Option.map_some, Option.toList_some]
    rw [listed_one]
    unfold regsP regs
    refine pointwise_each ?_ _
    obtain ⟨⟨B', C', hB, hC⟩, hc⟩ := shut_file hf
    have hfiles : Pointwise (GoodF v w.files w.snips) (listed FileSec.pairs (k.files ++ fl.toList)) p.files := by
      rw [listed_append, h6]
      refine Pointwise.app (h7.weaken ?_) hc
      intro a b hab; rw [hB, hC]; exact hab.mono _ _
    obtain ⟨ys, hys, hp⟩ := mapM_pointwise hfiles
    refine ⟨_, seeP_some.2 ⟨p, ys, by simp [h1], hys, rfl⟩, packageFields_see h5 ys, hp⟩

theorem Tree.all {v : Version} {z : Zip} {w : Seen} (h : Tree v z w) :
    Pointwise (GoodF v w.files w.snips) (listed FileSec.pairs z.looseAll) w.docF ∧
    Pointwise (GoodP v w.pkgs w.files w.snips) (listed PackageSec.pairs z.packagesAll) w.docP := by
  obtain ⟨P, B, C, hf, hp, hc⟩ := h
  obtain ⟨⟨B', C', hB, hC⟩, h1⟩ := shut_file hf
  obtain ⟨⟨P', hP⟩, h2⟩ := shut_pkg hf hp
  obtain ⟨is, e1, h3⟩ := hc.docF
  obtain ⟨ip, e2, h4⟩ := hc.docP
  have h3' : Pointwise (GoodF v w.files w.snips) (listed FileSec.pairs z.loose) is := by
    refine h3.weaken ?_
    intro a b hab; rw [hB, hC]; exact hab.mono _ _
  refine ⟨?_, ?_⟩
  · rw [e1]
    unfold Zip.looseAll
    split
    · rw [listed_append]; exact h3'.app h1
    · simpa using h3'
  · rw [e2]
    unfold Zip.packagesAll
    rw [listed_append]
    refine Pointwise.app (h4.weaken ?_) h2
    intro a b hab; rw [hB, hC, hP]; exact hab.mono _ _ _

/-- Every section gives an identifier. -/
structure Whole (fs : List FileSec) (ps : List PackageSec) : Prop where
  files : ∀ f ∈ fs, values g!"SPDXID" f.pairs ≠ []
  packages : ∀ p ∈ ps, values g!"SPDXID" p.pairs ≠ [] ∧ p.snippets = [] ∧ ∀ f ∈ p.files, values g!"SPDXID" f.pairs ≠ []

theorem Tree.whole {v : Version} {z : Zip} {w : Seen} (h : Tree v z w)
    (hf : ∀ f, z.fl = some f → values g!"SPDXID" f.pairs ≠ [])
    (hp : ∀ k, z.pk = some k → values g!"SPDXID" k.pairs ≠ []) : Whole z.looseAll z.packagesAll := by
  obtain ⟨P, B, C, -, h2, hc⟩ := h
  refine ⟨?_, ?_⟩
  · intro f hm
    unfold Zip.looseAll at hm
    split at hm
    · rcases List.mem_append.1 hm with hm | hm
      · exact hc.files f hm
      · simp at hm; exact hf f hm
    · exact hc.files f hm
  · intro p hm
    unfold Zip.packagesAll at hm
    rcases List.mem_append.1 hm with hm | hm
    · exact hc.packages p hm
    · simp at hm
      obtain ⟨k, hk, rfl⟩ := hm
      unfold PkgOpen at h2
      rw [hk] at h2
      obtain ⟨-, p, -, -, h3, h4, -⟩ := h2
      refine ⟨hp k hk, h3, ?_⟩
      intro f hm
      rcases List.mem_append.1 hm with hm | hm
      · exact h4 f hm
      · simp at hm; exact hf f hm

theorem Tree.tidy {v : Version} {z : Zip} {w : Seen} (h : Tree v z w) : z.Tidy := by
  obtain ⟨P, B, C, -, h2, -⟩ := h
  intro k hk
  unfold PkgOpen at h2
  rw [hk] at h2
  obtain ⟨-, p, -, -, h3, -⟩ := h2
  exact h3

/-! ## The empty section -/

theorem packageFields_new (v : Version) (name : Str) :
    PackageFields v name [] ({ filesAnalyzed := true, name := name } : Package Nat) := by
  constructor <;> simp [LastReads, values, lastValue, groups] <;> exact .nil

theorem fileFields_new (v : Version) (name : Str) : FileFields v name [] ({ name := name } : File Nat) := by
  constructor <;> simp [LastReads, values, lastValue, groups] <;> exact .nil

theorem snippetSays_new {id e : Str} (h : IdReads id e) : SnippetSectionSays ⟨id, []⟩ { spdxId := e } := by
  constructor <;> first | exact h | simp [LastReads, values, lastValue, groups] <;> exact .nil

/-! ## Identifiers -/

theorem lastReads_nonempty {ps : List TVPair} {e : Str} (h : LastReads g!"SPDXID" ps (e = []) IdReads e) :
    values g!"SPDXID" ps ≠ [] ↔ e ≠ [] := by
  unfold LastReads at h
  split at h
  · rename_i hv; simp [hv, h]
  · rename_i hv
    simp only [hv, not_false_eq_true, true_iff, ne_eq]
    exact h.1.1

theorem Tree.fileLacks {v : Version} {z : Zip} {s : Parser} (h : Tree v z (seen s)) :
    s.fileLacksId = false ↔ ∀ f, z.fl = some f → values g!"SPDXID" f.pairs ≠ [] := by
  obtain ⟨P, B, C, hf, -, -⟩ := h
  unfold FileOpen at hf
  unfold Parser.fileLacksId
  cases hz : z.fl with
  | none =>
    rw [hz] at hf
    have : s.file = none := hf.1
    simp [this]
  | some sec =>
    rw [hz] at hf
    obtain ⟨h1, f, xs, h2, -, h3, -⟩ := hf
    have h1 : s.file = some B.length := h1
    have h2 : s.files = B ++ [f] := h2
    rw [h1]
    simp only [h2, List.getElem?_concat_length, Option.some.injEq, forall_eq', lastReads_nonempty h3.id]
    simp

theorem Tree.pkgLacks {v : Version} {z : Zip} {s : Parser} (h : Tree v z (seen s)) :
    s.pkgLacksId = false ↔ ∀ k, z.pk = some k → values g!"SPDXID" k.pairs ≠ [] := by
  obtain ⟨P, B, C, -, hp, -⟩ := h
  unfold PkgOpen at hp
  unfold Parser.pkgLacksId
  cases hz : z.pk with
  | none =>
    rw [hz] at hp
    have : s.pkg = none := hp.1
    simp [this]
  | some sec =>
    rw [hz] at hp
    obtain ⟨h1, f, h2, -, -, -, h3, -⟩ := hp
    have h1 : s.pkg = some P.length := h1
    have h2 : s.pkgs = P ++ [f] := h2
    rw [h1]
    simp only [h2, List.getElem?_concat_length, Option.some.injEq, forall_eq', lastReads_nonempty h3.id]
    simp

theorem Tree.named {v : Version} {z : Zip} {s : Parser} (h : Tree v z (seen s)) : s.pkgNamedOrNil = true := by
  obtain ⟨P, B, C, -, hp, -⟩ := h
  unfold PkgOpen at hp
  unfold Parser.pkgNamedOrNil
  cases hz : z.pk with
  | none =>
    rw [hz] at hp
    have : s.pkg = none := hp.1
    simp [this]
  | some sec =>
    rw [hz] at hp
    obtain ⟨h1, f, h2, h3, -⟩ := hp
    have h1 : s.pkg = some P.length := h1
    have h2 : s.pkgs = P ++ [f] := h2
    rw [h1]
    simp [h2, h3]

theorem Tree.file {v : Version} {z : Zip} {w : Seen} (h : Tree v z w) : w.file = none ↔ z.fl = none := by
  obtain ⟨P, B, C, hf, -, -⟩ := h
  unfold FileOpen at hf
  cases hz : z.fl with
  | none => rw [hz] at hf; simp [hf.1]
  | some sec => rw [hz] at hf; simp [hf.1]

theorem Tree.pkg {v : Version} {z : Zip} {w : Seen} (h : Tree v z w) : w.pkg = none ↔ z.pk = none := by
  obtain ⟨P, B, C, -, hp, -⟩ := h
  unfold PkgOpen at hp
  cases hz : z.pk with
  | none => rw [hz] at hp; simp [hp.1]
  | some sec => rw [hz] at hp; simp [hp.1]

/-- The section the parser is in does not matter to the tree. -/
theorem Tree.st {v : Version} {z : Zip} {w : Seen} (h : Tree v z w) (st : PState) (sn : Option Nat) :
    Tree v z { w with st := st, snippet := sn } := by
  obtain ⟨P, B, C, h1, h2, h3⟩ := h
  exact ⟨P, B, C, h1, h2, h3.1, h3.2, h3.3, h3.4⟩

/-! ## Opening a section -/

theorem Tree.openPackage {v : Version} {z : Zip} {w : Seen} (h : Tree v z w) (name : Str) (hn : name ≠ [])
    (hf : ∀ f, z.fl = some f → values g!"SPDXID" f.pairs ≠ [])
    (hp : ∀ k, z.pk = some k → values g!"SPDXID" k.pairs ≠ []) (st : PState) (sn : Option Nat) :
    Tree v (z.openPackage name) { w with
      st := st, file := none, snippet := sn, pkg := some w.pkgs.length,
      pkgs := w.pkgs ++ [{ filesAnalyzed := true, name := name }] } := by
  have hw := h.whole hf hp
  obtain ⟨ha, hb⟩ := h.all
  refine ⟨w.pkgs, w.files, w.snips, ⟨rfl, rfl, rfl⟩, ⟨rfl, _, rfl, hn, rfl, by simp, packageFields_new v name, [], rfl, .nil⟩, ?_⟩
  exact ⟨⟨w.docF, by simp [Zip.openPackage], ha⟩, ⟨w.docP, by simp [Zip.openPackage, regsP, regs, values], hb⟩, hw.files, hw.packages⟩

theorem Tree.openFile {v : Version} {z : Zip} {w : Seen} (h : Tree v z w) (name : Str)
    (hf : ∀ f, z.fl = some f → values g!"SPDXID" f.pairs ≠ []) (st : PState) (sn : Option Nat) :
    Tree v (z.openFile name) { w with
      st := st, snippet := sn, file := some w.files.length, files := w.files ++ [{ name := name }] } := by
  obtain ⟨ha, -⟩ := h.all
  obtain ⟨P, B, C, h1, h2, hc⟩ := h
  obtain ⟨⟨B', C', hB, hC⟩, hcl⟩ := shut_file h1
  refine ⟨P, w.files, w.snips, ⟨rfl, _, [], rfl, by simp, fileFields_new v name, rfl, .nil⟩, ?_, ?_⟩
  · unfold PkgOpen at h2 ⊢
    cases hz : z.pk with
    | none => rw [hz] at h2; simpa [Zip.openFile, hz] using h2
    | some k =>
      rw [hz] at h2
      obtain ⟨e1, p, e2, e3, e4, e5, e6, is, e7, e8⟩ := h2
      simp only [Zip.openFile, hz, Option.map_some]
      refine ⟨e1, p, e2, e3, e4, ?_, e6, p.files, by simp [regsF, regs, values], ?_⟩
      · intro f hm
        rcases List.mem_append.1 hm with hm | hm
        · exact e5 f hm
        · simp at hm; exact hf f hm
      · rw [listed_append, e7]
        refine Pointwise.app (e8.weaken ?_) hcl
        intro a b hab; rw [hB, hC]; exact hab.mono _ _
  · obtain ⟨ip, e3, e4⟩ := hc.docP
    refine ⟨⟨w.docF, by simp [Zip.openFile, regsF, regs, values], ha⟩, ⟨ip, ?_, ?_⟩, ?_, hc.packages⟩
    · rw [show ({ w with st := st, snippet := sn, file := some w.files.length, files := w.files ++ [{ name := name }] } : Seen).docP = w.docP from rfl, e3]
      cases hz : z.pk <;> simp [Zip.openFile, hz, regsP]
    · refine e4.weaken ?_
      intro a b hab; rw [hB, hC]
      have := hab.mono [] B' C'
      simpa using this
    · intro f hm
      unfold Zip.openFile Zip.looseAll at hm
      simp only at hm
      split at hm
      · rcases List.mem_append.1 hm with hm | hm
        · exact hc.files f hm
        · simp at hm; exact hf f hm
      · exact hc.files f hm

end Verif
