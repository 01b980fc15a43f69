import Verif.Lemmas.Identifier
import Verif.Model.TVParse

set_option linter.unusedSimpArgs false

/-!
# The invariant of the tag-value parser
-/

namespace Verif

/-- A usable identifier. -/
def IdOK (s : Str) : Prop := s ≠ [] ∧ ':' ∉ s

def KindOK3 (k : Str) : Prop := k = g!"Person" ∨ k = g!"Organization" ∨ k = g!"Tool"
def KindOK2 (k : Str) : Prop := k = g!"Person" ∨ k = g!"Organization"

def SupplierOK (x : Supplier) : Prop :=
  x = { supplier := g!"NOASSERTION", supplierType := [] } ∨ KindOK2 x.supplierType
def OriginatorOK (x : Originator) : Prop :=
  x = { originator := g!"NOASSERTION", originatorType := [] } ∨ KindOK2 x.originatorType

/-- An element reference, possibly into another document. -/
def RefOK (r : DocElementID) : Prop :=
  r.specialID = [] ∧ r.elementRefID ≠ [] ∧ ':' ∉ r.elementRefID ∧ ':' ∉ r.documentRefID

def SpecialOK (v : Version) (r : DocElementID) : Prop :=
  v ≠ .v21 ∧ r.documentRefID = [] ∧ r.elementRefID = [] ∧
    (r.specialID = g!"NONE" ∨ r.specialID = g!"NOASSERTION")

structure RelOK (v : Version) (r : Relationship) : Prop where
  a : RefOK r.refA
  b : RefOK r.refB ∨ SpecialOK v r.refB

def GoodPkg (pkgs : List (Package Nat)) (i : Nat) : Prop := ∃ p, pkgs[i]? = some p ∧ IdOK p.spdxId
def GoodFile (files : List (File Nat)) (i : Nat) : Prop := ∃ f, files[i]? = some f ∧ IdOK f.spdxId
def GoodSnip (snips : List Snippet) (k : Str) (i : Nat) : Prop :=
  ∃ x, snips[i]? = some x ∧ x.spdxId = k ∧ IdOK k

structure PkgOK (v : Version) (files : List (File Nat)) (p : Package Nat) : Prop where
  checksums : ∀ c ∈ p.checksums, c.algorithm ∈ knownAlgorithms v
  supplier : ∀ x, p.supplier = some x → SupplierOK x
  originator : ∀ x, p.originator = some x → OriginatorOK x
  files : ∀ i ∈ p.files, GoodFile files i

structure FileOK (v : Version) (snips : List Snippet) (f : File Nat) : Prop where
  checksums : ∀ c ∈ f.checksums, c.algorithm ∈ knownAlgorithms v
  snippets : ∀ k i, (k, i) ∈ f.snippets → GoodSnip snips k i

structure DocOK (v : Version) (pkgs : List (Package Nat)) (files : List (File Nat)) (d : HDoc) : Prop where
  packages : ∀ i ∈ d.packages, GoodPkg pkgs i
  files : ∀ i ∈ d.files, GoodFile files i
  creators : ∀ c, d.creationInfo = some c → ∀ x ∈ c.creators, KindOK3 x.creatorType
  relationships : ∀ r ∈ d.relationships, RelOK v r
  annotations : ∀ a ∈ d.annotations, KindOK3 a.annotator.annotatorType
  reviews : ∀ r ∈ d.reviews, KindOK3 r.reviewerType

structure Core (v : Version) (s : Parser) : Prop where
  doc : ∃ d, s.doc = some d ∧ DocOK v s.pkgs s.files d
  pkgs : ∀ p ∈ s.pkgs, PkgOK v s.files p
  files : ∀ f ∈ s.files, FileOK v s.snips f
  pkg : ∀ i, s.pkg = some i → i < s.pkgs.length
  file : ∀ i, s.file = some i → i < s.files.length
  snippet : ∀ i, s.snippet = some i → i < s.snips.length

/-- The pointer a section works on is set. -/
def StOK (s : Parser) : Prop :=
  match s.st with
  | .start => True
  | .creationInfo => True
  | .package => s.pkg ≠ none
  | .file => s.file ≠ none
  | .snippet => s.snippet ≠ none
  | .otherLicense => s.otherLic ≠ none
  | .review => s.rev ≠ none

def Inv (v : Version) (s : Parser) : Prop := s = {} ∨ (Core v s ∧ StOK s)

/-- A result that is no panic, and keeps the invariant if it is a state. -/
def Safe (v : Version) (r : Res Parser) : Prop :=
  match r with
  | .ok s => Core v s ∧ StOK s
  | .err => True
  | .panic => False

theorem safe_err (v : Version) : Safe v .err := trivial

/-! ## Heaps -/

theorem getElem?_append_of_some {α : Type} {l : List α} {i : Nat} {a x : α} (h : l[i]? = some a) :
    (l ++ [x])[i]? = some a := by
  have := (List.getElem?_eq_some_iff.1 h).1
  rw [List.getElem?_append_left this]; exact h

theorem GoodPkg.append {pkgs i x} (h : GoodPkg pkgs i) : GoodPkg (pkgs ++ [x]) i := by
  obtain ⟨p, h1, h2⟩ := h; exact ⟨p, getElem?_append_of_some h1, h2⟩
theorem GoodFile.append {files i x} (h : GoodFile files i) : GoodFile (files ++ [x]) i := by
  obtain ⟨p, h1, h2⟩ := h; exact ⟨p, getElem?_append_of_some h1, h2⟩
theorem GoodSnip.append {snips k i x} (h : GoodSnip snips k i) : GoodSnip (snips ++ [x]) k i := by
  obtain ⟨p, h1, h2⟩ := h; exact ⟨p, getElem?_append_of_some h1, h2⟩

theorem getElem?_modify_of_some {α : Type} {l : List α} {i j : Nat} {a : α} {f : α → α} (h : l[i]? = some a) :
    (l.modify j f)[i]? = some (if j = i then f a else a) := by
  rw [List.getElem?_modify, h]; split <;> simp_all

theorem GoodPkg.modify {pkgs i j f} (h : GoodPkg pkgs i) (hf : ∀ p : Package Nat, IdOK p.spdxId → IdOK (f p).spdxId) :
    GoodPkg (pkgs.modify j f) i := by
  obtain ⟨p, h1, h2⟩ := h
  refine ⟨_, getElem?_modify_of_some h1, ?_⟩
  split
  · exact hf p h2
  · exact h2
theorem GoodFile.modify {files i j f} (h : GoodFile files i) (hf : ∀ p : File Nat, IdOK p.spdxId → IdOK (f p).spdxId) :
    GoodFile (files.modify j f) i := by
  obtain ⟨p, h1, h2⟩ := h
  refine ⟨_, getElem?_modify_of_some h1, ?_⟩
  split
  · exact hf p h2
  · exact h2
theorem GoodSnip.modify {snips k i j f} (h : GoodSnip snips k i) (hf : ∀ p : Snippet, (f p).spdxId = p.spdxId) :
    GoodSnip (snips.modify j f) k i := by
  obtain ⟨p, h1, h2⟩ := h
  refine ⟨_, getElem?_modify_of_some h1, ?_⟩
  split
  · rw [hf]; exact h2
  · exact h2

theorem mem_modify {α : Type} {l : List α} {i : Nat} {f : α → α} {x : α} (h : x ∈ l.modify i f) :
    x ∈ l ∨ ∃ y ∈ l, x = f y := by
  obtain ⟨k, hk⟩ := List.mem_iff_getElem?.1 h
  rw [List.getElem?_modify] at hk
  cases hl : l[k]? with
  | none => simp [hl] at hk
  | some y =>
    have hy := List.mem_of_getElem? hl
    simp only [hl, Option.map_eq_map, Option.map_some, Option.some.injEq] at hk
    split at hk
    · exact Or.inr ⟨y, hy, hk.symm⟩
    · exact Or.inl (hk ▸ hy)

theorem PkgOK.mono {v files files' p} (h : PkgOK v files p) (hf : ∀ i, GoodFile files i → GoodFile files' i) :
    PkgOK v files' p := ⟨h.1, h.2, h.3, fun i hi => hf i (h.4 i hi)⟩
theorem FileOK.mono {v snips snips' f} (h : FileOK v snips f)
    (hf : ∀ k i, GoodSnip snips k i → GoodSnip snips' k i) : FileOK v snips' f :=
  ⟨h.1, fun k i hi => hf k i (h.2 k i hi)⟩
theorem DocOK.mono {v pkgs pkgs' files files' d} (h : DocOK v pkgs files d)
    (hp : ∀ i, GoodPkg pkgs i → GoodPkg pkgs' i) (hf : ∀ i, GoodFile files i → GoodFile files' i) :
    DocOK v pkgs' files' d :=
  ⟨fun i hi => hp i (h.1 i hi), fun i hi => hf i (h.2 i hi), h.3, h.4, h.5, h.6⟩

/-! ## The primitive updates -/

theorem core_modDoc {v : Version} {s : Parser} {d d' : HDoc} (h : Core v s) (_hd : s.doc = some d)
    (hd' : DocOK v s.pkgs s.files d') : Core v { s with doc := some d' } :=
  ⟨⟨d', rfl, hd'⟩, h.2, h.3, h.4, h.5, h.6⟩

theorem safe_modDoc {v : Version} {s : Parser} {f : HDoc → HDoc} (h : Core v s) (hst : StOK s)
    (hf : ∀ d, DocOK v s.pkgs s.files d → DocOK v s.pkgs s.files (f d)) : Safe v (s.modDoc f) := by
  obtain ⟨d, hd, hok⟩ := h.doc
  unfold Parser.modDoc
  rw [hd]
  exact ⟨core_modDoc h hd (hf d hok), hst⟩

theorem core_modPkg {v : Version} {s : Parser} {i : Nat} {f : Package Nat → Package Nat} (h : Core v s)
    (hf : ∀ p, PkgOK v s.files p → PkgOK v s.files (f p))
    (hid : ∀ p : Package Nat, IdOK p.spdxId → IdOK (f p).spdxId) :
    Core v { s with pkgs := s.pkgs.modify i f } := by
  obtain ⟨d, hd, hok⟩ := h.doc
  refine ⟨⟨d, hd, hok.mono (fun i hi => hi.modify hid) (fun i hi => hi)⟩, ?_, h.3, ?_, h.5, h.6⟩
  · intro p hp
    rcases mem_modify hp with hp | ⟨q, hq, rfl⟩
    · exact h.pkgs p hp
    · exact hf q (h.pkgs q hq)
  · intro j hj; simpa using h.pkg j hj

theorem core_modFile {v : Version} {s : Parser} {i : Nat} {f : File Nat → File Nat} (h : Core v s)
    (hf : ∀ p, FileOK v s.snips p → FileOK v s.snips (f p))
    (hid : ∀ p : File Nat, IdOK p.spdxId → IdOK (f p).spdxId) :
    Core v { s with files := s.files.modify i f } := by
  obtain ⟨d, hd, hok⟩ := h.doc
  refine ⟨⟨d, hd, hok.mono (fun i hi => hi) (fun i hi => hi.modify hid)⟩, ?_, ?_, h.4, ?_, h.6⟩
  · intro p hp; exact (h.pkgs p hp).mono (fun i hi => hi.modify hid)
  · intro p hp
    rcases mem_modify hp with hp | ⟨q, hq, rfl⟩
    · exact h.files p hp
    · exact hf q (h.files q hq)
  · intro j hj; simpa using h.file j hj

theorem core_modSnip {v : Version} {s : Parser} {i : Nat} {f : Snippet → Snippet} (h : Core v s)
    (hid : ∀ p : Snippet, (f p).spdxId = p.spdxId) :
    Core v { s with snips := s.snips.modify i f } := by
  refine ⟨h.1, h.2, ?_, h.4, h.5, ?_⟩
  · intro p hp; exact (h.files p hp).mono (fun k i hi => hi.modify hid)
  · intro j hj; simpa using h.snippet j hj

theorem modPkg_eq {s : Parser} {i : Nat} (hi : s.pkg = some i) (f : Package Nat → Package Nat) :
    s.modPkg f = .ok { s with pkgs := s.pkgs.modify i f } := by
  unfold Parser.modPkg; simp [hi]

theorem safe_modPkg {v : Version} {s : Parser} {f : Package Nat → Package Nat} (h : Core v s) (hst : StOK s)
    (hp : s.pkg ≠ none) (hf : ∀ p, PkgOK v s.files p → PkgOK v s.files (f p))
    (hid : ∀ p : Package Nat, IdOK p.spdxId → IdOK (f p).spdxId) : Safe v (s.modPkg f) := by
  cases hp' : s.pkg with
  | none => exact absurd hp' hp
  | some i => rw [modPkg_eq hp']; exact ⟨core_modPkg h hf hid, hst⟩

theorem modFile_eq {s : Parser} {i : Nat} (hi : s.file = some i) (f : File Nat → File Nat) :
    s.modFile f = .ok { s with files := s.files.modify i f } := by
  unfold Parser.modFile; simp [hi]

theorem safe_modFile {v : Version} {s : Parser} {f : File Nat → File Nat} (h : Core v s) (hst : StOK s)
    (hp : s.file ≠ none) (hf : ∀ p, FileOK v s.snips p → FileOK v s.snips (f p))
    (hid : ∀ p : File Nat, IdOK p.spdxId → IdOK (f p).spdxId) : Safe v (s.modFile f) := by
  cases hp' : s.file with
  | none => exact absurd hp' hp
  | some i => rw [modFile_eq hp']; exact ⟨core_modFile h hf hid, hst⟩

theorem modSnip_eq {s : Parser} {i : Nat} (hi : s.snippet = some i) (f : Snippet → Snippet) :
    s.modSnip f = .ok { s with snips := s.snips.modify i f } := by
  unfold Parser.modSnip; simp [hi]

theorem safe_modSnip {v : Version} {s : Parser} {f : Snippet → Snippet} (h : Core v s) (hst : StOK s)
    (hp : s.snippet ≠ none) (hid : ∀ p : Snippet, (f p).spdxId = p.spdxId) : Safe v (s.modSnip f) := by
  cases hp' : s.snippet with
  | none => exact absurd hp' hp
  | some i => rw [modSnip_eq hp']; exact ⟨core_modSnip h hid, hst⟩

/-- Sequencing with a value parser that does not panic. -/
theorem safe_bind {α : Type} {v : Version} {r : Res α} {f : α → Res Parser} (hr : r ≠ .panic)
    (hf : ∀ a, r = .ok a → Safe v (f a)) : Safe v (r >>= f) := by
  cases r with
  | ok a => exact hf a rfl
  | err => trivial
  | panic => exact absurd rfl hr

theorem core_newPkg {v : Version} {s : Parser} (h : Core v s) : Core v s.newPkg := by
  obtain ⟨d, hd, hok⟩ := h.doc
  refine ⟨⟨d, hd, hok.mono (fun i hi => hi.append) (fun i hi => hi)⟩, ?_, h.3, ?_, h.5, h.6⟩
  · intro p hp
    simp only [Parser.newPkg, List.mem_append, List.mem_singleton] at hp
    rcases hp with hp | rfl
    · exact h.pkgs p hp
    · constructor <;> simp
  · intro i hi
    simp only [Parser.newPkg, Option.some.injEq, List.length_append, List.length_singleton] at hi ⊢
    omega

theorem core_newFile {v : Version} {s : Parser} {value : Str} (h : Core v s) : Core v (s.newFile value) := by
  obtain ⟨d, hd, hok⟩ := h.doc
  refine ⟨⟨d, hd, hok.mono (fun i hi => hi) (fun i hi => hi.append)⟩, ?_, ?_, h.4, ?_, h.6⟩
  · intro p hp; exact (h.pkgs p hp).mono (fun i hi => hi.append)
  · intro p hp
    simp only [Parser.newFile, List.mem_append, List.mem_singleton] at hp
    rcases hp with hp | rfl
    · exact h.files p hp
    · constructor <;> simp
  · intro i hi
    simp only [Parser.newFile, Option.some.injEq, List.length_append, List.length_singleton] at hi ⊢
    omega

/-! ## Value parsers -/

theorem parseChecksum_ne_panic (v : Version) (x : Str) : parseChecksum v x ≠ .panic := by
  unfold parseChecksum
  cases h : extractSubs g!":" x with
  | ok y => obtain ⟨k, w⟩ := y; simp only [Res.bind_ok]; split <;> simp
  | err => simp
  | panic => exact absurd h (extractSubs_ne_panic _ _)

theorem parseChecksum_ok {v : Version} {x : Str} {c : Checksum} (h : parseChecksum v x = .ok c) :
    c.algorithm ∈ knownAlgorithms v := by
  unfold parseChecksum at h
  cases h' : extractSubs g!":" x with
  | ok y =>
    obtain ⟨k, w⟩ := y
    simp only [h', Res.bind_ok] at h
    split at h
    · rename_i hk
      simp at h; subst h
      simpa using hk
    · simp at h
  | err => simp [h'] at h
  | panic => simp [h'] at h

theorem parseSupplier_ne_panic (x : Str) : parseSupplier x ≠ .panic := by
  unfold parseSupplier
  split
  · simp
  · cases h : extractSubs g!":" x with
    | ok y => obtain ⟨k, w⟩ := y; simp only [Res.bind_ok]; split <;> simp
    | err => simp
    | panic => exact absurd h (extractSubs_ne_panic _ _)

theorem parseSupplier_ok {x : Str} {c : Supplier} (h : parseSupplier x = .ok c) : SupplierOK c := by
  unfold parseSupplier at h
  split at h
  · rename_i hx; simp at h; subst h; left; rw [hx]
  · cases h' : extractSubs g!":" x with
    | ok y =>
      obtain ⟨k, w⟩ := y
      simp only [h', Res.bind_ok] at h
      split at h
      · rename_i hk; simp at h; subst h; right; exact hk
      · simp at h
    | err => simp [h'] at h
    | panic => simp [h'] at h

theorem parseOriginator_ne_panic (x : Str) : parseOriginator x ≠ .panic := by
  unfold parseOriginator
  split
  · simp
  · cases h : extractSubs g!":" x with
    | ok y => obtain ⟨k, w⟩ := y; simp only [Res.bind_ok]; split <;> simp
    | err => simp
    | panic => exact absurd h (extractSubs_ne_panic _ _)

theorem parseOriginator_ok {x : Str} {c : Originator} (h : parseOriginator x = .ok c) : OriginatorOK c := by
  unfold parseOriginator at h
  split at h
  · rename_i hx; simp at h; subst h; left; rw [hx]
  · cases h' : extractSubs g!":" x with
    | ok y =>
      obtain ⟨k, w⟩ := y
      simp only [h', Res.bind_ok] at h
      split at h
      · rename_i hk; simp at h; subst h; right; exact hk
      · simp at h
    | err => simp [h'] at h
    | panic => simp [h'] at h

theorem isAgentKind_iff {k : Str} : isAgentKind k = true ↔ KindOK3 k := by
  simp only [isAgentKind, KindOK3, Bool.or_eq_true, decide_eq_true_eq, or_assoc]

theorem parseAnnotatorValue_ne_panic (x : Str) : parseAnnotatorValue x ≠ .panic := by
  unfold parseAnnotatorValue
  cases h : extractSubs g!":" x with
  | ok y => obtain ⟨k, w⟩ := y; simp only [Res.bind_ok]; split <;> simp
  | err => simp
  | panic => exact absurd h (extractSubs_ne_panic _ _)

theorem parseAnnotatorValue_ok {x : Str} {c : Annotator} (h : parseAnnotatorValue x = .ok c) :
    KindOK3 c.annotatorType := by
  unfold parseAnnotatorValue at h
  cases h' : extractSubs g!":" x with
  | ok y =>
    obtain ⟨k, w⟩ := y
    simp only [h', Res.bind_ok] at h
    split at h
    · rename_i hk; simp at h; subst h; exact isAgentKind_iff.1 hk
    · simp at h
  | err => simp [h'] at h
  | panic => simp [h'] at h

theorem parseRange_ne_panic (x : Str) : parseRange x ≠ .panic := by
  unfold parseRange
  cases h : extractSubs g!":" x with
  | ok y => obtain ⟨k, w⟩ := y; simp only [Res.bind_ok]; split; · simp
            · split <;> simp
  | err => simp
  | panic => exact absurd h (extractSubs_ne_panic _ _)

theorem edrTail_ne_panic (d u a c : Str) : edrTail d u a c ≠ .panic := by
  unfold edrTail
  simp only
  split
  · simp
  · split <;> simp

theorem extractEDR_ne_panic (x : Str) : extractExternalDocumentReference x ≠ .panic := by
  unfold extractExternalDocumentReference
  split
  · split
    · simp
    · exact edrTail_ne_panic _ _ _ _
  · split
    · simp
    · exact edrTail_ne_panic _ _ _ _
  · simp

theorem extractPER_ne_panic (x : Str) : extractPackageExternalReference x ≠ .panic := by
  unfold extractPackageExternalReference
  split <;> simp

theorem extractDocElementID_refOK {x : Str} {r : DocElementID} (h : extractDocElementID x = .ok r) : RefOK r := by
  obtain ⟨h1, h2, h3, h4, -⟩ := extractDocElementID_eq_ok.1 h
  exact ⟨h1, h2, h3, h4⟩

theorem parseRelationshipValue_ne_panic (v : Version) (x : Str) : parseRelationshipValue v x ≠ .panic := by
  unfold parseRelationshipValue
  split
  · rename_i a r b _
    cases h1 : extractDocElementID (trimSpace a) with
    | err => simp
    | panic => exact absurd h1 (extractDocElementID_ne_panic _)
    | ok y =>
      simp only [Res.bind_ok]
      cases h2 : extractDocElementSpecial (trimSpace b) (permittedSpecial v) with
      | err => simp
      | panic => exact absurd h2 (extractDocElementSpecial_ne_panic _ _)
      | ok z => simp
  · simp

theorem parseRelationshipValue_ok {v : Version} {x : Str} {r : Relationship}
    (h : parseRelationshipValue v x = .ok r) : RelOK v r := by
  unfold parseRelationshipValue at h
  split at h
  · rename_i a t b _
    cases h1 : extractDocElementID (trimSpace a) with
    | err => simp [h1] at h
    | panic => simp [h1] at h
    | ok y =>
      cases h2 : extractDocElementSpecial (trimSpace b) (permittedSpecial v) with
      | err => simp [h1, h2] at h
      | panic => simp [h1, h2] at h
      | ok z =>
        simp [h1, h2] at h
        subst h
        refine ⟨extractDocElementID_refOK h1, ?_⟩
        unfold extractDocElementSpecial at h2
        split at h2
        · rename_i hp
          simp at h2; subst h2
          right
          cases v with
          | v21 => simp [permittedSpecial] at hp
          | v22 => simp [permittedSpecial] at hp; exact ⟨by simp, rfl, rfl, hp⟩
          | v23 => simp [permittedSpecial] at hp; exact ⟨by simp, rfl, rfl, hp⟩
        · left; exact extractDocElementID_refOK h2
  · simp at h

/-! ## Sections -/

theorem stOK_congr {s s' : Parser} (h : StOK s) (h1 : s'.st = s.st) (h2 : s'.pkg = s.pkg) (h3 : s'.file = s.file)
    (h4 : s'.snippet = s.snippet) (h5 : s'.otherLic = s.otherLic) (h6 : s'.rev = s.rev) : StOK s' := by
  unfold StOK at h ⊢
  rw [h1, h2, h3, h4, h5, h6]; exact h

theorem safe_forRelationship {v : Version} {s : Parser} {tag : Tag} {value : Str} (h : Core v s) (hst : StOK s) :
    Safe v (parseForRelationship v s tag value) := by
  unfold parseForRelationship
  split
  · obtain ⟨d, hd, hok⟩ := h.doc
    rw [hd]
    refine safe_bind (parseRelationshipValue_ne_panic _ _) ?_
    intro r hr
    refine ⟨⟨⟨_, rfl, ?_⟩, h.2, h.3, h.4, h.5, h.6⟩, hst⟩
    refine ⟨hok.1, hok.2, hok.3, ?_, hok.5, hok.6⟩
    intro x hx
    rcases List.mem_append.1 hx with hx | hx
    · exact hok.4 x hx
    · rw [List.mem_singleton] at hx; subst hx; exact parseRelationshipValue_ok hr
  · split
    · trivial
    · refine safe_modDoc h hst ?_
      intro d hok
      refine ⟨hok.1, hok.2, hok.3, ?_, hok.5, hok.6⟩
      intro x hx
      rcases mem_modify hx with hx | ⟨y, hy, rfl⟩
      · exact hok.4 x hx
      · exact ⟨(hok.4 y hy).1, (hok.4 y hy).2⟩
  · trivial

theorem safe_modAnn {v : Version} {s : Parser} {f : Annotation → Annotation} (h : Core v s) (hst : StOK s)
    (hf : ∀ a, (f a).annotator = a.annotator) : Safe v (modAnn s f) := by
  unfold modAnn
  split
  · trivial
  · refine safe_modDoc h hst ?_
    intro d hok
    refine ⟨hok.1, hok.2, hok.3, hok.4, ?_, hok.6⟩
    intro x hx
    rcases mem_modify hx with hx | ⟨y, hy, rfl⟩
    · exact hok.5 x hx
    · rw [hf]; exact hok.5 y hy

theorem safe_forAnnotation {v : Version} {s : Parser} {tag : Tag} {value : Str} (h : Core v s) (hst : StOK s) :
    Safe v (parseForAnnotation s tag value) := by
  unfold parseForAnnotation
  split
  · obtain ⟨d, hd, hok⟩ := h.doc
    rw [hd]
    refine safe_bind (parseAnnotatorValue_ne_panic _) ?_
    intro r hr
    refine ⟨⟨⟨_, rfl, ?_⟩, h.2, h.3, h.4, h.5, h.6⟩, hst⟩
    refine ⟨hok.1, hok.2, hok.3, hok.4, ?_, hok.6⟩
    intro x hx
    rcases List.mem_append.1 hx with hx | hx
    · exact hok.5 x hx
    · rw [List.mem_singleton] at hx; subst hx; exact parseAnnotatorValue_ok hr
  · exact safe_modAnn h hst (fun _ => rfl)
  · exact safe_modAnn h hst (fun _ => rfl)
  · split
    · trivial
    · refine safe_bind (extractDocElementID_ne_panic _) ?_
      intro d _
      exact safe_modAnn h hst (fun _ => rfl)
  · exact safe_modAnn h hst (fun _ => rfl)
  · trivial

theorem safe_shared {v : Version} {s : Parser} {tag : Tag} {value : Str} (h : Core v s) (hst : StOK s) :
    Safe v (parseShared v s tag value) := by
  unfold parseShared
  split
  all_goals first
    | exact safe_forRelationship h hst
    | exact safe_forAnnotation h hst
    | trivial

theorem safe_modRev {v : Version} {s : Parser} {f : Review → Review} (h : Core v s) (hst : StOK s)
    (hr : s.rev ≠ none) (hf : ∀ a, (f a).reviewerType = a.reviewerType) : Safe v (modRev s f) := by
  unfold modRev
  split
  · rename_i h'; exact absurd h' hr
  · refine safe_modDoc h hst ?_
    intro d hok
    refine ⟨hok.1, hok.2, hok.3, hok.4, hok.5, ?_⟩
    intro x hx
    rcases mem_modify hx with hx | ⟨y, hy, rfl⟩
    · exact hok.6 x hx
    · rw [hf]; exact hok.6 y hy

theorem safe_reviewer {v : Version} {s : Parser} {value : Str} (h : Core v s) :
    Safe v (parseFromReview v { s with st := .review } .reviewer value) := by
  unfold parseFromReview
  simp only
  obtain ⟨d, hd, hok⟩ := h.doc
  rw [hd]
  refine safe_bind (extractSubs_ne_panic _ _) ?_
  rintro ⟨k, x⟩ _
  simp only
  split
  · rename_i hk
    refine ⟨⟨⟨_, rfl, ?_⟩, h.2, h.3, h.4, h.5, h.6⟩, by simp [StOK]⟩
    refine ⟨hok.1, hok.2, hok.3, hok.4, hok.5, ?_⟩
    intro y hy
    rcases List.mem_append.1 hy with hy | hy
    · exact hok.6 y hy
    · rw [List.mem_singleton] at hy; subst hy; exact isAgentKind_iff.1 hk
  · trivial

theorem safe_review {v : Version} {s : Parser} {tag : Tag} {value : Str} (h : Core v s)
    (hst : s.st = .review) (hr : s.rev ≠ none) : Safe v (parseFromReview v s tag value) := by
  have hS : StOK s := by unfold StOK; rw [hst]; exact hr
  have key := safe_reviewer (v := v) (s := s) (value := value) h
  rw [show ({ s with st := .review } : Parser) = s from by rw [← hst]] at key
  unfold parseFromReview at key ⊢
  split
  · exact key
  · exact safe_modRev h hS hr (fun _ => rfl)
  · exact safe_modRev h hS hr (fun _ => rfl)
  · exact safe_shared h hS

theorem safe_modLic {v : Version} {s : Parser} {f : OtherLicense → OtherLicense} (h : Core v s) (hst : StOK s)
    (hr : s.otherLic ≠ none) : Safe v (modLic s f) := by
  unfold modLic
  split
  · rename_i h'; exact absurd h' hr
  · refine safe_modDoc h hst ?_
    intro d hok
    exact ⟨hok.1, hok.2, hok.3, hok.4, hok.5, hok.6⟩

theorem safe_licenseID {v : Version} {s : Parser} {value : Str} (h : Core v s) :
    Safe v (parseFromOtherLicense v { s with st := .otherLicense } .licenseID value) := by
  unfold parseFromOtherLicense
  simp only
  obtain ⟨d, hd, hok⟩ := h.doc
  rw [hd]
  refine ⟨⟨⟨_, rfl, ?_⟩, h.2, h.3, h.4, h.5, h.6⟩, by simp [StOK]⟩
  exact ⟨hok.1, hok.2, hok.3, hok.4, hok.5, hok.6⟩

theorem safe_otherLicense {v : Version} {s : Parser} {tag : Tag} {value : Str} (h : Core v s)
    (hst : s.st = .otherLicense) (hr : s.otherLic ≠ none) : Safe v (parseFromOtherLicense v s tag value) := by
  have hS : StOK s := by unfold StOK; rw [hst]; exact hr
  have key := safe_licenseID (v := v) (s := s) (value := value) h
  rw [show ({ s with st := .otherLicense } : Parser) = s from by rw [← hst]] at key
  unfold parseFromOtherLicense at key ⊢
  split
  · exact key
  · exact safe_modLic h hS hr
  · exact safe_modLic h hS hr
  · exact safe_modLic h hS hr
  · exact safe_modLic h hS hr
  · exact safe_reviewer h
  · exact safe_shared h hS

theorem safe_openFile {v : Version} {s : Parser} {value : Str} (h : Core v s) :
    Safe v (openFile { s with st := .file } value) := by
  unfold openFile
  simp only
  split
  · trivial
  · refine ⟨?_, by simp [StOK, Parser.newFile]⟩
    have : Core v { s with st := .file, fileAOP := none } := ⟨h.1, h.2, h.3, h.4, h.5, h.6⟩
    exact core_newFile this

theorem safe_openPackage {v : Version} {s : Parser} {value : Str} (h : Core v s) :
    Safe v (openPackage { s with st := .package } value) := by
  unfold openPackage
  simp only
  have hC : Core v { s with st := .package, pkgExtRef := none } := ⟨h.1, h.2, h.3, h.4, h.5, h.6⟩
  split
  · split
    · trivial
    · exact safe_modPkg (core_newPkg hC) (by simp [StOK, Parser.newPkg]) (by simp [Parser.newPkg])
        (fun p hp => ⟨hp.1, hp.2, hp.3, hp.4⟩) (fun p hp => hp)
  · rename_i hn
    have hp : s.pkg ≠ none := by
      intro h0
      apply hn
      unfold Parser.pkgNamedOrNil
      simp [h0]
    exact safe_modPkg hC (by simpa [StOK] using hp) hp
        (fun p hp => ⟨hp.1, hp.2, hp.3, hp.4⟩) (fun p hp => hp)

theorem mem_mapInsert {α : Type} {k k' : Str} {x y : α} {m : List (Str × α)} (h : (k', y) ∈ mapInsert k x m) :
    (k', y) = (k, x) ∨ (k', y) ∈ m := by
  induction m with
  | nil => simp [mapInsert] at h; left; simp [h]
  | cons p m ih =>
    obtain ⟨a, b⟩ := p
    simp only [mapInsert] at h
    split at h
    · simp only [List.mem_cons] at h ⊢
      rcases h with h | h
      · exact Or.inl h
      · exact Or.inr (Or.inr h)
    · simp only [List.mem_cons] at h ⊢
      rcases h with h | h
      · exact Or.inr (Or.inl h)
      · rcases ih h with h | h
        · exact Or.inl h
        · exact Or.inr (Or.inr h)

theorem safe_openSnippet {v : Version} {s : Parser} {value : Str} (h : Core v s) :
    Safe v (openSnippet { s with st := .snippet } value) := by
  unfold openSnippet
  simp only
  split
  · trivial
  · refine safe_bind (extractElementID_ne_panic _) ?_
    intro e he
    obtain ⟨-, he1, he2⟩ := extractElementID_eq_ok.1 he
    have hC : Core v { s with st := .snippet, snippet := some s.snips.length, snips := s.snips ++ [{ spdxId := e }] } := by
      refine ⟨h.1, h.2, ?_, h.4, h.5, ?_⟩
      · intro f hf; exact (h.files f hf).mono (fun k i hi => hi.append)
      · intro i hi; simp at hi ⊢; omega
    split
    · exact ⟨hC, by simp [StOK]⟩
    · rename_i i hi
      refine safe_modFile hC (by simp [StOK]) (by simp [hi]) ?_ (fun p hp => hp)
      intro f hf
      refine ⟨hf.1, ?_⟩
      intro k j hkj
      rcases mem_mapInsert hkj with heq | hm
      · simp only [Prod.mk.injEq] at heq
        obtain ⟨rfl, rfl⟩ := heq
        exact ⟨{ spdxId := k }, by simp, rfl, he1, he2⟩
      · exact hf.2 k j hm

theorem safe_package {v : Version} {s : Parser} {tag : Tag} {value : Str} (h : Core v s)
    (hst : s.st = .package) (hp : s.pkg ≠ none) : Safe v (parseFromPackage v s tag value) := by
  unfold parseFromPackage
  simp only
  generalize hs' : (if tag ≠ .externalRefComment then { s with pkgExtRef := none } else s) = s'
  have hC : Core v s' := by
    rw [← hs']; split
    · exact ⟨h.1, h.2, h.3, h.4, h.5, h.6⟩
    · exact h
  have hst' : s'.st = .package := by rw [← hs']; split <;> exact hst
  have hp' : s'.pkg ≠ none := by rw [← hs']; split <;> exact hp
  clear hs' h hst hp s
  have hS : StOK s' := by unfold StOK; rw [hst']; exact hp'
  have hpk := safe_openPackage (v := v) (s := s') (value := value) hC
  rw [show ({ s' with st := .package } : Parser) = s' from by rw [← hst']] at hpk
  split
  all_goals first
    | exact hpk
    | exact safe_openFile hC
    | exact safe_licenseID hC
    | exact safe_reviewer hC
    | exact safe_shared hC hS
    | exact safe_modPkg hC hS hp' (fun p hp => ⟨hp.1, hp.2, hp.3, hp.4⟩) (fun p hp => hp)
    | (split
       · exact safe_modPkg hC hS hp' (fun p hp => ⟨hp.1, hp.2, hp.3, hp.4⟩) (fun p hp => hp)
       · trivial)
    | (split
       · trivial
       · exact safe_modPkg hC hS hp' (fun p hp => ⟨hp.1, hp.2, hp.3, hp.4⟩) (fun p hp => hp))
    | skip
  · -- SPDXID
    refine safe_bind (extractElementID_ne_panic _) ?_
    intro e he
    obtain ⟨-, he1, he2⟩ := extractElementID_eq_ok.1 he
    cases hi : s'.pkg with
    | none => exact absurd hi hp'
    | some i =>
      rw [modPkg_eq hi]
      simp only [Res.bind_ok, hi]
      have hC' := core_modPkg (i := i) (f := fun p => { p with spdxId := e }) hC
        (fun p hp => ⟨hp.1, hp.2, hp.3, hp.4⟩) (fun p hp => ⟨he1, he2⟩)
      have hlt := hC.pkg i hi
      have := safe_modDoc (f := fun d => { d with packages := d.packages ++ [i] }) hC'
        (stOK_congr hS rfl rfl rfl rfl rfl rfl) (by
          intro d hd
          refine ⟨?_, hd.2, hd.3, hd.4, hd.5, hd.6⟩
          intro j hj
          rcases List.mem_append.1 hj with hj | hj
          · exact hd.1 j hj
          · rw [List.mem_singleton] at hj; subst hj
            refine ⟨_, getElem?_modify_of_some (List.getElem?_eq_getElem hlt), ?_⟩
            simp; exact ⟨he1, he2⟩)
      simp only [hi] at this
      exact this
  · -- PackageSupplier
    refine safe_bind (parseSupplier_ne_panic _) ?_
    intro x hx
    refine safe_modPkg hC hS hp' (fun p hp => ⟨hp.1, ?_, hp.3, hp.4⟩) (fun p hp => hp)
    intro y hy; simp only [Option.some.injEq] at hy; subst hy; exact parseSupplier_ok hx
  · -- PackageOriginator
    refine safe_bind (parseOriginator_ne_panic _) ?_
    intro x hx
    refine safe_modPkg hC hS hp' (fun p hp => ⟨hp.1, hp.2, ?_, hp.4⟩) (fun p hp => hp)
    intro y hy; simp only [Option.some.injEq] at hy; subst hy; exact parseOriginator_ok hx
  · -- PackageChecksum
    refine safe_bind (parseChecksum_ne_panic _ _) ?_
    intro x hx
    refine safe_modPkg hC hS hp' (fun p hp => ⟨?_, hp.2, hp.3, hp.4⟩) (fun p hp => hp)
    intro y hy
    rcases List.mem_append.1 hy with hy | hy
    · exact hp.1 y hy
    · rw [List.mem_singleton] at hy; subst hy; exact parseChecksum_ok hx
  · -- ExternalRef
    cases hi : s'.pkg with
    | none => exact absurd hi hp'
    | some i =>
      simp only
      refine safe_bind (extractPER_ne_panic _) ?_
      intro x hx
      rw [modPkg_eq hi]
      simp only [Res.bind_ok]
      have hC' := core_modPkg (i := i) (f := fun p => { p with externalRefs := p.externalRefs ++ [x] }) hC
        (fun p hp => ⟨hp.1, hp.2, hp.3, hp.4⟩) (fun p hp => hp)
      exact ⟨⟨hC'.1, hC'.2, hC'.3, hC'.4, hC'.5, hC'.6⟩, stOK_congr hS rfl rfl rfl rfl rfl rfl⟩
  · -- ExternalRefComment
    split
    · trivial
    · rename_i n _
      cases hi : s'.pkg with
      | none => exact absurd hi hp'
      | some i =>
        rw [modPkg_eq hi]
        simp only [Res.bind_ok]
        have hC' := core_modPkg (i := i)
          (f := fun p => { p with externalRefs := p.externalRefs.modify n fun x => { x with comment := value } }) hC
          (fun p hp => ⟨hp.1, hp.2, hp.3, hp.4⟩) (fun p hp => hp)
        exact ⟨⟨hC'.1, hC'.2, hC'.3, hC'.4, hC'.5, hC'.6⟩, stOK_congr hS rfl rfl rfl rfl rfl rfl⟩

theorem safe_file {v : Version} {s : Parser} {tag : Tag} {value : Str} (h : Core v s)
    (hst : s.st = .file) (hp : s.file ≠ none) : Safe v (parseFromFile v s tag value) := by
  unfold parseFromFile
  simp only
  generalize hs' : (if tag ≠ .artifactOfProjectHomePage ∧ tag ≠ .artifactOfProjectURI
    then { s with fileAOP := none } else s) = s'
  have hC : Core v s' := by
    rw [← hs']; split
    · exact ⟨h.1, h.2, h.3, h.4, h.5, h.6⟩
    · exact h
  have hst' : s'.st = .file := by rw [← hs']; split <;> exact hst
  have hp' : s'.file ≠ none := by rw [← hs']; split <;> exact hp
  clear hs' h hst hp s
  have hS : StOK s' := by unfold StOK; rw [hst']; exact hp'
  have hfl := safe_openFile (v := v) (s := s') (value := value) hC
  rw [show ({ s' with st := .file } : Parser) = s' from by rw [← hst']] at hfl
  split
  all_goals first
    | exact hfl
    | exact safe_openSnippet hC
    | exact safe_licenseID hC
    | exact safe_reviewer hC
    | exact safe_shared hC hS
    | exact safe_modFile hC hS hp' (fun p hp => ⟨hp.1, hp.2⟩) (fun p hp => hp)
    | (split
       · trivial
       · exact safe_modFile hC hS hp' (fun p hp => ⟨hp.1, hp.2⟩) (fun p hp => hp))
    | skip
  · -- PackageName
    split
    · trivial
    · have hC' : Core v { s' with file := none } :=
        ⟨hC.1, hC.2, hC.3, hC.4, by intro i hi; simp at hi, hC.6⟩
      exact safe_openPackage hC'
  · -- SPDXID
    refine safe_bind (extractElementID_ne_panic _) ?_
    intro e he
    obtain ⟨-, he1, he2⟩ := extractElementID_eq_ok.1 he
    cases hi : s'.file with
    | none => exact absurd hi hp'
    | some i =>
      rw [modFile_eq hi]
      have hC' := core_modFile (i := i) (f := fun p => { p with spdxId := e }) hC
        (fun p hp => ⟨hp.1, hp.2⟩) (fun p hp => ⟨he1, he2⟩)
      have hS' : StOK { s' with files := s'.files.modify i fun p => { p with spdxId := e } } :=
        stOK_congr hS rfl rfl rfl rfl rfl rfl
      have hlt := hC.file i hi
      have hgood : GoodFile (s'.files.modify i fun p => { p with spdxId := e }) i := by
        refine ⟨_, getElem?_modify_of_some (List.getElem?_eq_getElem hlt), ?_⟩
        simp; exact ⟨he1, he2⟩
      simp only [Res.bind_ok]
      generalize hs2 : ({ s' with files := s'.files.modify i fun p => { p with spdxId := e } } : Parser) = s2
      rw [hs2] at hC' hS'
      have hpk : s2.pkg = s'.pkg := by rw [← hs2]
      have hg2 : GoodFile s2.files i := by rw [← hs2]; exact hgood
      rw [hi]
      simp only
      split
      · refine safe_modDoc hC' hS' ?_
        intro d hd
        refine ⟨hd.1, ?_, hd.3, hd.4, hd.5, hd.6⟩
        intro j hj
        rcases List.mem_append.1 hj with hj | hj
        · exact hd.2 j hj
        · rw [List.mem_singleton] at hj; subst hj; exact hg2
      · rename_i j hj
        refine safe_modPkg hC' hS' (by simp [hpk, hj]) (fun p hp => ⟨hp.1, hp.2, hp.3, ?_⟩) (fun p hp => hp)
        intro k hk
        rcases List.mem_append.1 hk with hk | hk
        · exact hp.4 k hk
        · rw [List.mem_singleton] at hk; subst hk; exact hg2
  · -- FileChecksum
    refine safe_bind (parseChecksum_ne_panic _ _) ?_
    intro x hx
    refine safe_modFile hC hS hp' (fun p hp => ⟨?_, hp.2⟩) (fun p hp => hp)
    intro y hy
    rcases List.mem_append.1 hy with hy | hy
    · exact hp.1 y hy
    · rw [List.mem_singleton] at hy; subst hy; exact parseChecksum_ok hx
  · -- ArtifactOfProjectName
    cases hi : s'.file with
    | none => exact absurd hi hp'
    | some i =>
      simp only
      rw [modFile_eq hi]
      simp only [Res.bind_ok]
      have hC' := core_modFile (i := i)
        (f := fun f => { f with artifactOfProjects := f.artifactOfProjects ++ [{ name := value }] }) hC
        (fun p hp => ⟨hp.1, hp.2⟩) (fun p hp => hp)
      exact ⟨⟨hC'.1, hC'.2, hC'.3, hC'.4, hC'.5, hC'.6⟩, stOK_congr hS rfl rfl rfl rfl rfl rfl⟩

theorem safe_snippet {v : Version} {s : Parser} {tag : Tag} {value : Str} (h : Core v s)
    (hst : s.st = .snippet) (hp : s.snippet ≠ none) : Safe v (parseFromSnippet v s tag value) := by
  unfold parseFromSnippet
  have hS : StOK s := by unfold StOK; rw [hst]; exact hp
  have hsn := safe_openSnippet (v := v) (s := s) (value := value) h
  rw [show ({ s with st := .snippet } : Parser) = s from by rw [← hst]] at hsn
  have hC1 : Core v { s with snippet := none } :=
    ⟨h.1, h.2, h.3, h.4, h.5, by intro i hi; simp at hi⟩
  have hC2 : Core v { s with file := none, snippet := none } :=
    ⟨h.1, h.2, h.3, h.4, by intro i hi; simp at hi, by intro i hi; simp at hi⟩
  split
  all_goals first
    | exact hsn
    | exact safe_openFile hC1
    | exact safe_openPackage hC2
    | exact safe_licenseID h
    | exact safe_reviewer h
    | exact safe_shared h hS
    | exact safe_modSnip h hS hp (fun p => rfl)
    | (split
       · trivial
       · exact safe_modSnip h hS hp (fun p => rfl))
    | (refine safe_bind (extractDocElementID_ne_panic _) ?_
       intro d _
       exact safe_modSnip h hS hp (fun p => rfl))
    | (refine safe_bind (parseRange_ne_panic _) ?_
       rintro ⟨a, b⟩ _
       exact safe_modSnip h hS hp (fun p => rfl))

theorem safe_startTags {v : Version} {s : Parser} {tag : Tag} {value : Str} {r : Res Parser} (h : Core v s)
    (hst : s.st = .start) (hr : parseStartTags s tag value = some r) : Safe v r := by
  have hS : StOK s := by unfold StOK; rw [hst]; trivial
  unfold parseStartTags at hr
  split at hr
  all_goals simp only [Option.some.injEq, reduceCtorEq] at hr
  all_goals subst hr
  all_goals first
    | exact safe_modDoc h hS (fun d hd => ⟨hd.1, hd.2, hd.3, hd.4, hd.5, hd.6⟩)
    | (refine safe_bind (extractElementID_ne_panic _) ?_
       intro e _
       exact safe_modDoc h hS (fun d hd => ⟨hd.1, hd.2, hd.3, hd.4, hd.5, hd.6⟩))
    | (refine safe_bind (extractEDR_ne_panic _) ?_
       intro e _
       exact safe_modDoc h hS (fun d hd => ⟨hd.1, hd.2, hd.3, hd.4, hd.5, hd.6⟩))

theorem ensureDoc_of_some {s : Parser} {d : HDoc} (h : s.doc = some d) : ensureDoc s = s := by
  unfold ensureDoc; rw [h]

theorem safe_modCI {v : Version} {s : Parser} {f : CreationInfo → CreationInfo} {d : HDoc} {c : CreationInfo}
    (h : Core v s) (hS : StOK s) (hd : s.doc = some d) (hc : d.creationInfo = some c)
    (hf : ∀ c : CreationInfo, (∀ x ∈ c.creators, KindOK3 x.creatorType) → ∀ x ∈ (f c).creators, KindOK3 x.creatorType) :
    Safe v (modCI s f) := by
  obtain ⟨d', hd', hok⟩ := h.doc
  rw [hd] at hd'; simp only [Option.some.injEq] at hd'; subst hd'
  unfold modCI
  rw [hd]; simp only [hc]
  refine ⟨⟨⟨_, rfl, ?_⟩, h.2, h.3, h.4, h.5, h.6⟩, hS⟩
  refine ⟨hok.1, hok.2, ?_, hok.4, hok.5, hok.6⟩
  intro c' hc'
  simp only [Option.some.injEq] at hc'; subst hc'
  exact hf c (hok.3 c hc)

theorem safe_creationInfo {v : Version} {s : Parser} {tag : Tag} {value : Str} (h : Core v s)
    (hst : s.st = .creationInfo) : Safe v (parseFromCreationInfo v s tag value) := by
  obtain ⟨d, hd, hok⟩ := h.doc
  unfold parseFromCreationInfo
  rw [hd]
  simp only
  generalize hs' : ensureCI s d = s'
  have hC : Core v s' := by
    rw [← hs']; unfold ensureCI; split
    · refine core_modDoc h hd ⟨hok.1, hok.2, ?_, hok.4, hok.5, hok.6⟩
      intro c hc; simp only [Option.some.injEq] at hc; subst hc; simp
    · exact h
  have hst' : s'.st = .creationInfo := by rw [← hs']; unfold ensureCI; split <;> exact hst
  have hdc : ∃ d' c', s'.doc = some d' ∧ d'.creationInfo = some c' := by
    rw [← hs']; unfold ensureCI; split
    · exact ⟨_, _, rfl, rfl⟩
    · rename_i c hc; exact ⟨d, c, hd, hc⟩
  clear hs' h hst hd hok s d
  obtain ⟨d, c, hd, hc⟩ := hdc
  have hS : StOK s' := by unfold StOK; rw [hst']; trivial
  have hback : ∀ tag, Safe v (backToStart s' tag value) := by
    intro tag
    unfold backToStart
    rw [ensureDoc_of_some (s := { s' with st := .start }) hd]
    split
    · rename_i r hr
      have hC' : Core v { s' with st := .start } := ⟨hC.1, hC.2, hC.3, hC.4, hC.5, hC.6⟩
      exact safe_startTags hC' rfl hr
    · trivial
  split
  · exact safe_modCI hC hS hd hc (fun c h => h)
  · refine safe_bind (extractSubs_ne_panic _ _) ?_
    rintro ⟨k, x⟩ _
    simp only
    split
    · rename_i hk
      refine safe_modCI hC hS hd hc (fun c h => ?_)
      intro y hy
      rcases List.mem_append.1 hy with hy | hy
      · exact h y hy
      · rw [List.mem_singleton] at hy; subst hy; exact isAgentKind_iff.1 hk
    · trivial
  · exact safe_modCI hC hS hd hc (fun c h => h)
  · exact safe_modCI hC hS hd hc (fun c h => h)
  · split
    · trivial
    · have hC' : Core v { s' with st := .package } := ⟨hC.1, hC.2, hC.3, hC.4, hC.5, hC.6⟩
      exact safe_openPackage (core_newPkg hC')
  · have hC' : Core v { s' with pkg := none } :=
      ⟨hC.1, hC.2, hC.3, by intro i hi; simp at hi, hC.5, hC.6⟩
    exact safe_openFile hC'
  · exact safe_licenseID hC
  · exact safe_reviewer hC
  · split
    · trivial
    · exact hback _
  · exact hback _
  · exact safe_shared hC hS

theorem safe_start {v : Version} {s : Parser} {tag : Tag} {value : Str} (h : Core v (ensureDoc s))
    (hst : s.st = .start) : Safe v (parseFromStart v s tag value) := by
  unfold parseFromStart
  have hst' : (ensureDoc s).st = .start := by unfold ensureDoc; split <;> exact hst
  simp only
  split
  · rename_i r hr; exact safe_startTags h hst' hr
  · have hC' : Core v { ensureDoc s with st := .creationInfo } := ⟨h.1, h.2, h.3, h.4, h.5, h.6⟩
    exact safe_creationInfo hC' rfl

/-- One pair keeps the invariant and does not panic. -/
theorem safe_pair {v : Version} {s : Parser} {p : TVPair} (h : Inv v s) : Safe v (parsePair v s p) := by
  unfold parsePair
  rcases h with rfl | ⟨h, hS⟩
  · refine safe_start ?_ rfl
    unfold ensureDoc
    refine ⟨⟨_, rfl, ?_⟩, ?_, ?_, ?_, ?_, ?_⟩
    · constructor <;> simp
    all_goals simp
  · simp only
    unfold StOK at hS
    cases hst : s.st <;> rw [hst] at hS <;> simp only
    · obtain ⟨d, hd, -⟩ := h.doc
      exact safe_start (by rw [ensureDoc_of_some hd]; exact h) hst
    · exact safe_creationInfo h hst
    · exact safe_package h hst hS
    · exact safe_file h hst hS
    · exact safe_snippet h hst hS
    · exact safe_otherLicense h hst hS
    · exact safe_review h hst hS

theorem inv_init (v : Version) : Inv v {} := Or.inl rfl

theorem parsePairs_inv {v : Version} {s : Parser} {ps : List TVPair} (h : Inv v s) :
    parsePairs v s ps ≠ .panic ∧ ∀ s', parsePairs v s ps = .ok s' → Inv v s' := by
  induction ps generalizing s with
  | nil => simp [parsePairs]; exact h
  | cons p ps ih =>
    have hp := safe_pair (p := p) h
    unfold parsePairs
    cases hr : parsePair v s p with
    | ok s1 => rw [hr] at hp; exact ih (Or.inr hp)
    | err => simp
    | panic => rw [hr] at hp; exact hp.elim

end Verif
