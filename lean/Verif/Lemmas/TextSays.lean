import Verif.Lemmas.LegalValues
import Verif.Lemmas.Map
import Verif.Spec.TextSays

/-!
# A tag-value text describes one document
-/

namespace Verif
open Spec

/-! ## Values are read in one way -/

theorem colonPair_one {value k x k' x' : Str} (h : ColonPair value k x) (h' : ColonPair value k' x') : k = k' ∧ x = x' := by
  have e := (subs_iff.2 h).symm.trans (subs_iff.2 h')
  simpa using e

theorem ref_one {text : Str} {r r' : DocElementID} (h : RefReads text r) (h' : RefReads text r') : r = r' := by
  have e := (ref_iff.2 h).symm.trans (ref_iff.2 h')
  simpa using e

theorem number_one {text : Str} {i j : Int} (h : NumberText text i) (h' : NumberText text j) : i = j := by
  have e := (number_iff.1 h).symm.trans (number_iff.1 h')
  simpa using e

theorem id_one {text i j : Str} (h : IdReads text i) (h' : IdReads text j) : i = j := by
  have := h.2.symm.trans h'.2
  simpa using this

theorem party_one {value k x k' x' : Str} (h : PartyReads value k x) (h' : PartyReads value k' x') : k = k' ∧ x = x' := by
  rcases h with ⟨h1, h2, h3⟩ | ⟨h1, h2, -⟩ <;> rcases h' with ⟨h1', h2', h3'⟩ | ⟨h1', h2', -⟩
  · exact ⟨h2.trans h2'.symm, h3.trans h3'.symm⟩
  · exact absurd h1 h1'
  · exact absurd h1' h1
  · exact colonPair_one h2 h2'

theorem checksum_one {v : Version} {value : Str} {c c' : Checksum} (h : ChecksumReads v value c) (h' : ChecksumReads v value c') :
    c = c' := by
  obtain ⟨e1, e2⟩ := colonPair_one h.1 h'.1
  cases c; cases c'; simp_all

theorem code_one {value : Str} {c c' : VerificationCode} (h : CodeReads value c) (h' : CodeReads value c') : c = c' := by
  have key : ∀ {code rest : Str}, Without g!"(excludes:" code → value = code ++ g!"(excludes:" ++ rest →
      cut g!"(excludes:" value = some (code, rest) := by
    intro code rest h1 h2
    rw [h2]
    simpa using cut_append_sep (c := '(') (t := g!"excludes:") (v := code) (r := rest) (by decide) (without_iff.2 h1)
  rcases h with ⟨h1, h2⟩ | ⟨code, rest, h1, h2, h3⟩ <;> rcases h' with ⟨h1', h2'⟩ | ⟨code', rest', h1', h2', h3'⟩
  · rw [h2, h2']
  · exact absurd h1' (h1 _ _)
  · exact absurd h1 (h1' _ _)
  · have e := (key h2 h1).symm.trans (key h2' h1')
    simp only [Option.some.injEq, Prod.mk.injEq] at e
    rw [h3, h3', e.1, e.2]

theorem externalRef_one {g : Str × List TVPair} {r r' : PackageExternalRef} (h : ExternalRefReads g r) (h' : ExternalRefReads g r') :
    r = r' := by
  have e := h.1.symm.trans h'.1
  have c := h.2.trans h'.2.symm
  cases r; cases r'; simp_all

theorem range_one {p : TVPair} {r r' : SnippetRange} (h : RangeReads p r) (h' : RangeReads p r') : r = r' := by
  obtain ⟨a, b, i, j, h1, h2, h3, rfl⟩ := h
  obtain ⟨a', b', i', j', h1', h2', h3', rfl⟩ := h'
  obtain ⟨rfl, rfl⟩ := colonPair_one h1 h1'
  rw [number_one h2 h2', number_one h3 h3']

theorem relationship_one {v : Version} {g : Str × List TVPair} {r r' : Relationship} (h : RelationshipSays v g r)
    (h' : RelationshipSays v g r') : r = r' := by
  obtain ⟨⟨a, b, h1, h2, h3⟩, h4⟩ := h
  obtain ⟨⟨a', b', h1', h2', h3'⟩, h4'⟩ := h'
  have e := h1.symm.trans h1'
  simp only [List.cons.injEq, and_true] at e
  obtain ⟨rfl, e2, rfl⟩ := e
  have eA := ref_one h2 h2'
  have no : ∀ {x : DocElementID}, RefReads b x → ¬(b = g!"NONE" ∨ b = g!"NOASSERTION") := by
    rintro x ⟨-, ⟨-, h⟩ | ⟨-, h⟩⟩ (e | e) <;> rw [e] at h <;> simp at h
  have eB : r.refB = r'.refB := by
    rcases h3 with h3 | ⟨-, h5, h3⟩ <;> rcases h3' with h3' | ⟨-, h5', h3'⟩
    · exact ref_one h3 h3'
    · exact absurd h5' (no h3)
    · exact absurd h5 (no h3')
    · rw [h3, h3']
  cases r; cases r'; simp_all

theorem agent_one {value k x k' x' : Str} (h : AgentText value k x) (h' : AgentText value k' x') : k = k' ∧ x = x' :=
  colonPair_one h.1 h'.1

theorem annotation_one {g : Str × List TVPair} {r r' : Annotation} (h : AnnotationSays g r) (h' : AnnotationSays g r') : r = r' := by
  obtain ⟨h1, h2, h3, h4, h5⟩ := h
  obtain ⟨h1', h2', h3', h4', h5'⟩ := h'
  obtain ⟨e1, e2⟩ := agent_one h1 h1'
  have e5 : r.spdxId = r'.spdxId := by
    split at h5
    · rename_i hv; rw [if_pos hv] at h5'; rw [h5, h5']
    · rename_i hv; rw [if_neg hv] at h5'; exact ref_one h5 h5'
  obtain ⟨⟨_, _⟩, _, _, _, _⟩ := r
  obtain ⟨⟨_, _⟩, _, _, _, _⟩ := r'
  simp_all

theorem review_one {g : Str × List TVPair} {r r' : Review} (h : ReviewSays g r) (h' : ReviewSays g r') : r = r' := by
  obtain ⟨h1, h2, h3⟩ := h
  obtain ⟨h1', h2', h3'⟩ := h'
  obtain ⟨e1, e2⟩ := agent_one h1 h1'
  cases r; cases r'; simp_all

theorem license_one {g : Str × List TVPair} {r r' : OtherLicense} (h : LicenseSays g r) (h' : LicenseSays g r') : r = r' := by
  obtain ⟨h1, h2, h3, h4, h5⟩ := h
  obtain ⟨h1', h2', h3', h4', h5'⟩ := h'
  cases r; cases r'; simp_all

theorem externalDocument_one {value : Str} {r r' : ExternalDocumentRef} (h : ExternalDocumentSays value r)
    (h' : ExternalDocumentSays value r') : r = r' := by
  obtain ⟨-, h⟩ := h
  obtain ⟨-, h'⟩ := h'
  obtain ⟨_, _, ⟨al, dg⟩⟩ := r
  obtain ⟨_, _, ⟨al', dg'⟩⟩ := r'
  rcases h with h | ⟨hc, h⟩ <;> rcases h' with h' | ⟨hc', h'⟩
  · have e := h.symm.trans h'
    simp at e; simp_all
  · have e := congrArg List.length (h.symm.trans h'); simp at e
  · have e := congrArg List.length (h.symm.trans h'); simp at e
  · have e := h.symm.trans h'
    simp only [List.cons.injEq, List.append_cancel_left_eq, and_true] at e
    obtain ⟨rfl, rfl, e⟩ := e
    simp only at hc hc'
    have f := cut_single (b := dg) hc
    have f' := cut_single (b := dg') hc'
    rw [show al ++ ':' :: dg = al' ++ ':' :: dg' by simpa using e] at f
    have g := f.symm.trans f'
    simp only [Option.some.injEq, Prod.mk.injEq] at g
    rw [g.1, g.2]

theorem creators_one {value : Str} {x y : Creator} (h : AgentText value x.creatorType x.creator)
    (h' : AgentText value y.creatorType y.creator) : x = y := by
  obtain ⟨e1, e2⟩ := agent_one h h'
  cases x; cases y; simp_all

theorem pointwise_one {α β : Type} {R : α → β → Prop} {l : List α} {m m' : List β} (h : Pointwise R l m) (h' : Pointwise R l m')
    (hR : ∀ {a b b'}, R a b → R a b' → b = b') : m = m' := by
  induction h generalizing m' with
  | nil => cases h'; rfl
  | cons h1 _ ih =>
    cases h' with
    | cons h2 h3 => rw [hR h1 h2, ih h3]

theorem creation_one {tvs : List TVPair} {c c' : CreationInfo} (h : CreationSays tvs c) (h' : CreationSays tvs c') : c = c' := by
  obtain ⟨h1, h2, h3, h4⟩ := h
  obtain ⟨h1', h2', h3', h4'⟩ := h'
  have e := pointwise_one h4 h4' creators_one
  cases c; cases c'; simp_all

theorem lastReads_one {α : Type} {tag : Str} {ps : List TVPair} {unset : α} {reads : Str → α → Prop}
    (hr : ∀ {s a b}, reads s a → reads s b → a = b) {a b : α} (h : LastReads tag ps (a = unset) reads a)
    (h' : LastReads tag ps (b = unset) reads b) : a = b := by
  unfold LastReads at h h'
  split at h
  · rename_i hv; rw [if_pos hv] at h'; rw [h, h']
  · rename_i hv; rw [if_neg hv] at h'; exact hr h h'

/-! ## Sections -/

theorem document_one {v : Version} {tvs : List TVPair} {d e : Doc} (h : DocumentSays v tvs d) (h' : DocumentSays v tvs e) :
    e = { d with packages := e.packages, files := e.files } := by
  obtain ⟨h1, h2, h3, h4, h5, h6, h7, h8, h9, h10, h11, h12, h13, h14⟩ := h
  obtain ⟨k1, k2, k3, k4, k5, k6, k7, k8, k9, k10, k11, k12, k13, k14⟩ := h'
  have e3 : d.spdxId = e.spdxId := by
    split at h3
    · rename_i hv; rw [if_pos hv] at k3; rw [h3, k3]
    · rename_i hv; rw [if_neg hv] at k3; exact id_one ⟨h3.1, h3.2⟩ ⟨k3.1, k3.2⟩
  have e7 := pointwise_one h7 k7 externalDocument_one
  have e10 := pointwise_one h10 k10 relationship_one
  have e11 := pointwise_one h11 k11 annotation_one
  have e12 := pointwise_one h12 k12 review_one
  have e13 := pointwise_one h13 k13 license_one
  have e8 : d.creationInfo = e.creationInfo := by
    cases hd : d.creationInfo with
    | none => exact (k9.2 (h9.1 hd)).symm
    | some c =>
      cases he : e.creationInfo with
      | none => rw [h9.2 (k9.1 he)] at hd; simp at hd
      | some c' => rw [creation_one (h8 c hd) (k8 c' he)]
  cases d; cases e; simp_all

theorem snippet_one {s : SnippetSec} {x y : Snippet} (h : SnippetSectionSays s x) (h' : SnippetSectionSays s y) : x = y := by
  obtain ⟨h1, h2, h3, h4, h5, h6, h7, h8, h9, h10⟩ := h
  obtain ⟨k1, k2, k3, k4, k5, k6, k7, k8, k9, k10⟩ := h'
  have e1 := id_one h1 k1
  have e2 : x.fromFile = y.fromFile := by
    refine lastReads_one ?_ h2 k2
    rintro s a b ⟨r, hr, rfl⟩ ⟨r', hr', rfl⟩
    rw [ref_one hr hr']
  have e3 := pointwise_one h3 k3 range_one
  cases x; cases y; simp_all

/-- Maps with the same entries are the same up to order. -/
theorem map_perm {α : Type} {m n : List (Str × α)} (hm : (m.map fun e => e.1).Nodup) (hn : (n.map fun e => e.1).Nodup)
    (h : ∀ k, mapGet k m = mapGet k n) : m.Perm n := by
  have mem : ∀ {l : List (Str × α)}, (l.map fun e => e.1).Nodup → ∀ k x, (k, x) ∈ l ↔ mapGet k l = some x := by
    intro l hl
    induction l with
    | nil => intro k x; simp [mapGet]
    | cons e l ih =>
      obtain ⟨k', x'⟩ := e
      simp only [List.map_cons, List.nodup_cons] at hl
      intro k x
      simp only [List.mem_cons, Prod.mk.injEq, mapGet]
      by_cases hk : k' = k
      · subst hk
        rw [if_pos rfl]
        constructor
        · rintro (⟨-, rfl⟩ | hx)
          · rfl
          · exact absurd (List.mem_map.2 ⟨_, hx, rfl⟩) hl.1
        · intro hx; simp only [Option.some.injEq] at hx; exact Or.inl ⟨rfl, hx.symm⟩
      · rw [if_neg hk, ← ih hl.2]
        constructor
        · rintro (⟨rfl, -⟩ | hx)
          · exact absurd rfl hk
          · exact hx
        · exact Or.inr
  have nd : ∀ {l : List (Str × α)}, (l.map fun e => e.1).Nodup → l.Nodup := by
    intro l hl
    unfold List.Nodup at hl ⊢
    rw [List.pairwise_map] at hl
    exact hl.imp fun h e => h (by rw [e])
  refine (List.perm_ext_iff_of_nodup (nd hm) (nd hn)).2 ?_
  rintro ⟨k, x⟩
  rw [mem hm, mem hn, h]

theorem snippets_one {ss : List SnippetSec} {m n : List (Str × Snippet)} (h : SnippetsSay ss m) (h' : SnippetsSay ss n) : m.Perm n := by
  obtain ⟨h1, xs, h2, h3⟩ := h
  obtain ⟨k1, ys, k2, k3⟩ := h'
  have e := pointwise_one h2 k2 snippet_one
  subst e
  exact map_perm h1 k1 fun k => (h3 k).trans (k3 k).symm

theorem snippets_perm {ss : List SnippetSec} {m n : List (Str × Snippet)} (h : SnippetsSay ss m) (hp : m.Perm n) : SnippetsSay ss n := by
  obtain ⟨h1, xs, h2, h3⟩ := h
  exact ⟨(hp.map _).nodup_iff.1 h1, xs, h2, fun k => (mapGet_perm hp h1 k).symm.trans (h3 k)⟩

theorem fileFields_one {σ : Type} {v : Version} {name : Str} {ps : List TVPair} {f g : File σ} (h : FileFields v name ps f)
    (h' : FileFields v name ps g) : g = { f with snippets := g.snippets } := by
  obtain ⟨h1, h2, h3, h4, h5, h6, h7, h8, h9, h10, h11, h12, h13, h14, h15⟩ := h
  obtain ⟨k1, k2, k3, k4, k5, k6, k7, k8, k9, k10, k11, k12, k13, k14, k15⟩ := h'
  have e2 : f.spdxId = g.spdxId := lastReads_one id_one h2 k2
  have e4 := pointwise_one h4 k4 checksum_one
  cases f; cases g; simp_all

theorem file_one {v : Version} {s : FileSec} {f g : FileV} (h : FileSectionSays v s f) (h' : FileSectionSays v s g) : SameFile f g :=
  ⟨fileFields_one h.fields h'.fields, snippets_one h.snippets h'.snippets⟩

theorem file_same {v : Version} {s : FileSec} {f g : FileV} (h : FileSectionSays v s f) (hs : SameFile f g) : FileSectionSays v s g := by
  obtain ⟨e, hp⟩ := hs
  refine ⟨?_, snippets_perm h.snippets hp⟩
  obtain ⟨h1, h2, h3, h4, h5, h6, h7, h8, h9, h10, h11, h12, h13, h14, h15⟩ := h.fields
  rw [e]
  exact ⟨h1, h2, h3, h4, h5, h6, h7, h8, h9, h10, h11, h12, h13, h14, h15⟩

theorem pointwise_related {α β : Type} {R : α → β → Prop} {S : β → β → Prop} {l : List α}
    {m m' : List β} (h : Pointwise R l m) (h' : Pointwise R l m') (hR : ∀ {a b b'}, R a b → R a b' → S b b') : Pointwise S m m' := by
  induction h generalizing m' with
  | nil => cases h'; exact .nil
  | cons h1 _ ih =>
    cases h' with
    | cons h2 h3 => exact .cons (hR h1 h2) (ih h3)

theorem pointwise_moved {α β : Type} {R : α → β → Prop} {S : β → β → Prop} {l : List α}
    {m m' : List β} (h : Pointwise R l m) (h' : Pointwise S m m') (hR : ∀ {a b b'}, R a b → S b b' → R a b') : Pointwise R l m' := by
  induction h generalizing m' with
  | nil => cases h'; exact .nil
  | cons h1 _ ih =>
    cases h' with
    | cons h2 h3 => exact .cons (hR h1 h2) (ih h3)

theorem packageFields_one {φ : Type} {v : Version} {name : Str} {ps : List TVPair} {p q : Package φ} (h : PackageFields v name ps p)
    (h' : PackageFields v name ps q) : q = { p with files := q.files } := by
  obtain ⟨h1, h2, h3, h4, h5, h6, h7, h8, h9, h10, h11, h12, h13, h14, h15, h16, h17, h18, h19, h20, h21, h22, h23, h24, h25,
    h26, h27, h28, h29⟩ := h
  obtain ⟨k1, k2, k3, k4, k5, k6, k7, k8, k9, k10, k11, k12, k13, k14, k15, k16, k17, k18, k19, k20, k21, k22, k23, k24, k25,
    k26, k27, k28, k29⟩ := h'
  have e2 : p.spdxId = q.spdxId := lastReads_one id_one h2 k2
  have e5 : p.supplier = q.supplier := by
    refine lastReads_one ?_ h5 k5
    rintro s a b ⟨⟨_, _⟩, rfl, hx⟩ ⟨⟨_, _⟩, rfl, hy⟩
    obtain ⟨e1, e2⟩ := party_one hx hy
    simp_all
  have e6 : p.originator = q.originator := by
    refine lastReads_one ?_ h6 k6
    rintro s a b ⟨⟨_, _⟩, rfl, hx⟩ ⟨⟨_, _⟩, rfl, hy⟩
    obtain ⟨e1, e2⟩ := party_one hx hy
    simp_all
  have e8 : p.filesAnalyzedTagPresent = q.filesAnalyzedTagPresent := Bool.eq_iff_iff.2 (h8.trans k8.symm)
  have e9 : p.filesAnalyzed = q.filesAnalyzed := by
    have := h9.trans k9.symm
    revert this
    cases p.filesAnalyzed <;> cases q.filesAnalyzed <;> simp
  have e10 : p.verificationCode = q.verificationCode := by
    refine lastReads_one ?_ h10 k10
    rintro s a b ⟨c, rfl, hx⟩ ⟨c', rfl, hy⟩
    rw [code_one hx hy]
  have e11 := pointwise_one h11 k11 checksum_one
  have e22 := pointwise_one h22 k22 externalRef_one
  clear h2 k2 h5 k5 h6 k6 h8 k8 h9 k9 h10 k10 h11 k11 h22 k22
  cases p; cases q; simp_all

theorem package_one {v : Version} {s : PackageSec} {p q : PackageV} (h : PackageSectionSays v s p) (h' : PackageSectionSays v s q) :
    SamePackageMaps p q :=
  ⟨packageFields_one h.fields h'.fields, pointwise_related h.files h'.files file_one⟩

theorem package_same {v : Version} {s : PackageSec} {p q : PackageV} (h : PackageSectionSays v s p) (hs : SamePackageMaps p q) :
    PackageSectionSays v s q := by
  obtain ⟨e, hp⟩ := hs
  refine ⟨?_, pointwise_moved h.files hp file_same⟩
  obtain ⟨h1, h2, h3, h4, h5, h6, h7, h8, h9, h10, h11, h12, h13, h14, h15, h16, h17, h18, h19, h20, h21, h22, h23, h24, h25,
    h26, h27, h28, h29⟩ := h.fields
  rw [e]
  exact ⟨h1, h2, h3, h4, h5, h6, h7, h8, h9, h10, h11, h12, h13, h14, h15, h16, h17, h18, h19, h20, h21, h22, h23, h24, h25,
    h26, h27, h28, h29⟩

theorem text_one {v : Version} {tvs : List TVPair} {d e : Doc} (h : TextSays v tvs d) (h' : TextSays v tvs e) : SameMaps d e :=
  ⟨document_one h.document h'.document, pointwise_related h.files h'.files file_one, pointwise_related h.packages h'.packages package_one⟩

theorem text_same {v : Version} {tvs : List TVPair} {d e : Doc} (h : TextSays v tvs d) (hs : SameMaps d e) : TextSays v tvs e := by
  obtain ⟨e, hf, hp⟩ := hs
  refine ⟨?_, pointwise_moved h.files hf file_same, pointwise_moved h.packages hp package_same⟩
  obtain ⟨h1, h2, h3, h4, h5, h6, h7, h8, h9, h10, h11, h12, h13, h14⟩ := h.document
  rw [e]
  exact ⟨h1, h2, h3, h4, h5, h6, h7, h8, h9, h10, h11, h12, h13, h14⟩

end Verif
