import Verif.Lemmas.RdfContentDoc
import Verif.Lemmas.Number
import Verif.Spec.RdfSnippets

/-!
# What the RDF reader puts into snippets
-/

namespace Verif
open RdfM Spec Spec.Rdf

theorem stated_of_about {g : Graph} {x : Str} (h : g.about x ≠ []) : ∃ u, Stated g x u := by
  obtain ⟨u, hu⟩ := List.exists_mem_of_ne_nil _ h
  simp only [Graph.about, List.mem_filter, decide_eq_true_eq] at hu
  exact ⟨u, hu⟩

theorem mem_withPred {ts : List Triple} {x : Str} {p : Pred} {a : Triple} (h : withPred ts x p = [a]) : a ∈ ts ∧ a.pred = p := by
  have : a ∈ withPred ts x p := by rw [h]; simp
  simp only [withPred, List.mem_filter, Bool.and_eq_true, decide_eq_true_eq] at this
  exact ⟨this.1, this.2.2⟩

theorem content_pointerStep {v : Version} {g : Graph} {c : RCalls} (hc : CGood v g c) {n : RNode} {t : Triple}
    (hf' : ∀ t ∈ g.of n, t.pred = .reference → ∀ u, Stated g t.object.id u → Leads g (.file t.object))
    (hm : t ∈ g.of n)
    {a a' : Option Bool × Int} {s s' : RState} (hs : Sound v g s) (e : pointerStep g c a t s = .ok (a', s')) :
    Sound v g s' ∧ Calm s s' ∧ t.pred ∈ [Pred.type_, .reference, .offset, .lineNumber] ∧
    ((t.pred ∉ [Pred.offset, .lineNumber] ∧ a' = a) ∨
      ∃ line k, t.pred = (if line then .lineNumber else .offset) ∧ NumberText t.object.id k ∧ a' = (some line, k)) := by
  unfold pointerStep at e
  cases hp : t.pred <;> simp only [hp] at e <;> first
    | (exact (err_inv e).elim)
    | skip
  case type_ =>
    obtain ⟨rfl, rfl⟩ := pure_inv e
    exact ⟨hs, .refl _ _, by simp, .inl ⟨by simp, rfl⟩⟩
  case reference =>
    split at e
    · obtain ⟨rfl, rfl⟩ := pure_inv e
      exact ⟨hs, .refl _ _, by simp, .inl ⟨by simp, rfl⟩⟩
    · next hab =>
      obtain ⟨k, s1, e1, e2⟩ := bind_inv e
      obtain ⟨rfl, rfl⟩ := pure_inv e2
      obtain ⟨w, hw⟩ := stated_of_about hab
      obtain ⟨h1, h2, _⟩ := hc.file _ _ _ _ (hf' t hm hp w hw) hs e1
      exact ⟨h1, h2, by simp, .inl ⟨by simp, rfl⟩⟩
  case offset =>
    cases hk : atoi t.object.id with
    | none => rw [hk] at e; exact (err_inv e).elim
    | some k =>
      rw [hk] at e
      obtain ⟨rfl, rfl⟩ := pure_inv e
      exact ⟨hs, .refl _ _, by simp, .inr ⟨false, k, by simp, number_iff.2 hk, rfl⟩⟩
  case lineNumber =>
    cases hk : atoi t.object.id with
    | none => rw [hk] at e; exact (err_inv e).elim
    | some k =>
      rw [hk] at e
      obtain ⟨rfl, rfl⟩ := pure_inv e
      exact ⟨hs, .refl _ _, by simp, .inr ⟨true, k, by simp, number_iff.2 hk, rfl⟩⟩

theorem content_pointerAt {v : Version} {g : Graph} {c : RCalls} (hc : CGood v g c) {n : RNode} {line : Bool} {k : Int} {s s' : RState}
    (hf' : ∀ t ∈ g.of n, t.pred = .reference → ∀ u, Stated g t.object.id u → Leads g (.file t.object))
    (hs : Sound v g s) (e : pointerAt g c n s = .ok ((line, k), s')) : Sound v g s' ∧ Calm s s' ∧ PointerSays g n line k := by
  unfold pointerAt at e
  obtain ⟨a, s1, e1, e2⟩ := bind_inv e
  have := fold_inv (us := []) (I := fun us (a : Option Bool × Int) s1 => Sound v g s1 ∧ Calm s s1 ∧ Only us [.type_, .reference, .offset, .lineNumber] ∧
    (∀ t ∈ us, t.pred ∈ [Pred.offset, .lineNumber] → ∃ i, NumberText t.object.id i) ∧
    ∀ line, a.1 = some line → ∃ ts t us', us = ts ++ t :: us' ∧ (∀ u ∈ us', u.pred ∉ [Pred.offset, .lineNumber]) ∧
      t.pred = (if line then .lineNumber else .offset) ∧ NumberText t.object.id a.2) (fun us t a a' s1 s2 hm h e => by
    obtain ⟨h1, h2, h3, h4, h5⟩ := h
    obtain ⟨q1, q2, q3, q4⟩ := content_pointerStep hc hf' hm h1 e
    refine ⟨q1, h2.trans q2, h3.snoc q3, ?_, ?_⟩
    · intro u hu hup
      rcases List.mem_append.1 hu with hu | hu
      · exact h4 u hu hup
      · rw [List.mem_singleton.1 hu] at hup ⊢
        rcases q4 with ⟨q4, _⟩ | ⟨_, k, _, q4, _⟩
        · exact absurd hup q4
        · exact ⟨k, q4⟩
    · intro line hl
      rcases q4 with ⟨q4, rfl⟩ | ⟨line', k, q4, q5, rfl⟩
      · obtain ⟨ts, t', us', rfl, h6, h7, h8⟩ := h5 line hl
        refine ⟨ts, t', us' ++ [t], by simp, fun u hu => ?_, h7, h8⟩
        rcases List.mem_append.1 hu with hu | hu
        · exact h6 u hu
        · rw [List.mem_singleton.1 hu]; exact q4
      · injection hl with hl
        subst hl
        exact ⟨us, t, [], rfl, by simp, q4, q5⟩) ⟨hs, .refl _ _, Only.nil, by simp, by simp⟩ e1
  obtain ⟨h1, h2, h3, h4, h5⟩ := this
  cases ha : a.1 with
  | none => rw [ha] at e2; exact (err_inv e2).elim
  | some l =>
    rw [ha] at e2
    obtain ⟨q1, q2⟩ := pure_inv e2
    injection q1 with q1 q3
    subst q1; subst q2; subst q3
    exact ⟨h1, h2, h3, h4, h5 _ ha⟩

theorem vals_typeTriples {g : Graph} {n : RNode} {t : Triple} (h : typeTriples (g.of n) n.id = [t]) : vals (g.of n) .type_ = [t.object] := by
  have : typeTriples (g.of n) n.id = (g.of n).filter fun t => t.pred = .type_ := by
    unfold typeTriples
    refine List.filter_congr fun t ht => ?_
    simp [(mem_of ht).2]
  unfold vals
  rw [← this, h]; rfl

theorem vals_withPred {g : Graph} {n : RNode} {t : Triple} {p : Pred} (h : withPred (g.of n) n.id p = [t]) : vals (g.of n) p = [t.object] := by
  have : withPred (g.of n) n.id p = (g.of n).filter fun t => t.pred = p := by
    unfold withPred
    refine List.filter_congr fun t ht => ?_
    simp [(mem_of ht).2]
  unfold vals
  rw [← this, h]; rfl

theorem content_rangeAt {v : Version} {g : Graph} {c : RCalls} (hc : CGood v g c) {n : RNode} {f : Str} {r : SnippetRange} {s s' : RState}
    (hf' : ∀ p ∈ g.of n, (p.pred = .startPointer ∨ p.pred = .endPointer) → ∀ t ∈ g.of p.object, t.pred = .reference → ∀ u, Stated g t.object.id u →
      Leads g (.file t.object))
    (hs : Sound v g s) (e : rangeAt g c f n s = .ok (r, s')) : Sound v g s' ∧ Calm s s' ∧ RangeSays g f n r := by
  unfold rangeAt at e
  split at e
  · exact (err_inv e).elim
  · next hl =>
    rcases h1 : typeTriples (g.of n) n.id with _ | ⟨ct, _ | ⟨_, _⟩⟩ <;>
      rcases h2 : withPred (g.of n) n.id .startPointer with _ | ⟨a, _ | ⟨_, _⟩⟩ <;> rw [h1, h2] at e <;>
      try exact (err_inv e).elim
    obtain ⟨⟨l1, k1⟩, s1, e1, e2⟩ := bind_inv e
    rcases h3 : withPred (g.of n) n.id .endPointer with _ | ⟨b, _ | ⟨_, _⟩⟩ <;> rw [h3] at e2 <;>
      try exact (err_inv e2).elim
    obtain ⟨⟨l2, k2⟩, s2, e3, e4⟩ := bind_inv e2
    obtain ⟨q1, q2, q3⟩ := content_pointerAt hc (hf' _ (mem_withPred h2).1 (.inl (mem_withPred h2).2)) hs e1
    obtain ⟨q4, q5, q6⟩ := content_pointerAt hc (hf' _ (mem_withPred h3).1 (.inr (mem_withPred h3).2)) q1 e3
    by_cases hll : l1 = l2
    · rw [if_pos hll] at e4
      obtain ⟨rfl, rfl⟩ := pure_inv e4
      subst hll
      refine ⟨q4, q2.trans q5, by omega, ct.object, a.object, b.object, l1, k1, k2, vals_typeTriples h1, vals_withPred h2,
        vals_withPred h3, q3, q6, ?_⟩
      cases l1 <;> rfl
    · rw [if_neg hll] at e4
      exact (err_inv e4).elim

theorem snippetFile_of {v : Version} {n : RNode} {y : Str} (h : snippetFileOf v n.id = .ok y) : SnippetFileSays v n y := by
  unfold snippetFileOf at h
  cases e : extractDocElementID (lastPart n.id) with
  | ok r =>
    rw [e] at h
    injection h with h
    exact .inl ⟨_, r, (lastPart_iff _ _).2 rfl, refReads_iff.2 e, h.symm⟩
  | panic => rw [e] at h; simp at h
  | err =>
    rw [e] at h
    dsimp only at h
    split at h
    · next hv =>
      injection h with h
      refine .inr ⟨hv, h.symm, ?_⟩
      rintro ⟨z, r, hz, hr⟩
      rw [lastPart_iff] at hz
      subst hz
      rw [refReads_iff, e] at hr
      simp at hr
    · simp at h

theorem ranges_other {v : Version} {g : Graph} {ts : List Triple} {t : Triple} {rs : List SnippetRange} (h : RangesSay v g ts rs)
    (hp : t.pred ≠ .range) : RangesSay v g (ts ++ [t]) rs := by
  refine ⟨by rw [vals_snoc_other hp]; exact h.1, ?_⟩
  rcases h.2 with ⟨h1, h2⟩ | ⟨b, u, a, f, r, rfl, h2, h3, h4⟩
  · exact .inl ⟨by rw [vals_snoc_other hp]; exact h1, h2⟩
  · exact .inr ⟨b, u, a ++ [t], f, r, by simp, h2, by rw [vals_snoc_other hp]; exact h3, h4⟩

theorem content_snippetStep {v : Version} {g : Graph} {c : RCalls} (hc : CGood v g c) {n : RNode} {t : Triple} (hsn : IsSnippetNode g n) (hm : t ∈ g.of n)
    {ts : List Triple} {x x' : Snippet} {s s' : RState} (hs : Sound v g s) (hx : SnippetSays v g ts x)
    (e : snippetStep v g c x t s = .ok (x', s')) : Sound v g s' ∧ Calm s s' ∧ SnippetSays v g (ts ++ [t]) x' ∧ x'.spdxId = x.spdxId := by
  obtain ⟨h1, h2, h3, h4, h5, h6, h7, h8, h9, h10⟩ := hx
  unfold snippetStep at e
  cases hp : t.pred <;> simp only [hp] at e <;> first
    | (exact (err_inv e).elim)
    | skip
  case type_ | name | copyrightText | licenseComments | comment =>
    obtain ⟨rfl, rfl⟩ := pure_inv e
    refine ⟨hs, .refl _ _, ?_, rfl⟩
    constructor <;> first | exact Only.snoc h1 (by rw [hp]; simp) | field_step hp | exact ranges_other h3 (by simp [hp])
  case snippetFromFile =>
    obtain ⟨k, s1, e1, e2⟩ := bind_inv e
    obtain ⟨y, e3, e4⟩ := bind_lift_inv e2
    obtain ⟨rfl, rfl⟩ := pure_inv e4
    obtain ⟨q1, q2, _⟩ := hc.file _ _ _ _ (.snippetFile hsn hm hp) hs e1
    have e3 := snippetFile_of e3
    refine ⟨q1, q2, ?_, rfl⟩
    constructor <;> first | exact Only.snoc h1 (by rw [hp]; simp) | field_step hp | exact ranges_other h3 (by simp [hp])
  case range =>
    obtain ⟨r, s1, e1, e2⟩ := bind_inv e
    obtain ⟨rfl, rfl⟩ := pure_inv e2
    obtain ⟨q1, q2, q3⟩ := content_rangeAt hc (fun p h1 h2 t h3 h4 u h5 => .rangeFile hsn hm hp h1 h2 h3 h4 h5) hs e1
    refine ⟨q1, q2, ?_, rfl⟩
    constructor <;> first
      | exact Only.snoc h1 (by rw [hp]; simp)
      | field_step hp
      | exact ⟨fun m hm => by
          rw [vals_snoc_same hp] at hm
          rcases List.mem_append.1 hm with hm | hm
          · exact h3.1 m hm
          · rw [List.mem_singleton] at hm; subst hm; exact ⟨_, r, q3⟩, .inr ⟨ts, t, [], _, r, rfl, hp, rfl, h2, q3, rfl⟩⟩
  case licenseInfoInSnippet | licenseConcluded =>
    obtain ⟨y, s1, e1, e2⟩ := bind_inv e
    obtain ⟨rfl, rfl⟩ := pure_inv e2
    obtain ⟨q1, q2, q3⟩ := hs.license (used_of hm (by simp [hp])) e1
    refine ⟨q1, q2, ?_, rfl⟩
    constructor <;> first | exact Only.snoc h1 (by rw [hp]; simp) | field_step hp | exact ranges_other h3 (by simp [hp])

/-! ## The files that snippets name -/

/-- The file of an end of a range was read. -/
def EndFiles (g : Graph) (s : RState) (n : RNode) : Prop :=
  ∀ t ∈ g.of n, t.pred = .reference → g.about t.object.id ≠ [] → ∃ k, s.view.cached t.object.id (.file k)

def RangeFiles (g : Graph) (s : RState) (n : RNode) : Prop :=
  ∀ p ∈ g.of n, (p.pred = .startPointer ∨ p.pred = .endPointer) → EndFiles g s p.object

/-- The files that the statements about a snippet name were read. -/
def SnipFiles (g : Graph) (s : RState) (ts : List Triple) : Prop :=
  (∀ t ∈ ts, t.pred = .snippetFromFile → ∃ k, s.view.cached t.object.id (.file k)) ∧ ∀ t ∈ ts, t.pred = .range → RangeFiles g s t.object

theorem EndFiles.grow {g : Graph} {s s' : RState} {n : RNode} (h : EndFiles g s n) (hc : ∀ x o, s.view.cached x o → s'.view.cached x o) :
    EndFiles g s' n := fun t ht hp hs => (h t ht hp hs).imp fun _ => hc _ _

theorem RangeFiles.grow {g : Graph} {s s' : RState} {n : RNode} (h : RangeFiles g s n) (hc : ∀ x o, s.view.cached x o → s'.view.cached x o) :
    RangeFiles g s' n := fun p hp hpp => (h p hp hpp).grow hc

theorem SnipFiles.grow {g : Graph} {s s' : RState} {ts : List Triple} (h : SnipFiles g s ts)
    (hc : ∀ x o, s.view.cached x o → s'.view.cached x o) : SnipFiles g s' ts :=
  ⟨fun t ht hp => (h.1 t ht hp).imp fun _ => hc _ _, fun t ht hp => (h.2 t ht hp).grow hc⟩

theorem files_pointerAt {v : Version} {g : Graph} {c : RCalls} (hc : CGood v g c) {n : RNode} {x : Bool × Int} {s s' : RState}
    (hf' : ∀ t ∈ g.of n, t.pred = .reference → ∀ u, Stated g t.object.id u → Leads g (.file t.object))
    (hs : Sound v g s) (e : pointerAt g c n s = .ok (x, s')) : EndFiles g s' n := by
  unfold pointerAt at e
  obtain ⟨a, s1, e1, e2⟩ := bind_inv e
  have := fold_inv (us := []) (I := fun us (_ : Option Bool × Int) s1 => Sound v g s1 ∧
    ∀ t ∈ us, t.pred = .reference → g.about t.object.id ≠ [] → ∃ k, s1.view.cached t.object.id (.file k)) (fun us t a a' s1 s2 hm h e => by
    obtain ⟨q1, q2, _, _⟩ := content_pointerStep hc hf' hm h.1 e
    refine ⟨q1, fun u hu hp hst => ?_⟩
    rcases List.mem_append.1 hu with hu | hu
    · exact (h.2 u hu hp hst).imp fun _ => q2.cached _ _
    · rw [List.mem_singleton.1 hu] at hp hst ⊢
      unfold pointerStep at e
      simp only [hp, if_neg hst] at e
      obtain ⟨k, s3, e3, e4⟩ := bind_inv e
      obtain ⟨rfl, rfl⟩ := pure_inv e4
      obtain ⟨_, _, q⟩ := hc.file _ _ _ _ (hf' t hm hp _ (stated_of_about hst).choose_spec) h.1 e3
      exact ⟨k, q⟩) ⟨hs, by simp⟩ e1
  cases ha : a.1 with
  | none => rw [ha] at e2; exact (err_inv e2).elim
  | some l =>
    rw [ha] at e2
    obtain ⟨_, rfl⟩ := pure_inv e2
    exact this.2

theorem files_rangeAt {v : Version} {g : Graph} {c : RCalls} (hc : CGood v g c) {n : RNode} {f : Str} {r : SnippetRange} {s s' : RState}
    (hf' : ∀ p ∈ g.of n, (p.pred = .startPointer ∨ p.pred = .endPointer) → ∀ t ∈ g.of p.object, t.pred = .reference → ∀ u, Stated g t.object.id u →
      Leads g (.file t.object))
    (hs : Sound v g s) (e : rangeAt g c f n s = .ok (r, s')) : RangeFiles g s' n := by
  unfold rangeAt at e
  split at e
  · exact (err_inv e).elim
  · rcases h1 : typeTriples (g.of n) n.id with _ | ⟨ct, _ | ⟨_, _⟩⟩ <;>
      rcases h2 : withPred (g.of n) n.id .startPointer with _ | ⟨a, _ | ⟨_, _⟩⟩ <;> rw [h1, h2] at e <;>
      try exact (err_inv e).elim
    obtain ⟨⟨l1, k1⟩, s1, e1, e2⟩ := bind_inv e
    rcases h3 : withPred (g.of n) n.id .endPointer with _ | ⟨b, _ | ⟨_, _⟩⟩ <;> rw [h3] at e2 <;>
      try exact (err_inv e2).elim
    obtain ⟨⟨l2, k2⟩, s2, e3, e4⟩ := bind_inv e2
    obtain ⟨q1, q2, _⟩ := content_pointerAt hc (hf' _ (mem_withPred h2).1 (.inl (mem_withPred h2).2)) hs e1
    obtain ⟨q4, q5, _⟩ := content_pointerAt hc (hf' _ (mem_withPred h3).1 (.inr (mem_withPred h3).2)) q1 e3
    have f1 := files_pointerAt hc (hf' _ (mem_withPred h2).1 (.inl (mem_withPred h2).2)) hs e1
    have f2 := files_pointerAt hc (hf' _ (mem_withPred h3).1 (.inr (mem_withPred h3).2)) q1 e3
    have only : ∀ {q : Pred} {a : Triple}, withPred (g.of n) n.id q = [a] → ∀ p ∈ g.of n, p.pred = q → p = a := by
      intro q a h p hp hpp
      have : p ∈ withPred (g.of n) n.id q := by
        simp only [withPred, List.mem_filter, Bool.and_eq_true, decide_eq_true_eq]
        exact ⟨hp, by rw [(mem_of hp).2], hpp⟩
      rw [h] at this
      simpa using this
    by_cases hll : l1 = l2
    · rw [if_pos hll] at e4
      obtain ⟨rfl, rfl⟩ := pure_inv e4
      intro p hp hpp
      rcases hpp with hpp | hpp
      · rw [only h2 p hp hpp]; exact f1.grow q5.cached
      · rw [only h3 p hp hpp]; exact f2
    · rw [if_neg hll] at e4
      exact (err_inv e4).elim

theorem files_snippetStep {v : Version} {g : Graph} {c : RCalls} (hc : CGood v g c) {n : RNode} {t : Triple} (hsn : IsSnippetNode g n) (hm : t ∈ g.of n)
    {ts : List Triple} {x x' : Snippet} {s s' : RState} (hs : Sound v g s) (hx : SnippetSays v g ts x) (hf : SnipFiles g s ts)
    (e : snippetStep v g c x t s = .ok (x', s')) : SnipFiles g s' (ts ++ [t]) := by
  obtain ⟨_, q2, _, _⟩ := content_snippetStep hc hsn hm hs hx e
  refine ⟨fun u hu hp => ?_, fun u hu hp => ?_⟩
  · rcases List.mem_append.1 hu with hu | hu
    · exact (hf.1 u hu hp).imp fun _ => q2.cached _ _
    · rw [List.mem_singleton.1 hu] at hp ⊢
      unfold snippetStep at e
      simp only [hp] at e
      obtain ⟨k, s1, e1, e2⟩ := bind_inv e
      obtain ⟨y, e3, e4⟩ := bind_lift_inv e2
      obtain ⟨rfl, rfl⟩ := pure_inv e4
      obtain ⟨_, _, q⟩ := hc.file _ _ _ _ (.snippetFile hsn hm hp) hs e1
      exact ⟨k, q⟩
  · rcases List.mem_append.1 hu with hu | hu
    · exact (hf.2 u hu hp).grow q2.cached
    · rw [List.mem_singleton.1 hu] at hp ⊢
      unfold snippetStep at e
      simp only [hp] at e
      obtain ⟨r, s1, e1, e2⟩ := bind_inv e
      obtain ⟨rfl, rfl⟩ := pure_inv e2
      exact files_rangeAt hc (fun p h1 h2 t h3 h4 u h5 => .rangeFile hsn hm hp h1 h2 h3 h4 h5) hs e1

/-! ## Files keep their snippets -/

/-- The snippets of the files stay, and new files have none. -/
def SameSnips (s s' : RState) : Prop :=
  ∃ k, s'.fileHeap.map (·.snippets) = s.fileHeap.map (·.snippets) ++ List.replicate k []

theorem SameSnips.refl (s : RState) : SameSnips s s := ⟨0, by simp⟩

theorem SameSnips.trans {s s' s'' : RState} (h : SameSnips s s') (h' : SameSnips s' s'') : SameSnips s s'' := by
  obtain ⟨k, h⟩ := h
  obtain ⟨k', h'⟩ := h'
  exact ⟨k + k', by rw [h', h, List.append_assoc, List.replicate_append_replicate]⟩

theorem SameSnips.of_eq {s s' : RState} (h : s'.fileHeap = s.fileHeap) : SameSnips s s' := ⟨0, by rw [h]; simp⟩

def KeepsSnips {α : Type} (m : RdfM α) : Prop := ∀ s a s', m s = .ok (a, s') → SameSnips s s'

namespace KeepsSnips
variable {α β : Type}

theorem bind {m : RdfM α} {f : α → RdfM β} (hm : KeepsSnips m) (hf : ∀ a, KeepsSnips (f a)) : KeepsSnips (m >>= f) := by
  intro s b s' e
  obtain ⟨a, s1, e1, e2⟩ := bind_inv e
  exact (hm _ _ _ e1).trans (hf _ _ _ _ e2)

theorem pure {a : α} : KeepsSnips (Pure.pure a : RdfM α) := by
  intro s b s' e
  obtain ⟨_, rfl⟩ := pure_inv e
  exact .refl _

theorem err : KeepsSnips (RdfM.err : RdfM α) := fun _ _ _ e => (err_inv e).elim
theorem panic : KeepsSnips (RdfM.panic : RdfM α) := fun _ _ _ e => (panic_inv e).elim

theorem lift {m : Res α} : KeepsSnips (RdfM.lift m) := by
  intro s b s' e
  obtain ⟨_, rfl⟩ := lift_inv e
  exact .refl _

theorem modify {f : RState → RState} (h : ∀ s, (f s).fileHeap = s.fileHeap) : KeepsSnips (RdfM.modify f) := by
  intro s b s' e
  have e := modify_inv e
  subst e
  exact .of_eq (h s)

theorem modFile {i : Nat} {f : FileV → FileV} (h : ∀ y, (f y).snippets = y.snippets) : KeepsSnips (modFileAt i f) := by
  intro s b s' e
  have e := modify_inv e
  subst e
  exact ⟨0, by simp only [List.replicate_zero, List.append_nil]; exact map_modify_same (fun y : FileV => y.snippets) f h _ _⟩

theorem ite {c : Prop} [Decidable c] {m m' : RdfM α} (h : KeepsSnips m) (h' : KeepsSnips m') : KeepsSnips (if c then m else m') := by
  split <;> assumption

theorem each {f : Triple → RdfM Unit} (h : ∀ t, KeepsSnips (f t)) : ∀ ts, KeepsSnips (RdfM.each f ts)
  | [] => pure
  | _ :: ts => bind (h _) fun _ => each h ts

theorem fold {f : α → Triple → RdfM α} (h : ∀ a t, KeepsSnips (f a t)) : ∀ ts a, KeepsSnips (RdfM.fold f a ts)
  | [], _ => pure
  | _ :: ts, _ => bind (h _ _) fun _ => fold h ts _

theorem get : KeepsSnips RdfM.get := by
  intro s b s' e
  injection e with e; injection e with _ e
  subst e; exact .refl _

theorem atFile {i : Nat} : KeepsSnips (fileAt i) := by
  intro s b s' e
  obtain ⟨_, rfl⟩ := fileAt_inv e
  exact .refl _

theorem atPackage {i : Nat} : KeepsSnips (packageAt i) := by
  intro s b s' e
  obtain ⟨_, rfl⟩ := packageAt_inv e
  exact .refl _

theorem license {g : Graph} {n : RNode} : KeepsSnips (licenseText g n) := by
  intro s b s' e
  exact .of_eq (by rw [(licenseText_inv e).1.rest])

theorem entered {id : Str} {o : CObj} : KeepsSnips (enter id o) := by
  intro s b s' e
  rcases enter_eq id o s with ⟨_, _, e'⟩ | ⟨_, e'⟩ | ⟨_, _, e'⟩ <;> (rw [e'] at e; injection e with e; injection e with _ e; subst e; exact .of_eq rfl)

theorem left {id : Str} : KeepsSnips (leave id) := modify fun s => by split <;> rfl

theorem annotation {g : Graph} {n : RNode} : KeepsSnips (addAnnotation g n) := bind lift fun _ => modify fun _ => rfl

end KeepsSnips

structure KeepSnips (c : RCalls) : Prop where
  file : ∀ n, KeepsSnips (c.file n)
  package : ∀ n, KeepsSnips (c.package n)
  relationship : ∀ t, KeepsSnips (c.relationship t)

theorem snips_fileStep {v : Version} {g : Graph} {c : RCalls} (h : KeepSnips c) (i : Nat) (t : Triple) : KeepsSnips (fileStep v g c i t) := by
  have m : ∀ {f : FileV → FileV}, (∀ y, (f y).snippets = y.snippets) → KeepsSnips (modFileAt i f) := .modFile
  unfold fileStep
  cases t.pred <;> first
    | exact .pure
    | exact .err
    | exact m fun _ => rfl
    | exact .bind .lift fun _ => m fun _ => rfl
    | exact .bind .license fun _ => m fun _ => rfl
    | exact .bind (h.file _) fun _ => .bind .atFile fun _ => m fun _ => rfl
    | exact .annotation
    | exact h.relationship _

theorem snips_packageStep {v : Version} {g : Graph} {c : RCalls} (h : KeepSnips c) (i : Nat) (t : Triple) : KeepsSnips (packageStep v g c i t) := by
  have m : ∀ {f : Package Nat → Package Nat}, KeepsSnips (modPackage i f) := .modify fun _ => rfl
  unfold packageStep
  cases t.pred <;> first
    | exact .pure
    | exact .err
    | exact m
    | exact .bind .lift fun _ => m
    | exact .bind .atPackage fun _ => .bind .lift fun _ => m
    | exact .bind .license fun _ => m
    | exact .ite m .err
    | exact .bind (h.file _) fun _ => .bind .atFile fun _ => .bind m fun _ => .modify fun _ => rfl
    | exact .annotation
    | exact h.relationship _

theorem snips_relationshipStep {g : Graph} {c : RCalls} (h : KeepSnips c) (r : Relationship) (t : Triple) :
    KeepsSnips (relationshipStep g c r t) := by
  have hr : ∀ t, KeepsSnips (relatedElement c t) := fun t => by
    unfold relatedElement
    cases Cls.ofStr t.object.id <;> first
      | exact .err
      | exact .lift
      | exact .bind (h.file _) fun _ => .bind .atFile fun _ => .pure
      | exact .bind (h.package _) fun _ => .bind .atPackage fun _ => .pure
  unfold relationshipStep
  cases t.pred <;> first
    | exact .pure
    | exact .err
    | exact .bind .lift fun _ => .pure
    | skip
  refine .bind .lift fun _ => .ite .pure ?_
  split
  · exact .bind (hr _) fun _ => .pure
  · exact .err

theorem snips_depth (v : Version) (g : Graph) : ∀ n, KeepSnips (calls v g n)
  | 0 => ⟨fun _ _ _ _ e => by simp [calls, RdfM.cut] at e, fun _ _ _ _ e => by simp [calls, RdfM.cut] at e,
      fun _ _ _ _ e => by simp [calls, RdfM.cut] at e⟩
  | n + 1 => by
    have ih := snips_depth v g n
    refine ⟨fun node => ?_, fun node => ?_, fun t => ?_⟩
    · refine .bind (m := allocFile) ?_ fun i => .bind .entered fun o => ?_
      · intro s a s' e
        injection e with e; injection e with _ e
        subst e
        exact ⟨1, by simp⟩
      · split
        · exact .pure
        · exact .panic
        · refine .bind ?_ fun _ => .bind .left fun _ => .pure
          exact .bind .lift fun _ => .bind (.modFile fun _ => rfl) fun _ => .bind .get fun _ => .bind (.each (snips_fileStep ih _) _) fun _ =>
            .bind .atFile fun _ => .bind (.modify fun _ => rfl) fun _ => .pure
    · refine .bind (m := allocPackage) ?_ fun i => .bind .entered fun o => ?_
      · intro s a s' e
        injection e with e; injection e with _ e
        subst e
        exact .of_eq rfl
      · split
        · exact .pure
        · exact .panic
        · refine .bind ?_ fun _ => .bind .left fun _ => .pure
          refine .bind .lift fun _ => .bind (.modify fun _ => rfl) fun _ => .bind .get fun s => ?_
          split
          · exact .bind (.each (snips_packageStep ih _) _) fun _ => .pure
          · exact .bind (.each (snips_packageStep ih _) _) fun _ => .bind (.modify fun _ => rfl) fun _ => .pure
    · refine .bind .lift fun _ => .bind .entered fun o => ?_
      split
      · exact .pure
      · exact .bind (.fold (snips_relationshipStep ih) _ _) fun _ => .bind (.modify fun _ => rfl) fun _ => .left

theorem snips_documentAt {g : Graph} {c : RCalls} (h : KeepSnips c) (n : RNode) : KeepsSnips (documentAt g c n) := by
  have m : ∀ {f : HDoc → HDoc}, KeepsSnips (modDocument f) := .modify fun _ => rfl
  refine .bind .lift fun _ => .bind m fun _ => .each (fun t => ?_) _
  unfold documentStep
  cases t.pred <;> first
    | exact .pure
    | exact .err
    | exact m
    | exact .bind .lift fun _ => m
    | exact .bind .license fun _ => m
    | exact .bind (h.package _) fun _ => m
    | exact .annotation
    | exact h.relationship _
    | skip
  refine .bind .get fun s => ?_
  split
  · exact .panic
  · exact .bind .lift fun _ => m

theorem snips_snippetStep {v : Version} {g : Graph} {c : RCalls} (h : KeepSnips c) (x : Snippet) (t : Triple) :
    KeepsSnips (snippetStep v g c x t) := by
  have hp : ∀ n, KeepsSnips (pointerAt g c n) := fun n => by
    refine .bind (.fold (fun a t => ?_) _ _) fun a => ?_
    · unfold pointerStep
      cases t.pred <;> first
        | exact .pure
        | exact .err
        | exact .ite .pure (.bind (h.file _) fun _ => .pure)
        | (simp only []; cases atoi t.object.id <;> first | exact .err | exact .pure)
    · cases a.1 <;> first | exact .err | exact .pure
  have hr : ∀ f n, KeepsSnips (rangeAt g c f n) := fun f n => by
    simp only [rangeAt]
    refine .ite .err ?_
    split
    · exact .bind (hp _) fun _ => by split <;> first | exact .err | exact .bind (hp _) fun _ => .ite .pure .err
    · exact .err
  unfold snippetStep
  cases t.pred <;> first
    | exact .pure
    | exact .err
    | exact .bind (h.file _) fun _ => .bind .lift fun _ => .pure
    | exact .bind (hr _ _) fun _ => .pure
    | exact .bind .license fun _ => .pure

end Verif
