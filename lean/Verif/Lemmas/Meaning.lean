import Verif.Lemmas.MeaningStep
import Verif.Lemmas.Injection

set_option linter.unusedSimpArgs false

/-!
# The document-level fields of a parsed document
-/

namespace Verif
open Spec

/-! ## Tags and their names -/

theorem tagTable_inj : ∀ e ∈ tagTable, ∀ e' ∈ tagTable, e.2 = e'.2 → e = e' := by decide +kernel

theorem ofStr_iff {name : Str} {x : Tag} (h : (name, x) ∈ tagTable) (hx : x ≠ .other) (ho : Tag.ofStr name = x) (t : Str) :
    Tag.ofStr t = x ↔ t = name := by
  constructor
  · intro ht
    have := tagTable_inj _ (tag_of_ofStr ht hx) _ h rfl
    simpa using this
  · rintro rfl; exact ho

/-! ## Changing the last element -/

theorem modLast_id {α : Type} (f : α → α) (hf : ∀ x, f x = x) (l : List α) : modLast f l = l := by
  induction l with
  | nil => rfl
  | cons a l ih =>
    cases l with
    | nil => simp [modLast, hf]
    | cons b l => simp only [modLast]; rw [ih]

/-- The index of the last element. -/
def lastIdx {α : Type} (l : List α) : Option Nat := if l.length = 0 then none else some (l.length - 1)

theorem modify_lastIdx {α : Type} {l : List α} {i : Nat} {f : α → α} (h : lastIdx l = some i) : l.modify i f = modLast f l := by
  unfold lastIdx at h
  split at h
  · simp at h
  · simp only [Option.some.injEq] at h
    subst h
    induction l with
    | nil => rfl
    | cons a l ih =>
      cases l with
      | nil => rfl
      | cons b l =>
        simp only [modLast, List.length_cons, Nat.add_sub_cancel]
        rw [List.modify_succ_cons]
        simp only [List.length_cons, Nat.add_sub_cancel] at ih
        rw [ih (by simp)]

theorem lastIdx_snoc {α : Type} (l : List α) (x : α) : lastIdx (l ++ [x]) = some l.length := by simp [lastIdx]

theorem lastIdx_modify {α : Type} (l : List α) (i : Nat) (f : α → α) : lastIdx (l.modify i f) = lastIdx l := by
  simp [lastIdx]

/-! ## Values and groups -/

theorem values_snoc (t : Str) (ps : List TVPair) (p : TVPair) :
    values t (ps ++ [p]) = values t ps ++ (if p.tag = t then [p.value] else []) := by
  unfold values
  split <;> rename_i h <;> simp [h]

theorem lastValue_snoc (t : Str) (ps : List TVPair) (p : TVPair) :
    lastValue t (ps ++ [p]) = if p.tag = t then p.value else lastValue t ps := by
  unfold lastValue
  rw [values_snoc]
  split <;> simp

theorem takeWhile_snoc {α : Type} (f : α → Bool) (l : List α) (x : α) :
    (l ++ [x]).takeWhile f = if l.all f then l ++ (if f x then [x] else []) else l.takeWhile f := by
  induction l with
  | nil => simp [List.takeWhile_cons]
  | cons a l ih =>
    simp only [List.cons_append, List.takeWhile_cons, List.all_cons]
    cases ha : f a <;> simp [ih]
    split <;> simp

theorem takeWhile_all {α : Type} {f : α → Bool} {l : List α} (h : ∀ x ∈ l, f x = true) : l.takeWhile f = l := by
  induction l with
  | nil => rfl
  | cons a l ih => simp [List.takeWhile_cons, h a (by simp), ih fun x hx => h x (by simp [hx])]

theorem groups_eq_nil {t : Str} {ps : List TVPair} : groups t ps = [] ↔ ∀ p ∈ ps, p.tag ≠ t := by
  induction ps with
  | nil => simp [groups]
  | cons p ps ih =>
    simp only [groups]
    split
    · rename_i h; simp [h]
    · rename_i h; simp [h, ih]

theorem modLast_cons {α : Type} {f : α → α} {x : α} {l : List α} (h : l ≠ []) : modLast f (x :: l) = x :: modLast f l := by
  cases l with
  | nil => exact absurd rfl h
  | cons y l => rfl

theorem groups_snoc (t : Str) (ps : List TVPair) (p : TVPair) :
    groups t (ps ++ [p]) = if p.tag = t then groups t ps ++ [(p.value, [])]
      else modLast (fun g => (g.1, g.2 ++ [p])) (groups t ps) := by
  induction ps with
  | nil => simp only [List.nil_append, groups]; split <;> simp [modLast]
  | cons q ps ih =>
    simp only [List.cons_append, groups]
    by_cases hq : q.tag = t
    · rw [if_pos hq, if_pos hq, ih, takeWhile_snoc]
      by_cases hall : ∀ p ∈ ps, p.tag ≠ t
      · have hn := groups_eq_nil.2 hall
        have ha : (ps.all fun q => decide (q.tag ≠ t)) = true := by simpa using hall
        rw [if_pos ha, hn]
        have htw : ps.takeWhile (fun q => decide (q.tag ≠ t)) = ps := by
          exact takeWhile_all (by simpa using hall)
        rw [htw]
        by_cases hp : p.tag = t <;> simp [hp, modLast]
      · have hn : groups t ps ≠ [] := fun h => hall (groups_eq_nil.1 h)
        have ha : ¬(ps.all fun q => decide (q.tag ≠ t)) = true := by simpa using hall
        rw [if_neg ha, modLast_cons hn]
        by_cases hp : p.tag = t <;> simp [hp]
    · rw [if_neg hq, if_neg hq, ih]

/-! ## Related lists -/

theorem Spec.Pointwise.snoc {α β : Type} {R : α → β → Prop} {l : List α} {m : List β} {a : α} {b : β} (h : Pointwise R l m)
    (hab : R a b) : Pointwise R (l ++ [a]) (m ++ [b]) := by
  induction h with
  | nil => exact .cons hab .nil
  | cons h1 _ ih => exact .cons h1 ih

theorem Spec.Pointwise.modLast {α β : Type} {R : α → β → Prop} {l : List α} {m : List β} {f : α → α} {g : β → β}
    (h : Pointwise R l m) (hfg : ∀ a b, R a b → R (f a) (g b)) : Pointwise R (modLast f l) (modLast g m) := by
  induction h with
  | nil => exact .nil
  | cons h1 h2 ih =>
    cases h2 with
    | nil => exact .cons (hfg _ _ h1) .nil
    | cons h3 h4 => exact .cons h1 ih

theorem Spec.Pointwise.same {α β : Type} {R : α → β → Prop} {l : List α} {m : List β} {f : α → α}
    (h : Pointwise R l m) (hfg : ∀ a b, R a b → R (f a) b) : Pointwise R (Verif.modLast f l) m := by
  have := h.modLast (f := f) (g := id) hfg
  rwa [modLast_id id (fun _ => rfl)] at this

/-! ## Values -/

theorem colonPair_of {value k x : Str} (h : extractSubs g!":" value = .ok (k, x)) : ColonPair value k x := by
  unfold extractSubs at h
  split at h
  · simp at h
  · rename_i a b hc
    simp only [Res.ok.injEq, Prod.mk.injEq] at h
    obtain ⟨rfl, rfl⟩ := h
    refine ⟨a, b, cut_eq hc, ?_, rfl, rfl⟩
    intro hm
    have := cut_first (by simp) hc
    rw [contains_single.2 hm] at this
    simp at this

theorem agentText_of {value k x : Str} (h : extractSubs g!":" value = .ok (k, x)) (hk : isAgentKind k = true) :
    AgentText value k x :=
  ⟨colonPair_of h, by simpa [isAgentKind, agentKinds, or_assoc] using hk⟩

theorem wordsOf_eq (value : Str) : wordsOf value = spaceItems value := by
  unfold wordsOf spaceItems
  congr 1
  funext w
  cases w <;> simp

theorem refReads_of {text : Str} {r : DocElementID} (h : extractDocElementID text = .ok r) : RefReads text r := by
  obtain ⟨h1, h2, h3, h4, h5⟩ := extractDocElementID_eq_ok.1 h
  refine ⟨⟨⟨h2, h3⟩, h4, h1⟩, ?_⟩
  by_cases hd : r.documentRefID = []
  · exact Or.inl ⟨hd, by rw [h5]; simp [renderDocElementID, h1, hd, spdxRefPrefix]⟩
  · exact Or.inr ⟨hd, by rw [h5]; simp [renderDocElementID, h1, hd, spdxRefPrefix, documentRefPrefix]⟩

theorem trimSpace_of_mem {value w : Str} (h : w ∈ spaceItems value) : trimSpace w = w := by
  unfold spaceItems at h
  simp only [List.mem_filter, List.mem_map] at h
  obtain ⟨⟨x, -, rfl⟩, -⟩ := h
  exact trim_trim _ x

theorem relationshipSays_of {v : Version} {value : Str} {r : Relationship} (h : parseRelationshipValue v value = .ok r) :
    RelationshipSays v (value, []) r := by
  unfold parseRelationshipValue at h
  split at h
  · rename_i a k b hi
    rw [bind_eq_ok] at h
    obtain ⟨x, hx, h⟩ := h
    rw [bind_eq_ok] at h
    obtain ⟨y, hy, h⟩ := h
    simp only [Res.ok.injEq] at h
    subst h
    have ta := trimSpace_of_mem (value := value) (w := a) (by simp [hi])
    have tk := trimSpace_of_mem (value := value) (w := k) (by simp [hi])
    have tb := trimSpace_of_mem (value := value) (w := b) (by simp [hi])
    rw [ta] at hx
    rw [tb] at hy
    refine ⟨⟨a, b, by simp [wordsOf_eq, hi, tk], refReads_of hx, ?_⟩, rfl⟩
    unfold extractDocElementSpecial at hy
    split at hy
    · rename_i hp
      simp only [Res.ok.injEq] at hy
      subst hy
      cases v <;> simp [permittedSpecial] at hp ⊢ <;> exact Or.inr hp
    · exact Or.inl (refReads_of hy)
  · simp at h

theorem edrSays_of {value : Str} {e : ExternalDocumentRef} (h : extractExternalDocumentReference value = .ok e) :
    ExternalDocumentSays value e := by
  have key : ∀ d u a c, edrTail d u a c = .ok e → e.documentRefID ≠ [] ∧ d = g!"DocumentRef-" ++ e.documentRefID ∧
      u = e.uri ∧ a = e.checksum.algorithm ∧ c = e.checksum.value := by
    intro d u a c h
    unfold edrTail at h
    split at h
    · simp at h
    · rename_i hp
      simp only at h
      split at h
      · simp at h
      · rename_i hd
        simp only [Res.ok.injEq] at h
        subst h
        refine ⟨hd, ?_, rfl, rfl, rfl⟩
        have hp' : hasPrefix documentRefPrefix d = true := by simpa using hp
        obtain ⟨r, rfl⟩ := hasPrefix_iff.1 hp'
        rw [trimPrefix_append]; rfl
  unfold extractExternalDocumentReference at h
  split at h
  · rename_i d u a c hi
    split at h
    · simp at h
    · rename_i hs
      obtain ⟨h1, h2, h3, h4, h5⟩ := key _ _ _ _ h
      refine ⟨h1, Or.inl ?_⟩
      have hs' : hasSuffix g!":" a = true := by simpa using hs
      obtain ⟨r, rfl⟩ := hasSuffix_iff.1 hs'
      rw [wordsOf_eq, hi, h2, h3, h5, ← h4, trimSuffix_append]
  · rename_i d u ac hi
    split at h
    · simp at h
    · rename_i a c hc
      obtain ⟨h1, h2, h3, h4, h5⟩ := key _ _ _ _ h
      refine ⟨h1, Or.inr ⟨?_, ?_⟩⟩
      · rw [← h4]
        intro hm
        have := cut_first (by simp) hc
        rw [contains_single.2 hm] at this
        simp at this
      · rw [wordsOf_eq, hi, cut_eq hc, h2, h3, ← h4, ← h5]
  · simp at h

end Verif
