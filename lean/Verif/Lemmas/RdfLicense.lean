import Verif.Lemmas.RdfDepth
import Verif.Lemmas.RdfPure
import Verif.Spec.RdfLicense
import Verif.Spec.SameDoc

/-!
# Single licenses in RDF
-/

namespace Verif
open RdfM Spec

theorem foldTriples_err {α : Type} {step : α → Triple → Res α} (hp : ∀ a t, step a t ≠ .panic) {t : Triple} :
    ∀ {ts : List Triple} (a : α), t ∈ ts → (∀ a, step a t = .err) → foldTriples step a ts = .err
  | [], _, h, _ => by simp at h
  | u :: ts, a, h, he => by
    unfold foldTriples
    rcases List.mem_cons.1 h with rfl | h
    · rw [he]; rfl
    · cases e : step a u with
      | ok b => exact foldTriples_err hp b h he
      | err => rfl
      | panic => exact absurd e (hp a u)

/-- The value of the last statement with a property, or what was there before. -/
def lastOr (d : Str) (p : Pred) (ts : List Triple) : Str := ((ts.filter fun t => t.pred = p).map (·.object.id)).getLastD d

theorem lastOr_cons (d : Str) (p : Pred) (t : Triple) (ts : List Triple) :
    lastOr d p (t :: ts) = lastOr (if t.pred = p then t.object.id else d) p ts := by
  unfold lastOr
  by_cases h : t.pred = p
  · simp only [List.filter_cons, h, decide_true, if_true, List.map_cons, List.getLastD_cons]
  · simp only [List.filter_cons, h, decide_false, if_false, Bool.false_eq_true]

theorem lastSaid_eq (g : Graph) (id : Str) (p : Pred) : lastSaid g id p = lastOr [] p (g.about id) := by
  unfold lastSaid lastOr Graph.about
  rw [List.filter_filter]
  congr 3; funext t
  rw [Bool.and_comm]

theorem rstated_iff (g : Graph) (id : Str) (t : Triple) : Stated g id t ↔ t ∈ g.about id := by
  simp [Stated, Graph.about]

theorem simpleFold_ok (g : Graph) : ∀ (ts : List Triple) (l : SimpleLic), (∀ t ∈ ts, Common g t) →
    foldTriples (simpleStep g.uriValid) l ts = .ok
      { comment := lastOr l.comment .comment ts, licenseID := lastOr l.licenseID .licenseId ts,
        name := lastOr l.name .name ts, example_ := lastOr l.example_ .example_ ts,
        seeAlso := l.seeAlso ++ (ts.filter fun t => t.pred = .seeAlso).map (·.object.id) }
  | [], l, _ => by simp [foldTriples, lastOr]
  | t :: ts, l, h => by
    have ih := fun l => simpleFold_ok g ts l fun u hu => h u (by simp [hu])
    have ht := h t (by simp)
    unfold foldTriples
    simp only [lastOr_cons]
    rcases ht with e | e | e | e | e | ⟨e, e'⟩ <;> simp [simpleStep, e, ih]
    · simp [e']

theorem simpleStep_err (g : Graph) (l : SimpleLic) (t : Triple) (h : ¬ Common g t) : simpleStep g.uriValid l t = .err := by
  unfold simpleStep
  cases e : t.pred <;> simp_all [Common]

theorem simpleOf_cases (g : Graph) (ts : List Triple) :
    ((∀ t ∈ ts, Common g t) ∧ ∃ l, simpleOf g.uriValid ts = .ok l ∧ l.licenseID = lastOr [] .licenseId ts) ∨
    ((¬ ∀ t ∈ ts, Common g t) ∧ simpleOf g.uriValid ts = .err) := by
  by_cases h : ∀ t ∈ ts, Common g t
  · exact .inl ⟨h, _, simpleFold_ok g ts {} h, rfl⟩
  · refine .inr ⟨h, ?_⟩
    simp only [Classical.not_forall] at h
    obtain ⟨t, ht, h⟩ := h
    exact foldTriples_err (simpleStep_ne_panic _) _ ht fun a => simpleStep_err g a t h

theorem plain_iff (g : Graph) (id : Str) : PlainLicense g id ↔ ∀ t ∈ g.about id, Common g t := by
  simp [PlainLicense, rstated_iff]

theorem simpleAt_cases (g : Graph) (n : RNode) :
    (PlainLicense g n.id ∧ ∃ l, simpleAt g n = .ok l ∧ l.licenseID = lastSaid g n.id .licenseId) ∨
    (¬ PlainLicense g n.id ∧ simpleAt g n = .err) := by
  rw [plain_iff, lastSaid_eq]; exact simpleOf_cases g _

/-! ## ListedInfo licenses -/

/-- A statement that only listed licenses have. -/
def ListedOnly (t : Triple) : Prop := t.pred = .licenseText ∨
  t.pred = .standardLicenseHeader ∨ t.pred = .standardLicenseTemplate ∨ t.pred = .standardLicenseHeaderTemplate ∨
  ((t.pred = .isOsiApproved ∨ t.pred = .isDeprecatedLicenseId ∨ t.pred = .isFsfLibre) ∧ IsBoolean t.object.id)

theorem boolOf_err (x : Str) (h : ¬ IsBoolean x) : boolOf x = .err := by
  simp only [IsBoolean, not_or] at h
  simp [boolOf, h]

theorem boolOf_ok (x : Str) (h : IsBoolean x) : ∃ b, boolOf x = .ok b := by
  unfold boolOf
  by_cases h1 : toLower x = g!"true"
  · exact ⟨true, if_pos h1⟩
  · rw [if_neg h1]
    rcases h with h | h
    · exact absurd h h1
    · exact ⟨false, if_pos h⟩

/-- What the first loop over the statements about a listed license yields. -/
def RestCases (g : Graph) (ts : List Triple) : Prop :=
  ((∀ t ∈ ts, Common g t ∨ ListedOnly t) ∧ ∃ rest, licenseRest ts = .ok rest ∧ (∀ t ∈ rest, Common g t) ∧
    ∀ d, lastOr d .licenseId rest = lastOr d .licenseId ts) ∨
  ((¬ ∀ t ∈ ts, Common g t ∨ ListedOnly t) ∧ (licenseRest ts = .err ∨ ∃ rest, licenseRest ts = .ok rest ∧ ∃ t ∈ rest, ¬ Common g t))

theorem RestCases.skip {g : Graph} {t : Triple} {ts : List Triple} (ih : RestCases g ts) (h1 : Common g t ∨ ListedOnly t)
    (h2 : licenseRest (t :: ts) = licenseRest ts) (h3 : t.pred ≠ .licenseId) : RestCases g (t :: ts) := by
  unfold RestCases
  rw [h2]
  rcases ih with ⟨ha, rest, e, hc, hl⟩ | ⟨ha, hb⟩
  · refine .inl ⟨?_, rest, e, hc, fun d => ?_⟩
    · intro u hu
      rcases List.mem_cons.1 hu with rfl | hu
      · exact h1
      · exact ha u hu
    · rw [hl, lastOr_cons, if_neg h3]
  · exact .inr ⟨fun h => ha fun u hu => h u (by simp [hu]), hb⟩

theorem RestCases.bool {g : Graph} {t : Triple} {ts : List Triple} (ih : RestCases g ts)
    (h1 : t.pred = .isOsiApproved ∨ t.pred = .isDeprecatedLicenseId ∨ t.pred = .isFsfLibre)
    (h2 : licenseRest (t :: ts) = (boolOf t.object.id >>= fun _ => licenseRest ts)) : RestCases g (t :: ts) := by
  by_cases hb : IsBoolean t.object.id
  · refine ih.skip (.inr (.inr (.inr (.inr (.inr ⟨h1, hb⟩))))) ?_ (by rcases h1 with e | e | e <;> rw [e] <;> simp)
    obtain ⟨b, e⟩ := boolOf_ok _ hb
    rw [h2, e]; rfl
  · refine .inr ⟨fun h => ?_, .inl ?_⟩
    · rcases h t (by simp) with h | h
      · rcases h1 with e | e | e <;> simp [Common, e] at h
      · rcases h1 with e | e | e <;> simp [ListedOnly, e, hb] at h
    · rw [h2, boolOf_err _ hb]; rfl

theorem RestCases.keep {g : Graph} {t : Triple} {ts : List Triple} (ih : RestCases g ts) (h1 : ¬ ListedOnly t)
    (h2 : licenseRest (t :: ts) = (licenseRest ts >>= fun rest => .ok (t :: rest))) : RestCases g (t :: ts) := by
  unfold RestCases
  rw [h2]
  rcases ih with ⟨ha, rest, e, hc, hl⟩ | ⟨ha, hb⟩
  · rw [e]
    by_cases hct : Common g t
    · refine .inl ⟨?_, t :: rest, rfl, ?_, fun d => ?_⟩
      · intro u hu
        rcases List.mem_cons.1 hu with rfl | hu
        · exact .inl hct
        · exact ha u hu
      · intro u hu
        rcases List.mem_cons.1 hu with rfl | hu
        · exact hct
        · exact hc u hu
      · rw [lastOr_cons, lastOr_cons, hl]
    · exact .inr ⟨fun h => by rcases h t (by simp) with h | h <;> contradiction, .inr ⟨t :: rest, rfl, t, by simp, hct⟩⟩
  · refine .inr ⟨fun h => ha fun u hu => h u (by simp [hu]), ?_⟩
    rcases hb with e | ⟨rest, e, u, hu, hn⟩
    · rw [e]; exact .inl rfl
    · rw [e]; exact .inr ⟨_, rfl, u, by simp [hu], hn⟩

theorem licenseRest_cases (g : Graph) : ∀ ts : List Triple, RestCases g ts
  | [] => .inl ⟨by simp, [], rfl, by simp, fun _ => rfl⟩
  | t :: ts => by
    have ih := licenseRest_cases g ts
    have e0 : licenseRest (t :: ts) = licenseRest (t :: ts) := rfl
    conv at e0 => rhs; unfold licenseRest
    cases e : t.pred <;> rw [e] at e0 <;> first
      | exact ih.bool (by simp [e]) e0
      | exact ih.skip (.inr (by simp [ListedOnly, e])) e0 (by simp [e])
      | exact ih.keep (by simp [ListedOnly, e]) e0

theorem licenseAt_cases (g : Graph) (n : RNode) :
    (ListedInfo g n.id ∧ ∃ l, licenseAt g n = .ok l ∧ l.licenseID = lastSaid g n.id .licenseId) ∨
    (¬ ListedInfo g n.id ∧ licenseAt g n = .err) := by
  have hl : ListedInfo g n.id ↔ ∀ t ∈ g.about n.id, Common g t ∨ ListedOnly t := by
    simp only [ListedInfo, rstated_iff, ListedOnly]
  rw [hl, lastSaid_eq]
  unfold licenseAt
  rcases licenseRest_cases g (g.about n.id) with ⟨h, rest, e, hc, hl⟩ | ⟨h, e | ⟨rest, e, t, ht, hn⟩⟩
  · refine .inl ⟨h, ?_⟩
    rcases simpleOf_cases g rest with ⟨_, l, e', hl'⟩ | ⟨h', _⟩
    · exact ⟨l, by rw [e]; exact e', by rw [hl', hl]⟩
    · exact absurd hc h'
  · exact .inr ⟨h, by rw [e]; rfl⟩
  · refine .inr ⟨h, ?_⟩
    rcases simpleOf_cases g rest with ⟨h', _⟩ | ⟨_, e'⟩
    · exact absurd (h' t ht) hn
    · rw [e]; exact e'

/-! ## Extracted licenses -/

theorem extractedAt_cases (g : Graph) (n : RNode) :
    (Extracted g n.id ∧ ∃ e, extractedAt g n = .ok e ∧ e.1.licenseID = lastSaid g n.id .licenseId) ∨
    (¬ Extracted g n.id ∧ extractedAt g n = .err) := by
  have hl : Extracted g n.id ↔ ∀ t ∈ (g.about n.id).filter (fun t => t.pred ≠ .extractedText), Common g t := by
    simp only [Extracted, rstated_iff, List.mem_filter, decide_eq_true_eq]
    constructor
    · intro h t ⟨ht, hne⟩; exact (h t ht).resolve_right hne
    · intro h t ht
      by_cases hne : t.pred = .extractedText
      · exact .inr hne
      · exact .inl (h t ⟨ht, hne⟩)
  have hs : lastSaid g n.id .licenseId = lastOr [] .licenseId ((g.about n.id).filter (fun t => t.pred ≠ .extractedText)) := by
    rw [lastSaid_eq]
    unfold lastOr
    rw [List.filter_filter]
    congr 3; funext t
    by_cases h : t.pred = .licenseId <;> simp [h]
  rw [hl, hs]
  unfold extractedAt
  rcases simpleOf_cases g ((g.about n.id).filter (fun t => t.pred ≠ .extractedText)) with ⟨h, l, e, hl⟩ | ⟨h, e⟩
  · exact .inl ⟨h, (l, _), by dsimp only; rw [e]; rfl, hl⟩
  · exact .inr ⟨h, by dsimp only; rw [e]; rfl⟩

/-! ## Exceptions -/

theorem exceptionStep_ok (g : Graph) (id : Str) (t : Triple)
    (h : t.pred = .type_ ∨ t.pred = .licenseExceptionId ∨ t.pred = .licenseExceptionText ∨ t.pred = .name ∨
      t.pred = .example_ ∨ t.pred = .comment ∨ (t.pred = .seeAlso ∧ g.uriValid t.object.id = true)) :
    ∃ id', exceptionStep g.uriValid id t = .ok id' := by
  unfold exceptionStep
  rcases h with e | e | e | e | e | e | ⟨e, e'⟩ <;> rw [e] <;> first | exact ⟨_, rfl⟩ | exact ⟨_, if_pos e'⟩

theorem exceptionStep_ne_panic (u : Str → Bool) (id : Str) (t : Triple) : exceptionStep u id t ≠ .panic := by
  unfold exceptionStep
  cases t.pred <;> simp <;> split <;> simp

theorem foldTriples_ok {α : Type} {step : α → Triple → Res α} : ∀ {ts : List Triple} (a : α),
    (∀ t ∈ ts, ∀ a, ∃ b, step a t = .ok b) → ∃ b, foldTriples step a ts = .ok b
  | [], a, _ => ⟨a, rfl⟩
  | t :: ts, a, h => by
    obtain ⟨b, e⟩ := h t (by simp) a
    obtain ⟨c, e'⟩ := foldTriples_ok (ts := ts) b fun u hu => h u (by simp [hu])
    exact ⟨c, by unfold foldTriples; rw [e]; exact e'⟩

theorem exceptionAt_cases (g : Graph) (n : RNode) :
    (Exception g n.id ∧ ∃ e, exceptionAt g n = .ok e) ∨ (¬ Exception g n.id ∧ exceptionAt g n = .err) := by
  by_cases h : Exception g n.id
  · exact .inl ⟨h, foldTriples_ok _ fun t ht a => exceptionStep_ok g a t (h t ((rstated_iff _ _ _).2 ht))⟩
  · refine .inr ⟨h, ?_⟩
    simp only [Exception, Classical.not_forall] at h
    obtain ⟨t, ht, h⟩ := h
    refine foldTriples_err (exceptionStep_ne_panic _) _ ((rstated_iff _ _ _).1 ht) fun a => ?_
    unfold exceptionStep
    cases e : t.pred <;> simp_all

theorem withStep_ne_panic (g : Graph) (a : Bool × SimpleLic × Str) (t : Triple) : withStep g a t ≠ .panic := by
  unfold withStep
  cases t.pred <;> first
    | simp; done
    | exact Res.bind_ne_panic (exceptionAt_ne_panic _ _) fun _ => by simp
    | (simp only []
       split
       · simp
       · exact Res.bind_ne_panic (simpleAt_ne_panic _ _) fun _ => by simp)

/-- A statement about a license with exceptions. -/
def WithOk (g : Graph) (t : Triple) : Prop :=
  t.pred = .type_ ∨ t.pred = .member ∨ (t.pred = .licenseException ∧ Exception g t.object.id)

theorem withFold_true (g : Graph) : ∀ (ts : List Triple) (l : SimpleLic) (x : Str), (∀ t ∈ ts, WithOk g t) →
    ((∀ t ∈ ts, t.pred ≠ .member) → ∃ y, foldTriples (withStep g) (true, l, x) ts = .ok (true, l, y)) ∧
    ((∃ t ∈ ts, t.pred = .member) → foldTriples (withStep g) (true, l, x) ts = .err)
  | [], l, x, _ => ⟨fun _ => ⟨x, rfl⟩, by simp⟩
  | t :: ts, l, x, h => by
    have ih := fun y => withFold_true g ts l y fun u hu => h u (by simp [hu])
    unfold foldTriples
    rcases h t (by simp) with e | e | ⟨e, e'⟩
    · simp only [withStep, e, Res.bind_ok]
      refine ⟨fun hm => (ih x).1 fun u hu => hm u (by simp [hu]), fun ⟨u, hu, hm⟩ => (ih x).2 ?_⟩
      rcases List.mem_cons.1 hu with rfl | hu
      · rw [e] at hm; simp at hm
      · exact ⟨u, hu, hm⟩
    · refine ⟨fun hm => absurd e (hm t (by simp)), fun _ => ?_⟩
      simp [withStep, e]
    · rcases exceptionAt_cases g t.object with ⟨_, y, e''⟩ | ⟨h', _⟩
      · simp only [withStep, e, e'', Res.bind_ok]
        refine ⟨fun hm => (ih y).1 fun u hu => hm u (by simp [hu]), fun ⟨u, hu, hm⟩ => (ih y).2 ?_⟩
        rcases List.mem_cons.1 hu with rfl | hu
        · rw [e] at hm; simp at hm
        · exact ⟨u, hu, hm⟩
      · exact absurd e' h'

theorem withFold_false (g : Graph) : ∀ (ts : List Triple) (x : Str), (∀ t ∈ ts, WithOk g t) →
    (ts.filter (fun t => t.pred = .member) = [] ∧ ∃ y, foldTriples (withStep g) (false, {}, x) ts = .ok (false, {}, y)) ∨
    (∃ m, ts.filter (fun t => t.pred = .member) = [m] ∧ PlainLicense g m.object.id ∧
      ∃ l y, foldTriples (withStep g) (false, {}, x) ts = .ok (true, l, y) ∧ l.licenseID = lastSaid g m.object.id .licenseId) ∨
    ((∀ m, ts.filter (fun t => t.pred = .member) = [m] → ¬ PlainLicense g m.object.id) ∧
      ts.filter (fun t => t.pred = .member) ≠ [] ∧ foldTriples (withStep g) (false, {}, x) ts = .err)
  | [], x, _ => .inl ⟨rfl, x, rfl⟩
  | t :: ts, x, h => by
    have hts : ∀ u ∈ ts, WithOk g u := fun u hu => h u (by simp [hu])
    have ih := fun y => withFold_false g ts y hts
    unfold foldTriples
    rcases h t (by simp) with e | e | ⟨e, e'⟩
    · have hf : (t :: ts).filter (fun t => t.pred = .member) = ts.filter (fun t => t.pred = .member) := by
        simp [e]
      rw [hf]
      simp only [withStep, e, Res.bind_ok]; exact ih x
    · have hf : (t :: ts).filter (fun t => t.pred = .member) = t :: ts.filter (fun t => t.pred = .member) := by
        simp [e]
      rw [hf]
      simp only [withStep, e, Bool.false_eq_true, if_false]
      rcases simpleAt_cases g t.object with ⟨hp, l, e', hl⟩ | ⟨hp, e'⟩
      · simp only [e', Res.bind_ok]
        by_cases hm : ∀ u ∈ ts, u.pred ≠ .member
        · obtain ⟨y, e''⟩ := (withFold_true g ts l x hts).1 hm
          have : ts.filter (fun t => t.pred = .member) = [] := by
            simp only [List.filter_eq_nil_iff, decide_eq_true_eq]; exact hm
          exact .inr (.inl ⟨t, by rw [this], hp, l, y, e'', hl⟩)
        · have hm' : ∃ u ∈ ts, u.pred = .member := by
            simp only [Classical.not_forall, Classical.not_not] at hm
            obtain ⟨u, hu, hm⟩ := hm; exact ⟨u, hu, hm⟩
          refine .inr (.inr ⟨fun m hm2 => ?_, by simp, (withFold_true g ts l x hts).2 hm'⟩)
          obtain ⟨u, hu, he⟩ := hm'
          have : u ∈ ts.filter (fun t => t.pred = .member) := List.mem_filter.2 ⟨hu, by simp [he]⟩
          simp only [List.cons.injEq] at hm2
          rw [hm2.2] at this; simp at this
      · refine .inr (.inr ⟨fun m hm => ?_, by simp, by rw [e']; rfl⟩)
        simp only [List.cons.injEq] at hm
        rw [← hm.1]; exact hp
    · have hf : (t :: ts).filter (fun t => t.pred = .member) = ts.filter (fun t => t.pred = .member) := by
        simp [e]
      rw [hf]
      rcases exceptionAt_cases g t.object with ⟨_, y, e''⟩ | ⟨h', _⟩
      · simp only [withStep, e, e'', Res.bind_ok]; exact ih y
      · exact absurd e' h'

theorem withFold_err (g : Graph) (ts : List Triple) (a : Bool × SimpleLic × Str) (h : ¬ ∀ t ∈ ts, WithOk g t) :
    foldTriples (withStep g) a ts = .err := by
  simp only [Classical.not_forall] at h
  obtain ⟨t, ht, h⟩ := h
  refine foldTriples_err (withStep_ne_panic g) _ ht fun a => ?_
  unfold withStep
  cases e : t.pred <;> first
    | (simp [WithOk, e] at h; done)
    | rfl
    | (simp only [WithOk, e] at h
       rcases exceptionAt_cases g t.object with ⟨hx, _⟩ | ⟨_, e'⟩
       · simp [hx] at h
       · rw [e']; rfl)

/-! ## The tree of a license -/

mutual
/-- The tree of a license. -/
def License.tree : License → Lic
  | .simple l => .named l.licenseID
  | .extracted l _ => .named l.licenseID
  | .license l => .named l.licenseID
  | .orLater l => .named l.licenseID
  | .withException l _ => .named l.licenseID
  | .special v => .named v
  | .conjunctive ms => .all (License.trees ms)
  | .disjunctive ms => .any (License.trees ms)
def License.trees : List License → List Lic
  | [] => []
  | m :: ms => m.tree :: License.trees ms
end

mutual
theorem License.tree_text : ∀ l : License, l.tree.text = l.text
  | .simple l => rfl
  | .extracted l _ => rfl
  | .license l => rfl
  | .orLater l => rfl
  | .withException l _ => rfl
  | .special v => rfl
  | .conjunctive ms => by simp only [License.tree, Lic.text, License.text, License.trees_texts ms]
  | .disjunctive ms => by simp only [License.tree, Lic.text, License.text, License.trees_texts ms]
theorem License.trees_texts : ∀ l : List License, Lic.texts (License.trees l) = License.texts l
  | [] => rfl
  | m :: ms => by simp only [License.trees, Lic.texts, License.texts, License.tree_text m, License.trees_texts ms]
end

theorem License.trees_append (a b : List License) : License.trees (a ++ b) = License.trees a ++ License.trees b := by
  induction a with
  | nil => rfl
  | cons x a ih => simp [License.trees, ih]

/-! ## One node -/

theorem typeTriples_about (g : Graph) (id : Str) :
    typeTriples (g.about id) id = g.triples.filter (fun t => t.subject.id = id && t.pred = .type_) := by
  unfold typeTriples Graph.about
  rw [List.filter_filter]
  congr 1; funext t
  by_cases h : t.subject.id = id <;> simp [h]

theorem Spec.ClassOf.classType {g : Graph} {n : RNode} {c : Cls} (h : ClassOf g n.id c) :
    ∃ ty, nodeType (g.about n.id) n = .ok ty ∧ Cls.ofStr ty = c ∧ g.about n.id ≠ [] := by
  obtain ⟨t, h, hc⟩ := h
  refine ⟨t.object.id, ?_, hc, ?_⟩
  · unfold nodeType
    rw [typeTriples_about, h]
  · intro e
    rw [← typeTriples_about, e] at h
    simp [typeTriples] at h

theorem classOf_of {g : Graph} {n : RNode} {ty : Str} (h : nodeType (g.about n.id) n = .ok ty) :
    ClassOf g n.id (Cls.ofStr ty) := by
  unfold nodeType at h
  rw [typeTriples_about] at h
  split at h
  · rename_i t e; injection h with h; exact ⟨t, e, by rw [h]⟩
  · simp at h

theorem Spec.ClassOf.unique {g : Graph} {id : Str} {c c' : Cls} (h : ClassOf g id c) (h' : ClassOf g id c') : c = c' := by
  obtain ⟨t, h, hc⟩ := h
  obtain ⟨t', h', hc'⟩ := h'
  rw [h] at h'
  injection h' with e
  rw [← hc, ← hc', e]

theorem Spec.ClassOf.body {g : Graph} {n : RNode} {c : Cls} (h : ClassOf g n.id c) (r : RNode → RdfM License) :
    licenseBody g r n = match (generalizing := false) c with
    | .disjunctiveLicenseSet => do
      let ms ← fold (memberStep r false) [] (g.of n)
      pure (.disjunctive ms)
    | .conjunctiveLicenseSet => do
      let ms ← fold (memberStep r true) [] (g.of n)
      pure (.conjunctive ms)
    | .extractedLicensingInfo => do
      let e ← lift (extractedAt g n)
      pure (.extracted e.1 e.2)
    | .listedLicense | .license => do
      let l ← lift (licenseAt g n)
      pure (.license l)
    | .withExceptionOperator => lift (withExceptionAt g n)
    | .orLaterOperator => lift (orLaterAt g n)
    | .simpleLicensingInfo => do
      let l ← lift (simpleAt g n)
      pure (.simple l)
    | _ => err := by
  obtain ⟨ty, e, rfl, hne⟩ := h.classType
  unfold licenseBody
  rw [if_neg hne, e]
  change (match Cls.ofStr ty with
    | .disjunctiveLicenseSet => _ | .conjunctiveLicenseSet => _ | .extractedLicensingInfo => _ | .listedLicense => _
    | .license => _ | .withExceptionOperator => _ | .orLaterOperator => _ | .simpleLicensingInfo => _ | _ => _) = _
  clear h
  cases Cls.ofStr ty <;> rfl

theorem special_cases (uri : Str) :
    (∃ id, SpecialName uri id ∧ specialOf uri = .ok (.special id)) ∨ ((∀ id, ¬ SpecialName uri id) ∧ specialOf uri = .err) := by
  simp only [specialOf]
  by_cases h1 : trimSpace uri = spdxNoneCaps ∨ trimSpace uri = spdxNoneSmall
  · rw [if_pos h1]; exact .inl ⟨_, .inl ⟨h1, rfl⟩, rfl⟩
  · rw [if_neg h1]
    by_cases h2 : trimSpace uri = spdxNoassertionSmall ∨ trimSpace uri = spdxNoassertionCaps
    · rw [if_pos h2]; exact .inl ⟨_, .inr (.inl ⟨h2.symm, rfl⟩), rfl⟩
    · rw [if_neg h2]
      have h1' := not_or.1 h1
      have h2' := not_or.1 h2
      by_cases h3 : allStandardLicenseIDs.contains (lastPart (trimSpace uri)) = true
      · rw [if_pos h3]
        exact .inl ⟨_, .inr (.inr ⟨h1'.1, h1'.2, h2'.2, h2'.1, rfl, by simpa using h3⟩), rfl⟩
      · rw [if_neg h3]
        refine .inr ⟨fun id h => ?_, rfl⟩
        rcases h with ⟨h, _⟩ | ⟨h, _⟩ | ⟨_, _, _, _, rfl, h⟩
        · exact h1 h
        · exact h2 h.symm
        · exact h3 (by simpa using h)

theorem special_unique {uri id id' : Str} (h : SpecialName uri id) (h' : specialOf uri = .ok (.special id')) : id = id' := by
  simp only [specialOf] at h'
  have n1 : spdxNoneCaps ≠ spdxNoassertionCaps := by decide
  have n2 : spdxNoneCaps ≠ spdxNoassertionSmall := by decide
  have n3 : spdxNoneSmall ≠ spdxNoassertionCaps := by decide
  have n4 : spdxNoneSmall ≠ spdxNoassertionSmall := by decide
  rcases h with ⟨h, rfl⟩ | ⟨h, rfl⟩ | ⟨a, b, c, d, rfl, h⟩
  · rw [if_pos h] at h'; injection h' with h'; injection h'
  · rw [if_neg, if_pos h.symm] at h'
    · injection h' with h'; injection h'
    · rcases h with h | h <;> rw [h] <;> simp [n1.symm, n2.symm, n3.symm, n4.symm]
  · rw [if_neg (by simp [a, b]), if_neg (by simp [c, d]), if_pos (by simpa using h)] at h'
    injection h' with h'; injection h'

theorem about_nil {g : Graph} {id : Str} : g.about id = [] ↔ ∀ t, ¬ Stated g id t := by
  simp [rstated_iff, List.eq_nil_iff_forall_not_mem]

theorem member_filter (g : Graph) (id : Str) :
    g.triples.filter (fun t => t.subject.id = id && t.pred = .member) = (g.about id).filter (fun t => t.pred = .member) := by
  unfold Graph.about
  rw [List.filter_filter]
  congr 1; funext t
  rw [Bool.and_comm]

theorem with_cases (g : Graph) (n : RNode) (hc : ClassOf g n.id .withExceptionOperator) :
    (∃ l, withExceptionAt g n = .ok l ∧ ∃ x, Named g n x ∧ l.tree = .named x) ∨ withExceptionAt g n = .err := by
  unfold withExceptionAt
  by_cases h : ∀ t ∈ g.about n.id, WithOk g t
  · rcases withFold_false g (g.about n.id) [] h with ⟨hm, y, e⟩ | ⟨m, hm, hp, l, y, e, hl⟩ | ⟨_, _, e⟩
    · refine .inl ⟨_, by rw [e]; rfl, [], .exceptionAlone hc fun t ht => ?_, rfl⟩
      have ht := (rstated_iff _ _ _).1 ht
      rcases h t ht with e | e | e
      · exact .inl e
      · simp only [List.filter_eq_nil_iff, decide_eq_true_eq] at hm
        exact absurd e (hm t ht)
      · exact .inr e
    · refine .inl ⟨_, by rw [e]; rfl, _, .withException hc (fun t ht => h t ((rstated_iff _ _ _).1 ht)) (m := m) ?_ hp, ?_⟩
      · rw [member_filter]; exact hm
      · simp only [License.tree, hl]
    · exact .inr (by rw [e]; rfl)
  · exact .inr (by rw [withFold_err g _ _ h]; rfl)

theorem orLaterFold_two (g : Graph) (t m : Triple) (ht : t.pred = .type_) (hm : m.pred = .member) :
    foldTriples (orLaterStep g) {} [t, m] = simpleAt g m.object ∧ foldTriples (orLaterStep g) {} [m, t] = simpleAt g m.object := by
  constructor
  · simp only [foldTriples, orLaterStep, ht, hm, Res.bind_ok]
    cases simpleAt g m.object <;> rfl
  · simp only [foldTriples, orLaterStep, ht, hm]
    cases simpleAt g m.object <;> rfl

theorem orLater_cases (g : Graph) (n : RNode) (hc : ClassOf g n.id .orLaterOperator) :
    (∃ l, orLaterAt g n = .ok l ∧ ∃ x, Named g n x ∧ l.tree = .named x) ∨ orLaterAt g n = .err := by
  unfold orLaterAt
  by_cases hl : (g.about n.id).length = 2
  · rw [if_neg (by simp [hl])]
    have hty : ∃ t, (g.about n.id).filter (fun t => t.pred = .type_) = [t] := by
      obtain ⟨t, h, _⟩ := hc
      refine ⟨t, ?_⟩
      rw [← h]; unfold Graph.about
      rw [List.filter_filter]
      congr 1; funext t
      rw [Bool.and_comm]
    have hab : g.about n.id = g.triples.filter (fun t => t.subject.id = n.id) := rfl
    match hm : g.about n.id, hl with
    | [a, b], _ =>
      rw [hm] at hty
      rw [hab] at hm
      obtain ⟨t, hty⟩ := hty
      by_cases ha : a.pred = .type_
      · have hb : b.pred ≠ .type_ := fun hb => by simp [ha, hb] at hty
        by_cases hb' : b.pred = .member
        · rw [(orLaterFold_two g a b ha hb').1]
          rcases simpleAt_cases g b.object with ⟨hp, l, e, hl⟩ | ⟨_, e⟩
          · exact .inl ⟨_, by rw [e]; rfl, _, .orLater hc (.inl hm) ha hb' hp, by simp only [License.tree, hl]⟩
          · exact .inr (by rw [e]; rfl)
        · refine .inr ?_
          have e : orLaterStep g {} b = .err := by
            unfold orLaterStep; cases e : b.pred <;> simp_all
          have e' : orLaterStep g {} a = .ok {} := by simp [orLaterStep, ha]
          simp [foldTriples, e, e']
      · have hb : b.pred = .type_ := by
          apply Classical.byContradiction; intro hb
          simp [ha, hb] at hty
        by_cases ha' : a.pred = .member
        · rw [(orLaterFold_two g b a hb ha').2]
          rcases simpleAt_cases g a.object with ⟨hp, l, e, hl⟩ | ⟨_, e⟩
          · exact .inl ⟨_, by rw [e]; rfl, _, .orLater hc (.inr hm) hb ha' hp, by simp only [License.tree, hl]⟩
          · exact .inr (by rw [e]; rfl)
        · refine .inr ?_
          have e : orLaterStep g {} a = .err := by
            unfold orLaterStep; cases e : a.pred <;> simp_all
          unfold foldTriples
          rw [e]; rfl
  · exact .inr (if_pos hl)

/-- A node that is not a set is a named license or an error. -/
theorem body_cases (g : Graph) (n : RNode) :
    ClassOf g n.id .conjunctiveLicenseSet ∨ ClassOf g n.id .disjunctiveLicenseSet ∨
    (∃ l x, (∀ r, licenseBody g r n = pure l) ∧ Named g n x ∧ l.tree = .named x) ∨ (∀ r, licenseBody g r n = err) := by
  by_cases hn : g.about n.id = []
  · rcases special_cases n.id with ⟨id, h, e⟩ | ⟨_, e⟩
    · refine .inr (.inr (.inl ⟨.special id, id, fun r => ?_, .special (about_nil.1 hn) h, rfl⟩))
      unfold licenseBody; rw [if_pos hn, e]; rfl
    · refine .inr (.inr (.inr fun r => ?_))
      unfold licenseBody; rw [if_pos hn, e]; rfl
  · cases hty : nodeType (g.about n.id) n with
    | err => exact .inr (.inr (.inr fun r => by unfold licenseBody; rw [if_neg hn, hty]; rfl))
    | panic => exact absurd hty (nodeType_ne_panic _ _)
    | ok ty =>
      have hc := classOf_of hty
      generalize Cls.ofStr ty = c at hc
      cases c <;> first
        | exact .inl hc
        | exact .inr (.inl hc)
        | exact .inr (.inr (.inr fun r => hc.body r))
        | (rcases extractedAt_cases g n with ⟨h, e, he, hl⟩ | ⟨_, he⟩
           · exact .inr (.inr (.inl ⟨_, _, fun r => (hc.body r).trans (by simp only [he]; rfl), .extracted hc h, by simp only [License.tree, hl]⟩))
           · exact .inr (.inr (.inr fun r => (hc.body r).trans (by simp only [he]; rfl))))
        | (rcases licenseAt_cases g n with ⟨h, e, he, hl⟩ | ⟨_, he⟩
           · refine .inr (.inr (.inl ⟨_, _, fun r => (hc.body r).trans (by simp only [he]; rfl), ?_, by simp only [License.tree, hl]; rfl⟩))
             first | exact .listed hc h | exact .license hc h
           · exact .inr (.inr (.inr fun r => (hc.body r).trans (by simp only [he]; rfl))))
        | (rcases simpleAt_cases g n with ⟨h, e, he, hl⟩ | ⟨_, he⟩
           · exact .inr (.inr (.inl ⟨_, _, fun r => (hc.body r).trans (by simp only [he]; rfl), .simple hc h, by simp only [License.tree, hl]⟩))
           · exact .inr (.inr (.inr fun r => (hc.body r).trans (by simp only [he]; rfl))))
        | (rcases with_cases g n hc with ⟨l, he, x, hx, hl⟩ | he
           · exact .inr (.inr (.inl ⟨_, _, fun r => (hc.body r).trans (by simp only [he]; rfl), hx, hl⟩))
           · exact .inr (.inr (.inr fun r => (hc.body r).trans (by simp only [he]; rfl))))
        | (rcases orLater_cases g n hc with ⟨l, he, x, hx, hl⟩ | he
           · exact .inr (.inr (.inl ⟨_, _, fun r => (hc.body r).trans (by simp only [he]; rfl), hx, hl⟩))
           · exact .inr (.inr (.inr fun r => (hc.body r).trans (by simp only [he]; rfl))))

theorem named_body {g : Graph} {n : RNode} {x : Str} (h : Named g n x) :
    ∃ l, (∀ r, licenseBody g r n = pure l) ∧ l.tree = .named x := by
  cases h with
  | special hn hs =>
    rcases special_cases n.id with ⟨id, _, e⟩ | ⟨h, _⟩
    · refine ⟨.special id, fun r => ?_, ?_⟩
      · unfold licenseBody; rw [if_pos (about_nil.2 hn), e]; rfl
      · rw [special_unique hs e]; rfl
    · exact absurd hs (h _)
  | simple hc h =>
    rcases simpleAt_cases g n with ⟨_, e, he, hl⟩ | ⟨h', _⟩
    · exact ⟨_, fun r => (hc.body r).trans (by simp only [he]; rfl), by simp only [License.tree, hl]⟩
    · exact absurd h h'
  | extracted hc h =>
    rcases extractedAt_cases g n with ⟨_, e, he, hl⟩ | ⟨h', _⟩
    · exact ⟨_, fun r => (hc.body r).trans (by simp only [he]; rfl), by simp only [License.tree, hl]⟩
    · exact absurd h h'
  | listed hc h =>
    rcases licenseAt_cases g n with ⟨_, e, he, hl⟩ | ⟨h', _⟩
    · exact ⟨.license e, fun r => (hc.body r).trans (by simp only [he]; rfl), by simp only [License.tree, hl]⟩
    · exact absurd h h'
  | license hc h =>
    rcases licenseAt_cases g n with ⟨_, e, he, hl⟩ | ⟨h', _⟩
    · exact ⟨.license e, fun r => (hc.body r).trans (by simp only [he]; rfl), by simp only [License.tree, hl]⟩
    · exact absurd h h'
  | @orLater t m hc hf ht hm hp =>
    rcases simpleAt_cases g m.object with ⟨_, l, he, hl⟩ | ⟨h', _⟩
    · refine ⟨.orLater l, fun r => (hc.body r).trans ?_, by simp only [License.tree, hl]⟩
      have : orLaterAt g n = .ok (.orLater l) := by
        unfold orLaterAt
        rcases hf with hf | hf <;> change g.about n.id = _ at hf <;> rw [hf]
        · simp only [List.length_cons, List.length_nil, ne_eq, not_true_eq_false, if_false, (orLaterFold_two g t m ht hm).1, he]; rfl
        · simp only [List.length_cons, List.length_nil, ne_eq, not_true_eq_false, if_false, (orLaterFold_two g t m ht hm).2, he]; rfl
      simp only [this]; rfl
    · exact absurd hp h'
  | @withException m hc h hm hp =>
    rw [member_filter] at hm
    have hw : ∀ t ∈ g.about n.id, WithOk g t := fun t ht => h t ((rstated_iff _ _ _).2 ht)
    rcases withFold_false g (g.about n.id) [] hw with ⟨hm', _⟩ | ⟨m', hm', _, l, y, e, hl⟩ | ⟨h', _⟩
    · rw [hm] at hm'; simp at hm'
    · rw [hm] at hm'; injection hm' with hm'; subst hm'
      refine ⟨.withException l y, fun r => (hc.body r).trans ?_, by simp only [License.tree, hl]⟩
      have : withExceptionAt g n = .ok (.withException l y) := by unfold withExceptionAt; rw [e]; rfl
      simp only [this]; rfl
    · exact absurd hp (h' m hm)
  | exceptionAlone hc h =>
    have hw : ∀ t ∈ g.about n.id, WithOk g t := fun t ht => (h t ((rstated_iff _ _ _).2 ht)).elim .inl fun h => .inr (.inr h)
    have hm : (g.about n.id).filter (fun t => t.pred = .member) = [] := by
      simp only [List.filter_eq_nil_iff, decide_eq_true_eq]
      intro t ht e
      rcases h t ((rstated_iff _ _ _).2 ht) with h | ⟨h, _⟩ <;> simp [h] at e
    rcases withFold_false g (g.about n.id) [] hw with ⟨hm', y, e⟩ | ⟨m', hm', _⟩ | ⟨_, hm', _⟩
    · refine ⟨.withException {} y, fun r => (hc.body r).trans ?_, rfl⟩
      have : withExceptionAt g n = .ok (.withException {} y) := by unfold withExceptionAt; rw [e]; rfl
      simp only [this]; rfl
    · rw [hm] at hm'; simp at hm'
    · exact absurd hm hm'

/-! ## Trees -/

theorem membersOf_eq (g : Graph) (n : RNode) : membersOf g n = ((g.of n).filter fun t => t.pred = .member).map (·.object) := by
  unfold membersOf Graph.of
  rw [List.filter_filter]
  congr 2; funext t
  rw [Bool.and_comm]

theorem opening_eq : opening = addGrey := rfl

/-- The license is read only if it is described, and the nodes being read are the same afterwards. -/
theorem sound_fold (g : Graph) (G : Str → Bool) (r : RNode → RdfM License) (strict : Bool)
    (hr : ∀ m, RTrip True True (fun s => s.grey = G) (r m) fun l s => Describes g G m l.tree ∧ s.grey = G) :
    ∀ (ts : List Triple) (ms : List License), RTrip True True (fun s => s.grey = G) (fold (memberStep r strict) ms ts)
      fun ls s => (∃ ls', ls = ms ++ ls' ∧ DescribeAll g G ((ts.filter fun t => t.pred = .member).map (·.object)) (License.trees ls')) ∧
        (strict = true → ∀ t ∈ ts, t.pred = .type_ ∨ t.pred = .member) ∧ s.grey = G
  | [], ms => RTrip.pure fun _ h => ⟨⟨[], by simp, .nil⟩, by simp, h⟩
  | t :: ts, ms => by
    have ih := sound_fold g G r strict hr ts
    unfold fold
    by_cases hm : t.pred = .member
    · simp only [memberStep, hm]
      refine ((hr t.object).bind fun m => RTrip.of_pre fun hd => RTrip.pure (Q := fun a s =>
        (∃ m, a = ms ++ [m] ∧ Describes g G t.object m.tree) ∧ s.grey = G) fun s h => ⟨⟨m, rfl, hd⟩, h⟩).bind fun a => ?_
      refine RTrip.of_pre fun ⟨m, ha, hd⟩ => (ih a).post fun ls s ⟨⟨ls', e, hl⟩, hs, hG⟩ => ⟨?_, ?_, hG⟩
      · refine ⟨m :: ls', by rw [e, ha]; simp, ?_⟩
        simp only [List.filter_cons, hm, decide_true, if_true, List.map_cons, License.trees]
        exact .cons hd hl
      · intro h u hu
        rcases List.mem_cons.1 hu with rfl | hu
        · exact .inr hm
        · exact hs h u hu
    · have hstep : RTrip True True (fun s => s.grey = G) (memberStep r strict ms t)
          fun a s => (a = ms ∧ (strict = true → t.pred = .type_)) ∧ s.grey = G := by
        unfold memberStep
        cases e : t.pred <;> first
          | exact absurd e hm
          | exact RTrip.pure fun _ h => ⟨⟨rfl, fun _ => rfl⟩, h⟩
          | exact RTrip.ite (fun _ => RTrip.err) fun h' => RTrip.pure fun _ h => ⟨⟨rfl, fun h => absurd h h'⟩, h⟩
      refine hstep.bind fun a => RTrip.of_pre fun ⟨ha, hty⟩ => ?_
      subst ha
      refine (ih a).post fun ls s ⟨⟨ls', e, hl⟩, hs, hG⟩ => ⟨⟨ls', e, ?_⟩, ?_, hG⟩
      · simpa only [List.filter_cons, hm, decide_false, Bool.false_eq_true, if_false] using hl
      · intro h u hu
        rcases List.mem_cons.1 hu with rfl | hu
        · exact .inl (hty h)
        · exact hs h u hu

theorem sound_getAnyLicense (g : Graph) : ∀ (n : Nat) (G : Str → Bool) (node : RNode),
    RTrip True True (fun s => s.grey = G) (getAnyLicense g n node) fun l s => Describes g G node l.tree ∧ s.grey = G
  | 0, _, _ => RTrip.cut fun _ _ => True.intro
  | n + 1, G, node => by
    unfold getAnyLicense
    refine (rtrip_enter _ _ G node.id .nil).bind fun o => ?_
    cases o with
    | some x => exact RTrip.err
    | none =>
      refine RTrip.of_pre fun hG => ?_
      have hb : RTrip True True (fun s => s.grey = addGrey G node.id) (licenseBody g (getAnyLicense g n) node)
          fun l s => Describes g G node l.tree ∧ s.grey = addGrey G node.id := by
        have hf := fun st => sound_fold g (addGrey G node.id) (getAnyLicense g n) st
          (fun m => sound_getAnyLicense g n _ m) (g.of node) []
        rcases body_cases g node with hc | hc | ⟨l, x, e, hx, hl⟩ | e
        · rw [hc.body]
          refine (hf true).bind fun ls => RTrip.pure fun s ⟨⟨ls', e, hd⟩, hs, hs'⟩ => ⟨?_, hs'⟩
          rw [List.nil_append] at e; subst e
          rw [← membersOf_eq] at hd
          refine .all hG (.all hc fun t ht hn => hs rfl t ?_) hd
          exact List.mem_filter.2 ⟨ht, by simp [hn]⟩
        · rw [hc.body]
          refine (hf false).bind fun ls => RTrip.pure fun s ⟨⟨ls', e, hd⟩, hs, hs'⟩ => ⟨?_, hs'⟩
          rw [List.nil_append] at e; subst e
          rw [← membersOf_eq] at hd
          exact .any hG (.any hc) hd
        · rw [e]; exact RTrip.pure fun s hs => ⟨by rw [hl]; exact .named hG hx, hs⟩
        · rw [e]; exact RTrip.err
      exact hb.bind fun l => RTrip.of_pre fun hd => (rtrip_leave _ _ G _ hG).bind fun _ => RTrip.pure fun s hs => ⟨hd, hs⟩

/-- Started in a state with `P`, the method ends in a state with `Q` or is cut. -/
def Does {α : Type} (P : RState → Prop) (m : RdfM α) (Q : α → RState → Prop) : Prop :=
  ∀ s, P s → m s = .cut ∨ ∃ a s', m s = .ok (a, s') ∧ Q a s'

theorem Does.pure {α : Type} {P : RState → Prop} {a : α} {Q : α → RState → Prop} (h : ∀ s, P s → Q a s) :
    Does P (Pure.pure a) Q := fun s hs => .inr ⟨a, s, rfl, h s hs⟩

theorem Does.bind {α β : Type} {P : RState → Prop} {m : RdfM α} {f : α → RdfM β} {R : α → RState → Prop}
    {Q : β → RState → Prop} (hm : Does P m R) (hf : ∀ a, Does (R a) (f a) Q) : Does P (m >>= f) Q := by
  intro s hs
  change RdfM.bind m f s = .cut ∨ ∃ a s', RdfM.bind m f s = .ok (a, s') ∧ Q a s'
  unfold RdfM.bind
  rcases hm s hs with e | ⟨a, s', e, h⟩
  · rw [e]; exact .inl rfl
  · rw [e]; exact hf a s' h

theorem Does.of_pre {α : Type} {P : RState → Prop} {m : RdfM α} {q : Prop} {Q : α → RState → Prop} (h : q → Does P m Q) :
    Does (fun s => q ∧ P s) m Q := fun s hs => h hs.1 s hs.2

theorem Does.enter {G : Str → Bool} {id : Str} (hG : G id = false) (obj : CObj) :
    Does (fun s => s.grey = G) (Verif.enter id obj) fun o s => o = none ∧ s.grey = addGrey G id := by
  intro s hs
  refine .inr ?_
  have h := rtrip_enter True True G id obj s hs
  unfold Verif.enter at h ⊢
  cases e : mapGet id s.cache with
  | none => rw [e] at h; exact ⟨_, _, rfl, rfl, h.2⟩
  | some x =>
    rw [e] at h
    dsimp only at h ⊢
    have hg : x.grey = false := by
      have := congrFun hs id
      simpa [RState.grey, e, hG] using this
    rw [if_neg (by simp [hg])] at h ⊢
    exact ⟨_, _, rfl, rfl, h.2⟩

theorem Does.leave {G : Str → Bool} {id : Str} (hG : G id = false) :
    Does (fun s => s.grey = addGrey G id) (Verif.leave id) fun _ s => s.grey = G :=
  fun s hs => .inr ⟨(), _, rfl, rtrip_leave True True G id hG s hs⟩

theorem does_fold {G : Str → Bool} {r : RNode → RdfM License} {strict : Bool} :
    ∀ {ts : List Triple} {ls : List Lic} (ms : List License),
    (strict = true → ∀ t ∈ ts, t.pred = .type_ ∨ t.pred = .member) →
    Pointwise (fun m l => Does (fun s => s.grey = G) (r m) fun l' s => l'.tree = l ∧ s.grey = G)
      ((ts.filter fun t => t.pred = .member).map (·.object)) ls →
    Does (fun s => s.grey = G) (fold (memberStep r strict) ms ts)
      fun l' s => (∃ ms', l' = ms ++ ms' ∧ License.trees ms' = ls) ∧ s.grey = G
  | [], ls, ms, _, h => by
    cases h
    exact Does.pure fun s hs => ⟨⟨[], by simp, rfl⟩, hs⟩
  | t :: ts, ls, ms, hs, h => by
    have hs' : strict = true → ∀ u ∈ ts, u.pred = .type_ ∨ u.pred = .member := fun e u hu => hs e u (by simp [hu])
    unfold fold
    by_cases hm : t.pred = .member
    · simp only [List.filter_cons, hm, decide_true, if_true, List.map_cons] at h
      cases h with
      | cons h1 h2 =>
        rename_i l ls
        have ih := fun ms => does_fold (strict := strict) ms hs' h2
        simp only [memberStep, hm]
        refine (h1.bind fun m => Does.of_pre fun hd => Does.pure (Q := fun a s => (∃ m, a = ms ++ [m] ∧ m.tree = l) ∧ s.grey = G)
          fun s h => ⟨⟨m, rfl, hd⟩, h⟩).bind fun a => Does.of_pre fun ⟨m, ha, hm'⟩ => ?_
        intro s hs
        rcases ih a s hs with e | ⟨l', s', e, ⟨ms', e', hl⟩, hG⟩
        · exact .inl e
        · refine .inr ⟨l', s', e, ⟨m :: ms', by rw [e', ha]; simp, ?_⟩, hG⟩
          simp only [License.trees, hl, hm']
    · simp only [List.filter_cons, hm, decide_false, Bool.false_eq_true, if_false] at h
      have hstep : memberStep r strict ms t = Pure.pure ms := by
        unfold memberStep
        cases e : t.pred <;> first
          | exact absurd e hm
          | rfl
          | (refine if_neg fun h => ?_
             rcases hs h t (by simp) with e' | e' <;> simp [e] at e')
      rw [hstep]
      exact (Does.pure (Q := fun a s => a = ms ∧ s.grey = G) fun s h => ⟨rfl, h⟩).bind fun a =>
        Does.of_pre fun ha => by subst ha; exact does_fold a hs' h

mutual
theorem does_getAnyLicense {g : Graph} {G : Str → Bool} {node : RNode} {l : Lic} (h : Describes g G node l) :
    ∀ n, Does (fun s => s.grey = G) (getAnyLicense g n node) fun l' s => l'.tree = l ∧ s.grey = G := by
  intro n
  match n, h with
  | 0, _ => exact fun _ _ => .inl rfl
  | n + 1, .named hG hx =>
    obtain ⟨l', e, hl⟩ := named_body hx
    unfold getAnyLicense
    refine (Does.enter hG _).bind fun o => Does.of_pre fun ho => ?_
    subst ho
    dsimp only
    rw [e]
    exact (Does.pure (Q := fun a s => a = l' ∧ s.grey = addGrey G node.id) fun s hs => ⟨rfl, hs⟩).bind fun a =>
      Does.of_pre fun ha => (Does.leave hG).bind fun _ => Does.pure fun s hs => ⟨by rw [ha, hl], hs⟩
  | n + 1, .all hG hset hms =>
    have hp := does_all hms n
    unfold getAnyLicense
    refine (Does.enter hG _).bind fun o => Does.of_pre fun ho => ?_
    subst ho
    dsimp only
    cases hset with
    | all hc hs =>
      rw [hc.body, membersOf_eq] at *
      refine Does.bind ?_ fun a => Does.of_pre fun ha => (Does.leave hG).bind fun _ => Does.pure fun s hs => ⟨ha, hs⟩
      refine (does_fold [] (fun _ t ht => hs t (mem_of ht).1 (mem_of ht).2) hp).bind fun a =>
        Does.pure fun s ⟨⟨ms', e, hl⟩, hs⟩ => ⟨?_, hs⟩
      rw [List.nil_append] at e; subst e
      simp only [License.tree, hl]
  | n + 1, .any hG hset hms =>
    have hp := does_all hms n
    unfold getAnyLicense
    refine (Does.enter hG _).bind fun o => Does.of_pre fun ho => ?_
    subst ho
    dsimp only
    cases hset with
    | any hc =>
      rw [hc.body, membersOf_eq] at *
      refine Does.bind ?_ fun a => Does.of_pre fun ha => (Does.leave hG).bind fun _ => Does.pure fun s hs => ⟨ha, hs⟩
      refine (does_fold [] (by simp) hp).bind fun a =>
        Does.pure fun s ⟨⟨ms', e, hl⟩, hs⟩ => ⟨?_, hs⟩
      rw [List.nil_append] at e; subst e
      simp only [License.tree, hl]
theorem does_all {g : Graph} {G : Str → Bool} {ns : List RNode} {ls : List Lic} (h : DescribeAll g G ns ls) :
    ∀ n, Pointwise (fun m l => Does (fun s => s.grey = G) (getAnyLicense g n m) fun l' s => l'.tree = l ∧ s.grey = G) ns ls := by
  intro n
  match h with
  | .nil => exact .nil
  | .cons h1 h2 => exact .cons (does_getAnyLicense h1 n) (does_all h2 n)
end

/-- Reading licenses never panics. -/
theorem calm_getAnyLicense (g : Graph) : ∀ (n : Nat) (node : RNode),
    RTrip False True (fun _ => True) (getAnyLicense g n node) fun _ _ => True
  | 0, _ => RTrip.cut fun _ _ => True.intro
  | n + 1, node => by
    unfold getAnyLicense
    have calm : ∀ {α : Type} (m : RdfM α), (∀ s, m s ≠ .panic) → RTrip False True (fun _ => True) m fun _ _ => True := by
      intro α m h s _
      cases e : m s with
      | ok x => trivial
      | err => trivial
      | panic => exact h s e
      | cut => trivial
    refine (calm (Verif.enter node.id .nil) fun s => ?_).bind fun o => ?_
    · unfold Verif.enter
      cases mapGet node.id s.cache with
      | none => simp
      | some e => dsimp only; split <;> simp
    · cases o with
      | some _ => exact RTrip.err
      | none =>
        refine RTrip.bind (R := fun _ _ => True) ?_ fun _ => (RTrip.modify fun _ _ => True.intro).bind (R := fun _ _ => True)
          fun _ => RTrip.pure fun _ _ => True.intro
        have hm : ∀ st, ∀ t ∈ g.of node, ∀ a, RTrip False True (fun _ => True) (memberStep (getAnyLicense g n) st a t) fun _ _ => True := by
          intro st t _ a
          unfold memberStep
          cases t.pred <;> first
            | exact RTrip.pure fun _ h => h
            | exact (calm_getAnyLicense g n _).bind fun _ => RTrip.pure fun _ h => h
            | exact RTrip.ite (fun _ => RTrip.err) fun _ => RTrip.pure fun _ h => h
        rcases body_cases g node with hc | hc | ⟨l, x, e, _⟩ | e
        · rw [hc.body]
          exact (RTrip.fold (I := fun _ _ => True) (hm _)).bind fun _ => RTrip.pure fun _ h => h
        · rw [hc.body]
          exact (RTrip.fold (I := fun _ _ => True) (hm _)).bind fun _ => RTrip.pure fun _ h => h
        · rw [e]; exact RTrip.pure fun _ _ => True.intro
        · rw [e]; exact RTrip.err

end Verif
