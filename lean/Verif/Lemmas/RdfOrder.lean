import Verif.Spec.RdfOrder
import Verif.Lemmas.RdfLegalOnly
import Verif.Lemmas.RdfTop
import Verif.Lemmas.TextSays

/-!
# What the same statements in another order say
-/

namespace Verif
open Spec Spec.Rdf

/-! ## Lists of statements -/

/-- The property has one value. -/
def OneValue (ts : List Triple) (p : Pred) : Prop := ∀ t ∈ ts, ∀ u ∈ ts, t.pred = p → u.pred = p → t.object = u.object

theorem vals_same {ts us : List Triple} (h : SameMembers ts us) (p : Pred) : SameMembers (vals ts p) (vals us p) := by
  intro x
  simp only [vals, List.mem_map, List.mem_filter, h _]

theorem Spec.Rdf.SameMembers.symm {α : Type} {l m : List α} (h : SameMembers l m) : SameMembers m l := fun x => (h x).symm
theorem Spec.Rdf.SameMembers.refl {α : Type} (l : List α) : SameMembers l l := fun _ => Iff.rfl
theorem Spec.Rdf.SameMembers.trans {α : Type} {l m n : List α} (h : SameMembers l m) (h' : SameMembers m n) : SameMembers l n :=
  fun x => (h x).trans (h' x)

theorem Spec.Rdf.SameMembers.nil {α : Type} {l : List α} (h : SameMembers [] l) : l = [] :=
  List.eq_nil_iff_forall_not_mem.2 fun x hx => by simpa using (h x).2 hx

theorem Spec.Rdf.SameMembers.flatMap {α β : Type} {l m : List α} {f k : α → List β} (h : SameMembers l m) (hf : ∀ x ∈ l, SameMembers (f x) (k x)) :
    SameMembers (l.flatMap f) (m.flatMap k) := by
  intro y
  simp only [List.mem_flatMap]
  constructor
  · rintro ⟨x, hx, hy⟩
    exact ⟨x, (h x).1 hx, (hf x hx y).1 hy⟩
  · rintro ⟨x, hx, hy⟩
    exact ⟨x, (h x).2 hx, (hf x ((h x).2 hx) y).2 hy⟩

theorem last_alike {α : Type} {R R' : RNode → α → Prop} {S : α → α → Prop} {z x y : α} {ts us : List Triple} {p : Pred}
    (hm : SameMembers ts us) (ho : OneValue ts p) (hR : ∀ n ∈ vals ts p, ∀ a b, R n a → R' n b → S a b) (hz : S z z)
    (h : LastOf R z (vals ts p) x) (h' : LastOf R' z (vals us p) y) : S x y := by
  have hv := vals_same hm p
  obtain ⟨xs, hx, rfl⟩ := h
  obtain ⟨ys, hy, rfl⟩ := h'
  rw [List.getLastD_eq_getLast?, List.getLastD_eq_getLast?]
  cases h1 : xs.getLast? with
  | none =>
    rw [List.getLast?_eq_none_iff] at h1
    subst h1
    have : vals ts p = [] := by cases hx' : vals ts p with
      | nil => rfl
      | cons a l => rw [hx'] at hx; cases hx
    rw [this] at hv
    rw [hv.nil] at hy
    cases hy
    exact hz
  | some a =>
    obtain ⟨n, hn, hna⟩ := hx.source (List.mem_of_getLast? h1)
    cases h2 : ys.getLast? with
    | none =>
      rw [List.getLast?_eq_none_iff] at h2
      subst h2
      have : vals us p = [] := by cases hy' : vals us p with
        | nil => rfl
        | cons a l => rw [hy'] at hy; cases hy
      rw [this] at hv
      rw [hv.symm.nil] at hn
      simp at hn
    | some b =>
      obtain ⟨m, hm', hmb⟩ := hy.source (List.mem_of_getLast? h2)
      have hm' := (hv m).2 hm'
      obtain ⟨t, ht, htp, rfl⟩ := vals_source hn
      obtain ⟨u, hu, hup, rfl⟩ := vals_source hm'
      rw [ho u hu t ht hup htp] at hmb
      exact hR _ hn _ _ hna hmb

theorem last_same {α : Type} {R R' : RNode → α → Prop} {z x y : α} {ts us : List Triple} {p : Pred}
    (hm : SameMembers ts us) (ho : OneValue ts p) (hR : ∀ n ∈ vals ts p, ∀ a b, R n a → R' n b → a = b)
    (h : LastOf R z (vals ts p) x) (h' : LastOf R' z (vals us p) y) : x = y := last_alike hm ho hR rfl h h'

theorem each_alike {α : Type} {R R' : RNode → α → Prop} {S : α → α → Prop} {xs ys : List α} {ts us : List Triple} {p : Pred}
    (hm : SameMembers ts us) (hR : ∀ n ∈ vals ts p, ∀ a b, R n a → R' n b → S a b)
    (h : EachOf R (vals ts p) xs) (h' : EachOf R' (vals us p) ys) : Matching S xs ys := by
  have hv := vals_same hm p
  constructor
  · intro x hx
    obtain ⟨n, hn, hnx⟩ := Pointwise.source h hx
    obtain ⟨y, hy, hny⟩ := Pointwise.image h' ((hv n).1 hn)
    exact ⟨y, hy, hR n hn _ _ hnx hny⟩
  · intro y hy
    obtain ⟨n, hn, hny⟩ := Pointwise.source h' hy
    have hn := (hv n).2 hn
    obtain ⟨x, hx, hnx⟩ := Pointwise.image h hn
    exact ⟨x, hx, hR n hn _ _ hnx hny⟩

theorem Spec.Rdf.Matching.same {α : Type} {xs ys : List α} (h : Matching Eq xs ys) : SameMembers xs ys := by
  intro x
  constructor
  · intro hx
    obtain ⟨y, hy, rfl⟩ := h.1 x hx
    exact hy
  · intro hx
    obtain ⟨y, hy, rfl⟩ := h.2 x hx
    exact hy

theorem each_same {α : Type} {R R' : RNode → α → Prop} {xs ys : List α} {ts us : List Triple} {p : Pred}
    (hm : SameMembers ts us) (hR : ∀ n ∈ vals ts p, ∀ a b, R n a → R' n b → a = b)
    (h : EachOf R (vals ts p) xs) (h' : EachOf R' (vals us p) ys) : SameMembers xs ys := (each_alike hm hR h h').same

/-- The statements are about one node. -/
def AboutOne (g : Graph) (ts : List Triple) : Prop := (∀ t ∈ ts, t ∈ g.triples) ∧ ∀ t ∈ ts, ∀ u ∈ ts, t.subject.id = u.subject.id

theorem Spec.Rdf.SaidOnce.one {g : Graph} (h : SaidOnce g) {ts : List Triple} (ha : AboutOne g ts) {p : Pred} (hp : p ∉ repeatable) : OneValue ts p :=
  fun t ht u hu h1 h2 => h.once t (ha.1 t ht) u (ha.1 u hu) (ha.2 t ht u hu) (by rw [h1, h2]) (by rw [h1]; exact hp)

theorem aboutOne_of (g : Graph) (n : RNode) : AboutOne g (g.of n) :=
  ⟨fun _ ht => (mem_of ht).1, fun t ht u hu => by rw [(mem_of ht).2, (mem_of hu).2]⟩

theorem aboutOne_about (g : Graph) (id : Str) : AboutOne g (g.about id) := by
  simp only [AboutOne, Graph.about, List.mem_filter, decide_eq_true_eq]
  exact ⟨fun _ h => h.1, fun t ht u hu => by rw [ht.2, hu.2]⟩

theorem AboutOne.same {g : Graph} {ts us : List Triple} (h : AboutOne g ts) (hm : SameMembers ts us) : AboutOne g us :=
  ⟨fun t ht => h.1 t ((hm t).2 ht), fun t ht u hu => h.2 t ((hm t).2 ht) u ((hm u).2 hu)⟩

theorem Spec.Rdf.SameStatements.of {g g' : Graph} (h : SameStatements g g') (n : RNode) : SameMembers (g.of n) (g'.of n) := by
  intro t; simp only [Graph.of, List.mem_filter, h.triples]

theorem Spec.Rdf.SameStatements.about {g g' : Graph} (h : SameStatements g g') (id : Str) : SameMembers (g.about id) (g'.about id) := by
  intro t; simp only [Graph.about, List.mem_filter, h.triples]

theorem Spec.Rdf.SameStatements.symm {g g' : Graph} (h : SameStatements g g') : SameStatements g' g :=
  ⟨fun t => (h.triples t).symm, fun r => (h.roots r).symm, h.uris.symm⟩

/-! ## Small elements -/

section
variable {g g' : Graph} (hs : SameStatements g g') (ho : SaidOnce g) {ts us : List Triple} (ha : AboutOne g ts) (hm : SameMembers ts us)

omit hs in
include ho ha hm in
theorem said_same {p : Pred} (hp : p ∉ repeatable) {x y : Str} (h : LastOf Text [] (vals ts p) x) (h' : LastOf Text [] (vals us p) y) : x = y :=
  last_same hm (ho.one ha hp) (fun n _ a b => text_unique n a b) h h'

omit hs in
include ho ha hm in
theorem checksum_same {c e : Checksum} (h : ChecksumSays ts c) (h' : ChecksumSays us e) : c = e := by
  have h1 : c.value = e.value := last_same hm (ho.one ha (by decide)) (fun n _ a b q q' => q.trans q'.symm) h.value h'.value
  have h2 : c.algorithm = e.algorithm := last_same hm (ho.one ha (by decide)) (fun n _ => unique_of algorithm_iff n) h.algorithm h'.algorithm
  cases c; cases e; simp_all

omit hs in
include ho ha hm in
theorem annotation_same {c e : Annotation} (h : Rdf.AnnotationSays ts c) (h' : Rdf.AnnotationSays us e) : c = e := by
  have h1 : c.annotator = e.annotator := last_same hm (ho.one ha (by decide)) (fun n _ => unique_of annotator_iff n) h.annotator h'.annotator
  have h2 := said_same ho ha hm (by decide) h.date h'.date
  have h3 := said_same ho ha hm (by decide) h.comment h'.comment
  have h4 : c.type = e.type := last_same hm (ho.one ha (by decide)) (fun n _ => unique_of annotationType_iff n) h.type h'.type
  have h5 := h.subject.trans h'.subject.symm
  cases c; cases e; simp_all

omit hs in
include ho ha hm in
theorem review_same {c e : Review} (h : Rdf.ReviewSays ts c) (h' : Rdf.ReviewSays us e) : c = e := by
  have h1 := last_same hm (ho.one ha (by decide)) (fun n _ => unique_of reviewer_iff n) h.reviewer h'.reviewer
  have h2 := said_same ho ha hm (by decide) h.date h'.date
  have h3 := said_same ho ha hm (by decide) h.comment h'.comment
  cases c; cases e; simp_all

omit hs in
include ho ha hm in
theorem externalRef_same {c e : PackageExternalRef} (h : ExternalRefSays ts c) (h' : ExternalRefSays us e) : c = e := by
  have h1 : c.category = e.category := last_same hm (ho.one ha (by decide)) (fun n _ => unique_of category_iff n) h.category h'.category
  have h2 := said_same ho ha hm (by decide) h.type h'.type
  have h3 := said_same ho ha hm (by decide) h.locator h'.locator
  have h4 := said_same ho ha hm (by decide) h.comment h'.comment
  cases c; cases e; simp_all

omit hs in
include ho ha hm in
theorem artifact_same {n : RNode} {c e : ArtifactOfProject} (h : ArtifactSays n ts c) (h' : ArtifactSays n us e) : c = e := by
  have h1 := said_same ho ha hm (by decide) h.homePage h'.homePage
  have h2 := said_same ho ha hm (by decide) h.name h'.name
  have h3 := h.uri.trans h'.uri.symm
  cases c; cases e; simp_all

omit hs in
include ho ha hm in
theorem verification_same {c e : VerificationCode} (h : VerificationSays ts c) (h' : VerificationSays us e) :
    c.value = e.value ∧ SameMembers c.excludedFiles e.excludedFiles :=
  ⟨said_same ho ha hm (by decide) h.value h'.value, each_same hm (fun n _ a b => text_unique n a b) h.excluded h'.excluded⟩

omit hs in
include ho ha hm in
theorem creation_same {c e : CreationInfo} (h : Rdf.CreationSays ts c) (h' : Rdf.CreationSays us e) : SameCreation (some c) (some e) :=
  ⟨said_same ho ha hm (by decide) h.licenseList h'.licenseList, each_same hm (fun n _ => unique_of creator_iff n) h.creators h'.creators,
    said_same ho ha hm (by decide) h.created h'.created, said_same ho ha hm (by decide) h.comment h'.comment⟩

include hs ho in
theorem externalDocument_same {n : RNode} (hn : ∃ u ∈ g.triples, u.pred = .externalDocumentRef ∧ u.object = n) {c e : ExternalDocumentRef}
    (h : Rdf.ExternalDocumentSays g (g.of n) c) (h' : Rdf.ExternalDocumentSays g' (g'.of n) e) : c = e := by
  obtain ⟨w, hw, hwp, rfl⟩ := hn
  have ha := aboutOne_of g w.object
  have hm := hs.of w.object
  have h1 := said_same ho ha hm (by decide) h.id h'.id
  have h2 := said_same ho ha hm (by decide) h.uri h'.uri
  have h3 : c.checksum = e.checksum := last_same hm (fun t ht u hu => ho.externals w hw hwp t ht u hu)
    (fun n _ a b q q' => checksum_same ho (aboutOne_of g n) (hs.of n) q q') h.checksum h'.checksum
  cases c; cases e; simp_all

include ho ha hm in
theorem otherLicense_same {c e : OtherLicense} (h : OtherLicenseSays g ts c) (h' : OtherLicenseSays g' us e) : SameOther c e where
  id := said_same ho ha hm (by decide) h.id h'.id
  text := said_same ho ha hm (by decide) h.text h'.text
  name := said_same ho ha hm (by decide) h.name h'.name
  crossReferences := each_same hm (fun n _ a b q q' => q.2.trans q'.2.symm) h.crossReferences h'.crossReferences
  comment := said_same ho ha hm (by decide) h.comment h'.comment

end

/-! ## Licenses -/

theorem getLastD_same {α : Type} {l m : List α} (h : SameMembers l m) (ho : ∀ x ∈ l, ∀ y ∈ l, x = y) (z : α) : l.getLastD z = m.getLastD z := by
  rw [List.getLastD_eq_getLast?, List.getLastD_eq_getLast?]
  cases h1 : l.getLast? with
  | none =>
    rw [List.getLast?_eq_none_iff] at h1
    subst h1
    rw [h.nil]
    rfl
  | some a =>
    have ha := List.mem_of_getLast? h1
    cases h2 : m.getLast? with
    | none =>
      rw [List.getLast?_eq_none_iff] at h2
      subst h2
      exact absurd ((h a).1 ha) (by simp)
    | some b => simp only [Option.getD_some]; exact ho a ha b ((h b).2 (List.mem_of_getLast? h2))

theorem lastSaid_same {g g' : Graph} (hs : SameStatements g g') (ho : SaidOnce g) (id : Str) {p : Pred} (hp : p ∉ repeatable) :
    lastSaid g id p = lastSaid g' id p := by
  unfold lastSaid
  refine getLastD_same (fun x => ?_) (fun x hx y hy => ?_) _
  · simp only [List.mem_map, List.mem_filter, hs.triples]
  · simp only [List.mem_map, List.mem_filter, Bool.and_eq_true, decide_eq_true_eq] at hx hy
    obtain ⟨t, ⟨h1, h2, h3⟩, rfl⟩ := hx
    obtain ⟨u, ⟨h4, h5, h6⟩, rfl⟩ := hy
    rw [ho.once t h1 u h4 (by rw [h2, h5]) (by rw [h3, h6]) (by rw [h3]; exact hp)]

theorem class_same {g g' : Graph} (hs : SameStatements g g') {id : Str} {c c' : Cls} (h : ClassOf g id c) (h' : ClassOf g' id c') : c = c' := by
  obtain ⟨t, h, rfl⟩ := h
  obtain ⟨u, h', rfl⟩ := h'
  have hu : u ∈ g'.triples.filter (fun t => t.subject.id = id && t.pred = .type_) := by rw [h']; simp
  have : u ∈ g.triples.filter (fun t => t.subject.id = id && t.pred = .type_) := by
    simp only [List.mem_filter] at hu ⊢
    exact ⟨(hs.triples u).2 hu.1, hu.2⟩
  rw [h, List.mem_singleton] at this
  rw [this]

theorem stated_same {g g' : Graph} (hs : SameStatements g g') (id : Str) (t : Triple) : Stated g id t ↔ Stated g' id t := by
  unfold Stated; rw [hs.triples]

theorem special_one {uri a b : Str} (h : SpecialName uri a) (h' : SpecialName uri b) : a = b := by
  have d1 : spdxNoneCaps ≠ spdxNoassertionCaps := by decide
  have d2 : spdxNoneCaps ≠ spdxNoassertionSmall := by decide
  have d3 : spdxNoneSmall ≠ spdxNoassertionCaps := by decide
  have d4 : spdxNoneSmall ≠ spdxNoassertionSmall := by decide
  rcases h with ⟨h | h, rfl⟩ | ⟨h | h, rfl⟩ | ⟨h1, h2, h3, h4, rfl, _⟩ <;>
    rcases h' with ⟨h' | h', rfl⟩ | ⟨h' | h', rfl⟩ | ⟨h1', h2', h3', h4', rfl, _⟩ <;> first
    | rfl
    | (exfalso; simp_all; done)

/-- The classes of nodes that are licenses by themselves. -/
def plainClasses : List Cls := [.simpleLicensingInfo, .extractedLicensingInfo, .listedLicense, .license]

theorem named_cases {g : Graph} {n : RNode} {x : Str} (h : Named g n x) :
    ((∀ t, ¬ Stated g n.id t) ∧ SpecialName n.id x) ∨
    (∃ c, ClassOf g n.id c ∧ c ∈ plainClasses ∧ x = lastSaid g n.id .licenseId) ∨
    (∃ c, ClassOf g n.id c ∧ c ∈ [Cls.orLaterOperator, .withExceptionOperator] ∧
      ((∃ m, Stated g n.id m ∧ m.pred = .member ∧ (∀ u, Stated g n.id u → u.pred = .member → u = m) ∧ x = lastSaid g m.object.id .licenseId) ∨
       ((∀ u, Stated g n.id u → u.pred ≠ .member) ∧ x = []))) := by
  cases h with
  | special h1 h2 => exact .inl ⟨h1, h2⟩
  | simple h _ => exact .inr (.inl ⟨_, h, by simp [plainClasses], rfl⟩)
  | extracted h _ => exact .inr (.inl ⟨_, h, by simp [plainClasses], rfl⟩)
  | listed h _ => exact .inr (.inl ⟨_, h, by simp [plainClasses], rfl⟩)
  | license h _ => exact .inr (.inl ⟨_, h, by simp [plainClasses], rfl⟩)
  | @orLater t m h h1 h2 h3 _ =>
    have key : ∀ u, Stated g n.id u ↔ u = t ∨ u = m := by
      intro u
      have : Stated g n.id u ↔ u ∈ g.triples.filter (fun t => t.subject.id = n.id) := by
        simp [Stated, List.mem_filter]
      rw [this]
      rcases h1 with h1 | h1 <;> rw [h1] <;> simp [or_comm]
    refine .inr (.inr ⟨_, h, by simp, .inl ⟨m, (key m).2 (.inr rfl), h3, fun u hu hp => ?_, rfl⟩⟩)
    rcases (key u).1 hu with rfl | rfl
    · rw [h2] at hp; simp at hp
    · rfl
  | @withException m h _ h1 _ =>
    have key : ∀ u, (Stated g n.id u ∧ u.pred = .member) ↔ u = m := by
      intro u
      have : (Stated g n.id u ∧ u.pred = .member) ↔ u ∈ g.triples.filter (fun t => t.subject.id = n.id && t.pred = .member) := by
        simp [Stated, List.mem_filter, and_assoc]
      rw [this, h1]; simp
    exact .inr (.inr ⟨_, h, by simp, .inl ⟨m, ((key m).2 rfl).1, ((key m).2 rfl).2, fun u hu hp => (key u).1 ⟨hu, hp⟩, rfl⟩⟩)
  | exceptionAlone h h1 =>
    refine .inr (.inr ⟨_, h, by simp, .inr ⟨fun u hu hp => ?_, rfl⟩⟩)
    rcases h1 u hu with h | ⟨h, _⟩ <;> (rw [h] at hp; simp at hp)

theorem class_stated {g : Graph} {id : Str} {c : Cls} (h : ClassOf g id c) : ∃ t, Stated g id t := by
  obtain ⟨t, h, _⟩ := h
  have : t ∈ g.triples.filter (fun t => t.subject.id = id && t.pred = .type_) := by rw [h]; simp
  simp only [List.mem_filter, Bool.and_eq_true, decide_eq_true_eq] at this
  exact ⟨t, this.1, this.2.1⟩

theorem named_same {g g' : Graph} (hs : SameStatements g g') (ho : SaidOnce g) {n : RNode} {x y : Str} (h : Named g n x) (h' : Named g' n y) :
    x = y := by
  have none : ∀ {c}, (∀ t, ¬ Stated g n.id t) → ¬ ClassOf g' n.id c := fun h1 h2 => by
    obtain ⟨t, ht⟩ := class_stated h2
    exact h1 t ((stated_same hs _ _).2 ht)
  have none' : ∀ {c}, (∀ t, ¬ Stated g' n.id t) → ¬ ClassOf g n.id c := fun h1 h2 => by
    obtain ⟨t, ht⟩ := class_stated h2
    exact h1 t ((stated_same hs _ _).1 ht)
  have apart : ∀ {c}, c ∈ plainClasses → c ∈ [Cls.orLaterOperator, .withExceptionOperator] → False := by
    intro c h1 h2
    simp only [plainClasses, List.mem_cons, List.not_mem_nil, or_false] at h1 h2
    rcases h2 with rfl | rfl <;> simp at h1
  rcases named_cases h with ⟨h1, h2⟩ | ⟨c, h1, h2, rfl⟩ | ⟨c, h1, h2, h3⟩ <;>
    rcases named_cases h' with ⟨q1, q2⟩ | ⟨e, q1, q2, rfl⟩ | ⟨e, q1, q2, q3⟩
  · exact special_one h2 q2
  · exact (none h1 q1).elim
  · exact (none h1 q1).elim
  · exact (none' q1 h1).elim
  · exact lastSaid_same hs ho _ (by decide)
  · rw [class_same hs h1 q1] at h2; exact (apart h2 q2).elim
  · exact (none' q1 h1).elim
  · rw [class_same hs h1 q1] at h2; exact (apart q2 h2).elim
  · rcases h3 with ⟨m, r1, r2, r3, rfl⟩ | ⟨r1, rfl⟩ <;> rcases q3 with ⟨k, t1, t2, t3, rfl⟩ | ⟨t1, rfl⟩
    · rw [r3 k ((stated_same hs _ _).2 t1) t2]
      exact lastSaid_same hs ho _ (by decide)
    · exact (t1 m ((stated_same hs _ _).1 r1) r2).elim
    · exact (r1 k ((stated_same hs _ _).2 t1) t2).elim
    · rfl

theorem within_of {ms ns : List Lic} (h : ∀ m ∈ ms, ∃ n ∈ ns, SameLic m n) : Within ms ns := by
  induction ms with
  | nil => exact .nil
  | cons m ms ih =>
    obtain ⟨n, hn, h1⟩ := h m (by simp)
    exact .cons hn h1 (ih fun k hk => h k (by simp [hk]))

theorem covers_of {ms ns : List Lic} (h : ∀ n ∈ ns, ∃ m ∈ ms, SameLic m n) : Covers ms ns := by
  induction ns with
  | nil => exact .nil
  | cons n ns ih =>
    obtain ⟨m, hm, h1⟩ := h n (by simp)
    exact .cons hm h1 (ih fun k hk => h k (by simp [hk]))

theorem isSet_class {g : Graph} {n : RNode} {b : Bool} (h : IsSet g n b) :
    ClassOf g n.id (if b then .conjunctiveLicenseSet else .disjunctiveLicenseSet) := by
  cases h <;> assumption

theorem named_not_set {g g' : Graph} (hs : SameStatements g g') {n : RNode} {x : Str} {b : Bool} (h : Named g n x) (h' : IsSet g' n b) : False := by
  have hc := isSet_class h'
  rcases named_cases h with ⟨h1, _⟩ | ⟨c, h1, h2, _⟩ | ⟨c, h1, h2, _⟩
  · obtain ⟨t, ht⟩ := class_stated hc
    exact h1 t ((stated_same hs _ _).2 ht)
  · rw [class_same hs h1 hc] at h2
    cases b <;> simp [plainClasses] at h2
  · rw [class_same hs h1 hc] at h2
    cases b <;> simp at h2

theorem members_same {g g' : Graph} (hs : SameStatements g g') (n : RNode) : SameMembers (membersOf g n) (membersOf g' n) := by
  intro x; simp only [membersOf, List.mem_map, List.mem_filter, hs.triples]

theorem describeAll_mem {g : Graph} {G : Str → Bool} {ns : List RNode} {ls : List Lic} (h : DescribeAll g G ns ls) :
    Pointwise (Describes g G) ns ls := by
  induction ns generalizing ls with
  | nil => cases h; exact .nil
  | cons n ns ih => cases h with | cons h1 h2 => exact .cons h1 (ih h2)

mutual
theorem describes_same {g g' : Graph} (hs : SameStatements g g') (ho : SaidOnce g) : ∀ {G : Str → Bool} {n : RNode} {l : Lic}, Describes g G n l →
    ∀ {G' : Str → Bool} {l' : Lic}, Describes g' G' n l' → SameLic l l'
  | _, _, _, .named _ h, _, _, h' => by
    cases h' with
    | named _ h' => rw [named_same hs ho h h']; exact .named
    | all _ h' _ => exact (named_not_set hs h h').elim
    | any _ h' _ => exact (named_not_set hs h h').elim
  | _, n, _, .all _ h ha, _, _, h' => by
    cases h' with
    | named _ h' => exact (named_not_set hs.symm h' h).elim
    | all _ h' ha' =>
      obtain ⟨q1, q2⟩ := describeAll_same hs ho ha
      have hp := describeAll_mem ha'
      have hm := members_same hs n
      constructor
      · refine within_of fun l hl => ?_
        obtain ⟨k, hk, hkl⟩ := q1 l hl
        obtain ⟨l', hl', hd⟩ := hp.image ((hm k).1 hk)
        exact ⟨l', hl', hkl hd⟩
      · refine covers_of fun l' hl' => ?_
        obtain ⟨k, hk, hd⟩ := hp.source hl'
        obtain ⟨l, hl, hkl⟩ := q2 k ((hm k).2 hk)
        exact ⟨l, hl, hkl hd⟩
    | any _ h' _ => exact absurd (class_same hs (isSet_class h) (isSet_class h')) (by simp)
  | _, n, _, .any _ h ha, _, _, h' => by
    cases h' with
    | named _ h' => exact (named_not_set hs.symm h' h).elim
    | any _ h' ha' =>
      obtain ⟨q1, q2⟩ := describeAll_same hs ho ha
      have hp := describeAll_mem ha'
      have hm := members_same hs n
      constructor
      · refine within_of fun l hl => ?_
        obtain ⟨k, hk, hkl⟩ := q1 l hl
        obtain ⟨l', hl', hd⟩ := hp.image ((hm k).1 hk)
        exact ⟨l', hl', hkl hd⟩
      · refine covers_of fun l' hl' => ?_
        obtain ⟨k, hk, hd⟩ := hp.source hl'
        obtain ⟨l, hl, hkl⟩ := q2 k ((hm k).2 hk)
        exact ⟨l, hl, hkl hd⟩
    | all _ h' _ => exact absurd (class_same hs (isSet_class h) (isSet_class h')) (by simp)
theorem describeAll_same {g g' : Graph} (hs : SameStatements g g') (ho : SaidOnce g) : ∀ {G : Str → Bool} {ns : List RNode} {ls : List Lic},
    DescribeAll g G ns ls →
    (∀ l ∈ ls, ∃ n ∈ ns, ∀ {G' : Str → Bool} {l' : Lic}, Describes g' G' n l' → SameLic l l') ∧
    ∀ n ∈ ns, ∃ l ∈ ls, ∀ {G' : Str → Bool} {l' : Lic}, Describes g' G' n l' → SameLic l l'
  | _, _, _, .nil => ⟨by simp, by simp⟩
  | _, _, _, .cons h h2 => by
    have h1 := @describes_same g g' hs ho _ _ _ h
    obtain ⟨q1, q2⟩ := describeAll_same hs ho h2
    constructor
    · intro l hl
      rcases List.mem_cons.1 hl with rfl | hl
      · exact ⟨_, by simp, h1⟩
      · obtain ⟨n, hn, q⟩ := q1 l hl
        exact ⟨n, by simp [hn], q⟩
    · intro n hn
      rcases List.mem_cons.1 hn with rfl | hn
      · exact ⟨_, by simp, h1⟩
      · obtain ⟨l, hl, q⟩ := q2 n hn
        exact ⟨l, by simp [hl], q⟩
end

theorem license_same {g g' : Graph} (hs : SameStatements g g') (ho : SaidOnce g) {n : RNode} {x y : Str} (h : Rdf.LicenseSays g n x)
    (h' : Rdf.LicenseSays g' n y) : SameLicense x y := by
  obtain ⟨l, h, rfl⟩ := h
  obtain ⟨l', h', rfl⟩ := h'
  exact ⟨l, l', describes_same hs ho h h', rfl, rfl⟩

theorem sameLicense_nil : SameLicense [] [] := ⟨.named [], .named [], .named, rfl, rfl⟩

end Verif
