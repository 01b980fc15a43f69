import Verif.Lemmas.JsonSavable
import Verif.Lemmas.Savable
import Verif.Props.C54_RdfLegal
import Verif.Spec.RdfSavable

/-!
# Documents read from RDF and JSON
-/

namespace Verif
open Spec Spec.Rdf

/-! ## Names -/

theorem carried_parts {html : Bool} {a b : Str} : Carried html (a ++ b) ↔ Carried html a ∧ Carried html b := by
  unfold Carried
  rw [plain_append, htmlSafe_parts]
  constructor
  · rintro ⟨⟨h1, h2⟩, h3, h4⟩; exact ⟨⟨h1, h3⟩, h2, h4⟩
  · rintro ⟨⟨h1, h3⟩, h2, h4⟩; exact ⟨⟨h1, h2⟩, h3, h4⟩

theorem carried_trim {html : Bool} {a : Str} (h : Carried html a) : Carried html (trimSpace a) :=
  ⟨plain_trimSpace h.1, htmlSafe_trimSpace h.2⟩

theorem carriedName_part {html : Bool} {a b : Str} (h : CarriedName html (a ++ b)) : CarriedName html b :=
  ⟨(carried_parts.1 h.carried).2, contains_false_iff.2 fun x y e => contains_false_iff.1 h.element (a ++ x) y (by rw [e]; simp),
    contains_false_iff.2 fun x y e => contains_false_iff.1 h.document (a ++ x) y (by rw [e]; simp)⟩

theorem carriedName_front {html : Bool} {a b : Str} (h : CarriedName html (a ++ b)) : CarriedName html a :=
  ⟨(carried_parts.1 h.carried).1, contains_false_iff.2 fun x y e => contains_false_iff.1 h.element x (y ++ b) (by rw [e]; simp),
    contains_false_iff.2 fun x y e => contains_false_iff.1 h.document x (y ++ b) (by rw [e]; simp)⟩

theorem carriedName_trim {html : Bool} {a : Str} (h : CarriedName html a) : CarriedName html (trimSpace a) :=
  ⟨carried_trim h.carried, contains_trim h.element, contains_trim h.document⟩

/-- An identifier after its prefix. -/
theorem jsonId_after {html : Bool} {id : Str} (h : CarriedName html (g!"SPDXRef-" ++ id)) (hne : id ≠ []) : JsonId html g!"SPDXRef-" id :=
  ⟨(carried_parts.1 h.carried).2.1, (carried_parts.1 h.carried).2.2, hne,
    hasPrefix_false_iff.2 fun r e => contains_false_iff.1 h.element [] r (by rw [e]; simp)⟩

theorem jsonId_named {html : Bool} {x id : Str} (h : CarriedName html x) (hn : NamesElement x id) : JsonId html g!"SPDXRef-" id := by
  obtain ⟨hne, _, pre, rfl, _⟩ := hn
  rw [List.append_assoc] at h
  exact jsonId_after (carriedName_part h) hne

theorem jsonId_package {html : Bool} {x id : Str} (h : CarriedName html x) (hn : PackageIdOf x id) : JsonId html g!"SPDXRef-" id :=
  jsonId_named h ((C43_package_id x id).1 hn)

theorem jsonId_file {html : Bool} {x id : Str} (h : CarriedName html x) (hn : FileIdOf x id) : JsonId html g!"SPDXRef-" id :=
  jsonId_named (carriedName_trim h) ((C43_file_id x id).1 hn)

theorem carriedName_lastPart {html : Bool} {x part : Str} (h : CarriedName html x) (hp : LastPart x part) : CarriedName html part := by
  rcases hp with ⟨_, p, rfl⟩ | ⟨_, ⟨_, p, rfl⟩ | ⟨_, rfl⟩⟩
  · rw [← List.singleton_append, ← List.append_assoc] at h; exact carriedName_part h
  · rw [← List.singleton_append, ← List.append_assoc] at h; exact carriedName_part h
  · exact h

/-! ## References -/

theorem upperChar_cases (c : Char) : upperChar c = c ∨ (65 ≤ (upperChar c).toNat ∧ (upperChar c).toNat ≤ 90) := by
  unfold upperChar
  split
  · exact .inr (by decide)
  · split
    · exact .inr (by decide)
    · unfold Char.toUpper
      split
      · rename_i h
        right
        simp only [Char.toNat, UInt32.le_iff_toNat_le, UInt32.toNat_add] at h ⊢
        have h1 : 'a'.val.toNat = 97 := rfl
        have h2 : 'z'.val.toNat = 122 := rfl
        have h3 : ('A'.val - 'a'.val).toNat = 4294967264 := rfl
        rw [h1, h2] at h
        simp only [h3]
        omega
      · exact .inl rfl

theorem upperChar_not_e (c : Char) : upperChar c ≠ 'e' := by
  intro h
  rcases upperChar_cases c with e | e
  · rw [h] at e; rw [← e] at h; exact absurd h (by decide)
  · rw [h] at e; exact absurd e (by decide)

theorem plain_upper {x : Str} (h : Plain x) : Plain (toUpper x) := by
  intro c hc
  obtain ⟨a, ha, rfl⟩ := List.mem_map.1 hc
  rcases upperChar_cases a with e | e
  · rw [e]; exact h a ha
  · unfold plainChar
    have h1 : upperChar a ≠ '"' := fun e' => by rw [e'] at e; exact absurd e (by decide)
    have h2 : upperChar a ≠ '\\' := fun e' => by rw [e'] at e; exact absurd e (by decide)
    simp only [h1, h2, ne_eq, not_false_eq_true, decide_true, Bool.and_eq_true, Bool.true_and, decide_eq_true_eq]
    exact ⟨⟨by omega, by omega⟩, by omega⟩

theorem htmlSafe_upper {html : Bool} {x : Str} (h : HtmlSafe html x) : HtmlSafe html (toUpper x) := by
  intro hh c hc
  obtain ⟨a, ha, rfl⟩ := List.mem_map.1 hc
  rcases upperChar_cases a with e | e
  · rw [e]; exact h hh a ha
  · refine ⟨fun e' => ?_, fun e' => ?_, fun e' => ?_⟩ <;> (rw [e'] at e; exact absurd e (by decide))

theorem jsonRef_reads {html : Bool} {x : Str} {r : DocElementID} (h : CarriedName html x) (hr : RefReads x r) : JsonRefIn html r := by
  obtain ⟨⟨⟨hne, _⟩, hd, hs⟩, hr⟩ := hr
  obtain ⟨d, e, s⟩ := r
  dsimp only at *
  subst hs
  rcases hr with ⟨rfl, rfl⟩ | ⟨hdn, rfl⟩
  · exact jsonRefIn_of_id (jsonId_after h hne)
  · have he : CarriedName html (g!"SPDXRef-" ++ e) := by
      have : g!"DocumentRef-" ++ d ++ g!":SPDXRef-" ++ e = (g!"DocumentRef-" ++ d ++ g!":") ++ (g!"SPDXRef-" ++ e) := by
        rw [show g!":SPDXRef-" = g!":" ++ g!"SPDXRef-" from rfl]; simp only [List.append_assoc]
      rw [this] at h
      exact carriedName_part h
    have hj := jsonId_after he hne
    rw [List.append_assoc] at h
    have hf := carriedName_front h
    have hc := (carried_parts.1 hf.carried).2
    exact ⟨.external d e hc.1 hdn hd (hasPrefix_false_iff.2 fun r e => contains_false_iff.1 hf.document [] r (by rw [e]; simp))
      hj.plain hj.nonempty hj.bare, hc.2, hj.safe⟩

theorem jsonRef_reference {html : Bool} {n : RNode} {r : DocElementID} (h : CarriedName html n.id) (hr : ReferenceSays n r) :
    JsonRefIn html r := by
  obtain ⟨x, hx, ⟨hl, rfl⟩ | ⟨_, hr⟩⟩ := hr
  · have hc := (carriedName_lastPart h hx).carried
    refine ⟨.element _ (plain_upper hc.1) ?_ ?_, fun _ => by simp, htmlSafe_upper hc.2⟩
    · intro e
      rw [toUpper, List.map_eq_nil_iff] at e
      subst e
      exact absurd hl (by decide)
    · refine hasPrefix_false_iff.2 fun r e => ?_
      have : 'e' ∈ toUpper x := by rw [e]; simp
      obtain ⟨a, _, ha⟩ := List.mem_map.1 this
      exact upperChar_not_e a ha
  · exact jsonRef_reads (carriedName_lastPart h hx) hr

theorem jsonRef_related {html : Bool} {g : Graph} {n : RNode} {r : DocElementID} (h : CarriedName html n.id) (hr : RelatedSays g n r) :
    JsonRefIn html r := by
  obtain ⟨x, hx, ⟨_, rfl⟩ | ⟨t, _, ⟨_, id, hi, rfl⟩ | ⟨_, id, hi, rfl⟩ | ⟨_, y, hy, hr⟩⟩⟩ := hr
  · exact jsonRef_reference h hx
  · exact jsonRefIn_of_id (jsonId_file h hi)
  · exact jsonRefIn_of_id (jsonId_package h hi)
  · exact jsonRef_reads (carriedName_lastPart h hy) hr

/-! ## Values -/

theorem lastOf_source {α : Type} {R : RNode → α → Prop} {z x : α} {vs : List RNode} (h : LastOf R z vs x) (hne : vs ≠ []) :
    ∃ n ∈ vs, R n x := by
  obtain ⟨xs, hp, rfl⟩ := h
  cases hx : xs.getLast? with
  | none =>
    rw [List.getLast?_eq_none_iff] at hx
    subst hx
    cases hp
    exact absurd rfl hne
  | some y =>
    rw [List.getLastD_eq_getLast?, hx]
    exact pointwise_right hp y (List.mem_of_getLast? hx)

theorem lastOf_cases {α : Type} {R : RNode → α → Prop} {z x : α} {vs : List RNode} (h : LastOf R z vs x) : x = z ∨ ∃ n ∈ vs, R n x := by
  by_cases hv : vs = []
  · subst hv
    obtain ⟨xs, hp, rfl⟩ := h
    cases hp
    exact .inl rfl
  · exact .inr (lastOf_source h hv)

theorem lastOf_none {α : Type} {R : RNode → α → Prop} {z x : α} (h : LastOf R z [] x) : x = z := by
  obtain ⟨xs, hp, rfl⟩ := h
  cases hp
  rfl

theorem vals_given {g : Graph} {n : RNode} {p : Pred} (h : Given g n p) : vals (g.of n) p ≠ [] := by
  obtain ⟨t, ht, hp⟩ := h
  intro e
  have : t.object ∈ vals (g.of n) p := List.mem_map.2 ⟨t, List.mem_filter.2 ⟨ht, by simp [hp]⟩, rfl⟩
  rw [e] at this
  exact absurd this (by simp)

theorem vals_of_source {g : Graph} {n m : RNode} {p : Pred} (h : m ∈ vals (g.of n) p) : ∃ t ∈ g.triples, t.pred = p ∧ t.object = m := by
  obtain ⟨t, ht, q⟩ := vals_source h
  exact ⟨t, (mem_of ht).1, q⟩

theorem vals_many_source {g : Graph} {ns : List RNode} {m : RNode} {p : Pred} (h : m ∈ vals (ns.flatMap g.of) p) :
    ∃ t ∈ g.triples, t.pred = p ∧ t.object = m := by
  obtain ⟨t, ht, q⟩ := vals_source h
  obtain ⟨n, _, ht⟩ := List.mem_flatMap.1 ht
  exact ⟨t, (mem_of ht).1, q⟩

theorem jsonAgent_carried {html : Bool} {x kind name : Str} (h : CarriedAgent html x) (hp : ColonPair x kind name) :
    name ≠ [] ∧ JsonAgent kind name ∧ HtmlSafe html kind ∧ HtmlSafe html name :=
  ⟨h.2 _ _ hp, jsonAgent_of h.1.1 h.1.2 hp⟩

theorem jsonParty_carried {html : Bool} {x kind name : Str} (h : CarriedParty html x) (hp : ColonPair (trimSpace x) kind name)
    (hk : kind ∈ [g!"Person", g!"Organization"]) : JsonPartyIn html kind name := by
  obtain ⟨h1, h2, h3⟩ := jsonAgent_of (plain_trimSpace h.1.1) (htmlSafe_trimSpace h.1.2) hp
  refine ⟨.inr ⟨fun e => ?_, (h.2 _ _ hp).1, (h.2 _ _ hp).2, h1⟩, h2, h3⟩
  subst e
  exact absurd hk (by decide)

theorem jsonParty_noassertion (html : Bool) : JsonPartyIn html [] g!"NOASSERTION" :=
  ⟨.inl ⟨rfl, rfl⟩, fun _ => by simp, fun _ => by decide⟩

/-! ## The document -/

/-- The document without the prefixes of its own name and of those of other documents. -/
def bareIds (d : Doc) : Doc :=
  { d with
    spdxId := bare g!"SPDXRef-" d.spdxId
    externalDocumentRefs := d.externalDocumentRefs.map fun r => { r with documentRefID := bare g!"DocumentRef-" r.documentRefID } }

theorem jsonId_bare {html : Bool} {pre x : Str} (hc : Carried html x) (hd : contains (pre ++ pre) x = false) (h1 : x ≠ []) (h2 : x ≠ pre) :
    JsonId html pre (bare pre x) := by
  unfold bare
  cases hp : hasPrefix pre x with
  | false => exact ⟨hc.1, hc.2, h1, hp⟩
  | true =>
    obtain ⟨r, rfl⟩ := hasPrefix_iff.1 hp
    have := (carried_parts.1 hc).2
    simp only [if_true, List.drop_left]
    refine ⟨this.1, this.2, fun e => h2 (by rw [e]; simp), hasPrefix_false_iff.2 fun s e => ?_⟩
    exact contains_false_iff.1 hd [] s (by rw [e]; simp)

section
variable {html : Bool} {v : Version} {o : MapOrder} {g : Graph} {d : Doc} (hs : SavableGraph html g) (h : loadGraph v o g = .ok d)
  (h1 : OneRole g) (h2 : DistinctNames g)

include hs h h1 h2

theorem rdf_jsonFile : ∀ f ∈ allFiles d, JsonFile html f := by
  intro f hf
  obtain ⟨x, ts, hu, hi, _, hsay⟩ := C50_files v o g d h h1 h2 f hf
  exact ⟨jsonId_file (hs.file x hu) hi, by rw [hsay.annotations]; simp⟩

theorem rdf_jsonPackage : ∀ p ∈ d.packages, JsonPackage html p := by
  intro p hp
  obtain ⟨x, ts, hu, hi, ⟨ns, _, _, rfl⟩, hsay⟩ := C51_packages v o g d h h1 h2 p hp
  refine ⟨jsonId_package (hs.package x hu) hi, ?_, ?_, ?_, by rw [hsay.annotations]; simp⟩
  · intro s e
    rcases lastOf_cases hsay.supplier with e' | ⟨n, hn, s', hs', e'⟩
    · rw [e] at e'; cases e'
    · rw [e] at e'
      cases e'
      obtain ⟨t, ht, hpr, rfl⟩ := vals_many_source hn
      rcases hs' with ⟨_, e1, e2⟩ | ⟨_, e1, e2⟩
      · rw [e1, e2]; exact jsonParty_noassertion html
      · exact jsonParty_carried (hs.supplier t ht hpr) e1 e2
  · intro s e
    rcases lastOf_cases hsay.originator with e' | ⟨n, hn, s', hs', e'⟩
    · rw [e] at e'; cases e'
    · rw [e] at e'
      cases e'
      obtain ⟨t, ht, hpr, rfl⟩ := vals_many_source hn
      rcases hs' with ⟨_, e1, e2⟩ | ⟨_, e1, e2⟩
      · rw [e1, e2]; exact jsonParty_noassertion html
      · exact jsonParty_carried (hs.originator t ht hpr) e1 e2
  · intro f hf
    exact rdf_jsonFile hs h h1 h2 f (List.mem_append.2 (.inr (List.mem_flatMap.2 ⟨p, hp, hf⟩)))

theorem rdf_jsonDocument : JsonDocument html (bareIds d) := by
  obtain ⟨n, hn, _⟩ := C49_one_document v o g d h h1 h2
  have D := C49_document v o g d h h1 h2 n hn
  refine ⟨?_, ?_, ?_, show ∀ p ∈ d.packages, _ from rdf_jsonPackage hs h h1 h2, fun f hf => rdf_jsonFile hs h h1 h2 f (List.mem_append.2 (.inl hf)), ?_, ?_, ?_⟩
  · obtain ⟨a, b, e, ha, _, e2⟩ := D.names
    obtain ⟨hc, hb⟩ := hs.document n hn
    rw [e, ← List.singleton_append, ← List.append_assoc] at hc
    have hc := carriedName_trim (carriedName_part hc)
    show JsonId html g!"SPDXRef-" (bare g!"SPDXRef-" d.spdxId)
    rw [e2]
    exact jsonId_bare hc.carried hc.element (hb a b e ha).1 (hb a b e ha).2
  · intro r hr
    obtain ⟨r, hr', rfl⟩ := List.mem_map.1 hr
    obtain ⟨m, hm, hsay⟩ := pointwise_right D.externals r hr'
    obtain ⟨t, ht, hp, rfl⟩ := vals_of_source hm
    obtain ⟨k, hk, hid⟩ := lastOf_source hsay.id (vals_given (hs.external t ht hp))
    obtain ⟨u, hu, hup, rfl⟩ := vals_of_source hk
    obtain ⟨q1, q2, q3⟩ := hs.externalId u hu hup
    show JsonId html g!"DocumentRef-" (bare g!"DocumentRef-" r.documentRefID)
    rw [show r.documentRefID = u.object.id from hid]
    exact jsonId_bare q1.carried q1.document q2 q3
  · intro i hi c hc
    obtain ⟨i', e, hsay⟩ := D.creation
    have : d.creationInfo = some i := hi
    rw [e] at this
    cases this
    obtain ⟨m, hm, hcs⟩ := pointwise_right hsay.creators c hc
    obtain ⟨t, ht, hp, rfl⟩ := vals_many_source hm
    obtain ⟨q1, q2, q3, q4⟩ := jsonAgent_carried (hs.creator t ht hp) hcs.1
    exact ⟨q1, q2, q3, q4⟩
  · intro r hr
    obtain ⟨u, ⟨hu, hp, hsay⟩, _⟩ := C52_relationships v o g d h h1 h2 r hr
    obtain ⟨q1, q2⟩ := hs.related u hu hp
    obtain ⟨m, hm, hm'⟩ := lastOf_source hsay.refB (vals_given q2)
    obtain ⟨t, ht, htp, rfl⟩ := vals_of_source hm
    exact ⟨jsonRef_reference q1 hsay.refA, jsonRef_related (hs.relatedTo t ht htp) hm'⟩
  · intro a ha
    obtain ⟨u, hu, hp, hsay⟩ := C52_annotations v o g d h h1 h2 a ha
    obtain ⟨m, hm, hm'⟩ := lastOf_source hsay.annotator (vals_given (hs.annotation u hu hp))
    obtain ⟨t, ht, htp, rfl⟩ := vals_of_source hm
    obtain ⟨q1, q2, q3, q4⟩ := jsonAgent_carried (hs.annotator t ht htp) hm'.1
    exact ⟨q1, q2, q3, q4⟩
  · intro s hs'
    have : s ∈ d.snippets := hs'
    rw [D.snippets] at this
    cases this

end

/-! ## What is kept -/

section
variable {v : Version} {o : MapOrder} {g : Graph} {d : Doc} (h : loadGraph v o g = .ok d) (hv : v ≠ .v21)
  (h1 : OneRole g) (h2 : DistinctNames g)

include h hv h1 h2

theorem rdf_keptFile : ∀ f ∈ allFiles d, keptFile v f = leftFile v f := by
  intro f hf
  obtain ⟨x, ts, _, _, _, hsay⟩ := C50_files v o g d h h1 h2 f hf
  unfold keptFile leftFile
  rw [if_neg hv, hsay.annotations]
  rfl

omit h h1 h2 in
theorem rdf_keptRef {ts : List Triple} {r : PackageExternalRef} (hr : ExternalRefSays ts r) : keptRef v r = r := by
  unfold keptRef
  rw [if_neg hv]
  have : replaceChar '_' '-' r.category = r.category := by
    rcases lastOf_cases hr.category with e | ⟨n, _, e⟩
    · rw [e]; rfl
    · simp only [CategorySays, List.mem_cons, Prod.mk.injEq, List.not_mem_nil, or_false] at e
      rcases e with ⟨_, e⟩ | ⟨_, e⟩ | ⟨_, e⟩ <;> (rw [e]; decide)
  rw [this]

theorem rdf_keptPackage : ∀ p ∈ d.packages,
    keptPackage v p = { p with filesAnalyzedTagPresent := true, files := p.files.map (leftFile v) } := by
  intro p hp
  obtain ⟨x, ts, _, _, ⟨ns, _, _, rfl⟩, hsay⟩ := C51_packages v o g d h h1 h2 p hp
  have hf : p.files.map (keptFile v) = p.files.map (leftFile v) := List.map_congr_left fun f hf =>
    rdf_keptFile h hv h1 h2 f (List.mem_append.2 (.inr (List.mem_flatMap.2 ⟨p, hp, hf⟩)))
  have hr : p.externalRefs.map (keptRef v) = p.externalRefs := by
    conv => rhs; rw [← List.map_id p.externalRefs]
    refine List.map_congr_left fun r hr => ?_
    obtain ⟨m, _, hm⟩ := pointwise_right hsay.externalRefs r hr
    exact rdf_keptRef hv hm
  have hc : (if v ≠ .v23 ∧ p.verificationCode = some {} then none else p.verificationCode) = p.verificationCode := by
    split
    · rename_i hc
      rcases hsay.verificationCode with ⟨_, e⟩ | ⟨_, x, _, e⟩
      · rw [e]
      · rw [e] at hc
        split at hc
        · cases hc.2
        · rename_i hn
          exact absurd ⟨hc.1, Option.some.inj hc.2⟩ hn
    · rfl
  have hold : ∀ q ∈ [Pred.primaryPackagePurpose, .releaseDate, .builtDate, .validUntilDate], v ≠ .v23 → vals (ns.flatMap g.of) q = [] := by
    intro q hq hv3
    refine List.eq_nil_iff_forall_not_mem.2 fun m hm => ?_
    obtain ⟨t, ht, hp', _⟩ := vals_source hm
    have := hsay.only t ht
    rw [hp'] at this
    simp only [packageProps, if_neg hv3, List.append_nil] at this
    clear hp' hm
    revert this hq
    revert q
    decide
  have hwhen : ∀ {q : Pred} {R : RNode → Str → Prop} {x : Str}, q ∈ [Pred.primaryPackagePurpose, .releaseDate, .builtDate, .validUntilDate] →
      LastOf R [] (vals (ns.flatMap g.of) q) x → (if v = .v23 then x else []) = x := by
    intro q R x hq hl
    split
    · rfl
    · rename_i hv3
      rw [hold q hq hv3] at hl
      exact (lastOf_none hl).symm
  unfold keptPackage
  rw [hc, hr, hf, if_neg hv, hwhen (by simp) hsay.purpose, hwhen (by simp) hsay.releaseDate, hwhen (by simp) hsay.builtDate,
    hwhen (by simp) hsay.validUntilDate, hsay.annotations]
  simp only [ne_eq, hv, not_false_eq_true, decide_true, List.map_nil]
  rw [← hsay.unpackaged, ← hsay.annotations]

theorem rdf_keptDoc : keptDoc v (bareIds d) = leftInJson v d := by
  obtain ⟨n, hn, _⟩ := C49_one_document v o g d h h1 h2
  have D := C49_document v o g d h h1 h2 n hn
  have e1 : d.packages.map (keptPackage v) =
      d.packages.map fun p => { p with filesAnalyzedTagPresent := true, files := p.files.map (leftFile v) } :=
    List.map_congr_left (rdf_keptPackage h hv h1 h2)
  have e2 : d.files.map (keptFile v) = d.files.map (leftFile v) := List.map_congr_left fun f hf =>
    rdf_keptFile h hv h1 h2 f (List.mem_append.2 (.inl hf))
  have e3 : d.annotations.map keptAnnotation = d.annotations := by
    conv => rhs; rw [← List.map_id d.annotations]
    refine List.map_congr_left fun a ha => ?_
    obtain ⟨u, _, _, hsay⟩ := C52_annotations v o g d h h1 h2 a ha
    unfold keptAnnotation
    rw [← hsay.subject]
    rfl
  have e4 : d.snippets.map keptSnippet = d.snippets := by rw [D.snippets]; rfl
  unfold keptDoc leftInJson
  simp only [bareIds, ne_eq, hv, not_false_eq_true, decide_true]
  rw [e1, e2, e3, e4]

end

/-! ## The writer does not see the prefixes -/

theorem encodeFields_same {σ : Type} {s t : σ} : ∀ {fs : List (Field σ)},
    (∀ f ∈ fs, f.isEmpty (f.get s) = f.isEmpty (f.get t) ∧ f.codec.enc (f.get s) = f.codec.enc (f.get t)) →
    encodeFields s fs = encodeFields t fs
  | [], _ => rfl
  | f :: fs, h => by
    obtain ⟨h1, h2⟩ := h f (by simp)
    unfold encodeFields
    rw [h1, h2, encodeFields_same fun f hf => h f (by simp [hf])]

theorem mapRes_same {α β : Type} {f : α → Res β} {k : α → α} : ∀ {l : List α}, (∀ a ∈ l, f (k a) = f a) → mapRes f (l.map k) = mapRes f l
  | [], _ => rfl
  | a :: l, h => by simp only [List.map_cons, mapRes, h a (by simp), mapRes_same (l := l) fun b hb => h b (by simp [hb])]

theorem prefixId_bare {pre x : Str} (h : hasPrefix pre (bare pre x) = false) : prefixId pre (bare pre x) = prefixId pre x := by
  unfold prefixId
  rw [h]
  unfold bare
  cases hp : hasPrefix pre x with
  | false => rfl
  | true =>
    obtain ⟨r, rfl⟩ := hasPrefix_iff.1 hp
    simp

theorem external_enc {r : ExternalDocumentRef} (h : hasPrefix g!"DocumentRef-" (bare g!"DocumentRef-" r.documentRefID) = false) :
    externalDocCodec.enc { r with documentRefID := bare g!"DocumentRef-" r.documentRefID } = externalDocCodec.enc r := by
  have e : encodeFields { r with documentRefID := bare g!"DocumentRef-" r.documentRefID } externalDocFields = encodeFields r externalDocFields := by
    refine encodeFields_same fun f hf => ?_
    simp only [externalDocFields, List.mem_cons, List.not_mem_nil, or_false] at hf
    rcases hf with rfl | rfl | rfl
    · refine ⟨rfl, ?_⟩
      show ((Res.ok (documentIdToJson (bare g!"DocumentRef-" r.documentRefID))).bind ofMarshaled) = (Res.ok (documentIdToJson r.documentRefID)).bind ofMarshaled
      unfold documentIdToJson
      rw [show documentRefPrefix = g!"DocumentRef-" from rfl, prefixId_bare h]
    · exact ⟨rfl, rfl⟩
    · exact ⟨rfl, rfl⟩
  show (encodeFields _ externalDocFields >>= fun es => Res.ok (Json.obj es)) = (encodeFields _ externalDocFields >>= fun es => Res.ok (Json.obj es))
  rw [e]

/-- A document with prefixes is written like one without. -/
theorem writeJson_bare (so : Sorter) (v : Version) (html : Bool) {d : Doc} (h1 : hasPrefix g!"SPDXRef-" (bare g!"SPDXRef-" d.spdxId) = false)
    (h2 : ∀ r ∈ d.externalDocumentRefs, hasPrefix g!"DocumentRef-" (bare g!"DocumentRef-" r.documentRefID) = false) :
    writeJson so v html (bareIds d) = writeJson so v html d := by
  have e : encodeFields { doc := bareIds d, packages := d.packages.map fun p => some (p, []), relationships := d.relationships.map some : RawDoc } (docFields so v) =
      encodeFields { doc := d, packages := d.packages.map fun p => some (p, []), relationships := d.relationships.map some } (docFields so v) := by
    refine encodeFields_same fun f hf => ?_
    simp only [docFields, List.mem_cons, List.not_mem_nil, or_false] at hf
    rcases hf with rfl | rfl | rfl | rfl | rfl | rfl | rfl | rfl | rfl | rfl | rfl | rfl | rfl | rfl
    case inr.inr.inl =>
      refine ⟨rfl, ?_⟩
      show ((Res.ok (elementIdToJson (bare g!"SPDXRef-" d.spdxId))).bind ofMarshaled) = (Res.ok (elementIdToJson d.spdxId)).bind ofMarshaled
      unfold elementIdToJson
      rw [show spdxRefPrefix = g!"SPDXRef-" from rfl, prefixId_bare h1]
    case inr.inr.inr.inr.inr.inl =>
      have hm : mapRes externalDocCodec.enc (d.externalDocumentRefs.map fun r => { r with documentRefID := bare g!"DocumentRef-" r.documentRefID }) =
          mapRes externalDocCodec.enc d.externalDocumentRefs := mapRes_same fun r hr => external_enc (h2 r hr)
      show (d.externalDocumentRefs.map _).isEmpty = d.externalDocumentRefs.isEmpty ∧
        (listCodec {} externalDocCodec).enc (d.externalDocumentRefs.map fun r => { r with documentRefID := bare g!"DocumentRef-" r.documentRefID }) =
          (listCodec {} externalDocCodec).enc d.externalDocumentRefs
      cases hd : d.externalDocumentRefs with
      | nil => exact ⟨rfl, rfl⟩
      | cons r rs =>
        rw [hd] at hm
        refine ⟨rfl, ?_⟩
        simp only [List.map_cons] at hm ⊢
        simp only [listCodec, hm]
    all_goals exact ⟨rfl, rfl⟩
  unfold writeJson
  rw [show (structCodec (docFields so v)).enc = fun s => (encodeFields s (docFields so v) >>= fun es => Res.ok (Json.obj es)) from rfl]
  simp only []
  rw [← e]
  rfl

end Verif
