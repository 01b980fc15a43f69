import Verif.Lemmas.OddAgents
import Verif.Props.C59_JsonOrder

/-!
# C88: agents that are arrays or objects
-/

namespace Verif
open Spec

theorem plainList_mem : ∀ {l : List Json}, Json.agentsPlainList l = true → ∀ j ∈ l, j.agentsPlain = true
  | [], _, j, hj => by cases hj
  | a :: l, h, j, hj => by
    rw [Json.agentsPlainList, Bool.and_eq_true] at h
    rcases List.mem_cons.1 hj with e | hj
    · rw [e]; exact h.1
    · exact plainList_mem h.2 j hj

theorem plainFields_mem : ∀ {l : List (Str × Json)}, Json.agentsPlainFields l = true → ∀ e ∈ l, agentPlain e.1 e.2 = true ∧ e.2.agentsPlain = true
  | [], _, e, he => by cases he
  | (k, j) :: l, h, e, he => by
    rw [Json.agentsPlainFields, Bool.and_eq_true, Bool.and_eq_true] at h
    rcases List.mem_cons.1 he with e' | he
    · rw [e']; exact h.1
    · exact plainFields_mem h.2 e he

/-- Nothing is expected to be an agent that is an array or object. -/
def PlainFor (role : AgentRole) (j : Json) : Prop :=
  j.agentsPlain = true ∧ (role = .agent → j.isCompound = false) ∧ (role = .agents → j.hasCompound = false)

theorem plainFor_under {k : Str} {j : Json} (h : agentPlain k j = true) (h' : j.agentsPlain = true) : PlainFor (expectedUnder k) j := by
  rw [← roleUnder_eq]
  unfold agentPlain at h
  unfold PlainFor roleUnder
  refine ⟨h', ?_, ?_⟩
  · split at h
    · next hc => rw [if_pos hc]; simp
    · next hc =>
      rw [if_neg hc]
      split at h
      · next hd => rw [if_pos hd]; simpa using h
      · next hd => rw [if_neg hd]; simp
  · split at h
    · next hc => rw [if_pos hc]; simpa using h
    · next hc =>
      rw [if_neg hc]
      split at h
      · next hd => rw [if_pos hd]; simp
      · next hd => rw [if_neg hd]; simp

theorem speltAs_plain {role : AgentRole} {t : Str} {j j' : Json} (h : SpeltAs role t j j') : PlainFor role j → j' = j := by
  induction h with
  | null | true | false | num | str => exact fun _ => rfl
  | noElements =>
    rintro ⟨-, h, -⟩
    unfold seenAs
    split
    · next hr => exact absurd (h hr) (by simp [Json.isCompound])
    · rfl
  | noMembers =>
    rintro ⟨-, h, -⟩
    unfold seenAs
    split
    · next hr => exact absurd (h hr) (by simp [Json.isCompound])
    · rfl
  | @arr role ps f hne ho _ ih =>
    rintro ⟨h0, h, h'⟩
    unfold seenAs
    split
    · next hr => exact absurd (h hr) (by simp [Json.isCompound])
    · rw [Json.agentsPlain] at h0
      congr 1
      refine List.map_congr_left fun p hp => ih p hp ⟨plainList_mem h0 _ (List.mem_map_of_mem hp), ?_, ?_⟩
      · intro hr
        have hr' : role = .agents := by cases role <;> simp_all [expectedIn]
        have := h' hr'
        simp only [Json.hasCompound, List.any_eq_false] at this
        simpa using this _ (List.mem_map_of_mem hp)
      · intro hr
        unfold expectedIn at hr
        split at hr <;> cases hr
  | @obj role ms g hne ho _ ih =>
    rintro ⟨h0, h, h'⟩
    unfold seenAs
    split
    · next hr => exact absurd (h hr) (by simp [Json.isCompound])
    · rw [Json.agentsPlain] at h0
      congr 1
      refine List.map_congr_left fun p hp => ?_
      obtain ⟨h1, h2⟩ := plainFields_mem h0 _ (List.mem_map_of_mem hp)
      rw [ih p hp (plainFor_under h1 h2)]

/-- **C88.** Each JSON text is seen as exactly one value, which is its own value if every agent is plain. -/
theorem C88_seen (s : Str) (j : Json) (h : JsonTextOf s j) :
    ∃ j', JsonTextAs s j j' ∧ (∀ j'', JsonTextAs s j j'' → j'' = j') ∧ (j.agentsPlain = true → j' = j) := by
  obtain ⟨j', h'⟩ := jsonTextAs_of h
  refine ⟨j', h', fun j'' h'' => Option.some.inj ((scanJsonA_of h'').symm.trans (scanJsonA_of h')), fun hp => ?_⟩
  obtain ⟨a, t, b, -, -, -, hs, -⟩ := h'
  exact speltAs_plain hs ⟨hp, by simp, by simp⟩

section
variable (so : Sorter) (copy : Version → Version → Doc → Doc) (float : Str → Bool)

/-- **C88.** A text is read as the value it is seen as. -/
theorem C88_read (target : Version) (s : Str) (j j' : Json) (h : JsonTextAs s j j') (hf : j.floats float = true) :
    readJsonAny so copy float true target s = readJsonInto so copy true target j' := by
  unfold readJsonAny readJsonText readOddAgents
  rw [scanJson_iff.2 (jsonTextOf_of h), scanJsonA_of h]
  simp only [Bool.not_true, Bool.false_eq_true, if_false, hf]
  split
  · next hp =>
    obtain ⟨x, -, h2, h3⟩ := C88_seen s j (jsonTextOf_of h)
    rw [h2 j' h, h3 hp]
  · rfl

/-- **C88.** So a text is read as exactly what the object it is seen as says, agents of any kind included. -/
theorem C88_says (target : Version) (s : Str) (es es' : List (Str × Json)) (hs : JsonTextAs s (.obj es) (.obj es'))
    (hf : Json.floats float (.obj es) = true) (ht : tidy (.obj es') = true) (hv : StatesVersion es' target) (d : Doc) :
    readJsonAny so copy float true target s = .ok d ↔ DocumentIs target es' d := by
  rw [C88_read so copy float target s _ _ hs hf]
  exact C57_same_version so copy target es' ht hv d

/-- **C88.** Reading does not panic on any text. -/
theorem C88_no_panic (isPtr : Bool) (target : Version) (s : Str) : readJsonAny so copy float isPtr target s ≠ .panic := by
  unfold readJsonAny
  refine C59_never_panics so copy float _ (fun s => ?_) isPtr target s
  unfold readOddAgents
  split
  · exact err_safe
  · exact readJsonInto_safe _ _ _ _ _
end

theorem compound_text {role : AgentRole} {t : Str} {j j' : Json} (h : SpeltAs role t j j') (hc : j.isCompound = true) :
    j' = seenAs role t j' ∧ ∃ o m e, t = o :: (m ++ [e]) ∧ isQuote o = false ∧ isQuote e = false ∧ o ≠ 'N' := by
  cases h with
  | null | true | false | num | str => cases hc
  | noElements | arr | noMembers | obj =>
    refine ⟨?_, _, _, _, rfl, rfl, rfl, by decide⟩
    cases role <;> rfl

/-- **C88.** An array or object in place of an agent is taken apart at its first colon, wherever that is; without a
colon it is rejected. -/
theorem C88_agent (t : Str) (j j' : Json) (h : SpeltAs .agent t j j') (hc : j.isCompound = true) :
    (∀ c, CreatorIs j' c ↔ ColonPair t c.creatorType c.creator) ∧ (∀ a, AnnotatorIs j' a ↔ ColonPair t a.annotatorType a.annotator) ∧
    (∀ s, SupplierIs j' s ↔ ColonPair t s.supplierType s.supplier) ∧
    ∀ o, OriginatorIs j' o ↔ ∃ b, t = o.originatorType ++ g!":" ++ b ∧ ':' ∉ o.originatorType ∧
      o.originator = b.dropWhile fun c => c = ' ' || c = '\t' := by
  obtain ⟨h1, o, m, e, h2, h3, h4, h5⟩ := compound_text h hc
  have hw : written j' = t := by
    rw [h1]
    show trim isQuote (g!"\"" ++ t ++ g!"\"") = t
    refine trim_pad (by decide) (by decide) ⟨?_, ?_⟩
    · rintro c u rfl
      cases h2
      exact h3
    · rintro c u rfl
      rw [← List.cons_append] at h2
      rw [(List.append_singleton_inj.1 h2).2]; exact h4
  have hn : t ≠ g!"NOASSERTION" := by
    rintro rfl
    exact h5 (List.cons.inj h2).1.symm
  unfold CreatorIs AnnotatorIs SupplierIs OriginatorIs
  rw [hw]
  simp [hn]

/-- A text with an object in place of a creator, and other blanks within the object. -/
def oddCreator (blanks : Str) : Str :=
  g!"{\"spdxVersion\":\"SPDX-2.3\",\"creationInfo\":{\"creators\":[{\"Person\":" ++ blanks ++ g!"\"Jane\"," ++ blanks ++ g!"\"Email\":1}]}}"

/-- **An object in place of a creator is no error.**  Its text up to the first colon is the kind of the creator. -/
theorem C88_object_false : ∃ d ci,
    readJsonAny insertionSorter (fun _ _ d => d) (fun _ => true) true .v23 (oddCreator g!" ") = .ok d ∧ d.creationInfo = some ci ∧
    ci.creators = [{ creatorType := g!"{\"Person\"", creator := g!"\"Jane\", \"Email\":1}" }] :=
  ⟨{ spdxVersion := g!"SPDX-2.3", creationInfo := some { creators := [{ creatorType := g!"{\"Person\"", creator := g!"\"Jane\", \"Email\":1}" }] } },
    _, by decide +kernel, rfl, rfl⟩

/-- **Two texts of the same JSON value are not always read alike**, if there are objects in place of agents: blanks
within the object count. -/
theorem C88_blanks_false : ∃ j d d', JsonTextOf (oddCreator g!" ") j ∧ JsonTextOf (oddCreator g!"") j ∧ d ≠ d' ∧
    readJsonAny insertionSorter (fun _ _ d => d) (fun _ => true) true .v23 (oddCreator g!" ") = .ok d ∧
    readJsonAny insertionSorter (fun _ _ d => d) (fun _ => true) true .v23 (oddCreator g!"") = .ok d' := by
  refine ⟨.obj [(g!"spdxVersion", .str g!"SPDX-2.3"), (g!"creationInfo", .obj [(g!"creators", .arr [.obj [(g!"Person", .str g!"Jane"), (g!"Email", .num g!"1")]])])],
    { spdxVersion := g!"SPDX-2.3", creationInfo := some { creators := [{ creatorType := g!"{\"Person\"", creator := g!"\"Jane\", \"Email\":1}" }] } },
    { spdxVersion := g!"SPDX-2.3", creationInfo := some { creators := [{ creatorType := g!"{\"Person\"", creator := g!"\"Jane\",\"Email\":1}" }] } },
    scanJson_iff.1 ?_, scanJson_iff.1 ?_, by decide +kernel, by decide +kernel, by decide +kernel⟩
  · rfl
  · rfl

/-- The other agents: an annotator, supplier and originator as arrays and objects; one without a colon is rejected. -/
theorem C88_sample : ∃ d d' : Doc,
    readJsonAny insertionSorter (fun _ _ d => d) (fun _ => true) true .v23
      g!"{\"spdxVersion\":\"SPDX-2.3\",\"packages\":[{\"Supplier\":[\"Person: x\", 2], \"originator\":{\"a\" : [ ]}}]}" = .ok d ∧
    d.packages.map (fun p => (p.supplier, p.originator)) =
      [(some { supplierType := g!"[\"Person", supplier := g!"x\", 2]" }, some { originatorType := g!"{\"a\" ", originator := g!"[ ]}" })] ∧
    readJsonAny insertionSorter (fun _ _ d => d) (fun _ => true) true .v23
      g!"{\"spdxVersion\":\"SPDX-2.3\",\"annotations\":[{\"annotator\":{\"Tool\":{}}}]}" = .ok d' ∧
    d'.annotations.map (·.annotator) = [{ annotatorType := g!"{\"Tool\"", annotator := g!"{}}" }] ∧
    readJsonAny insertionSorter (fun _ _ d => d) (fun _ => true) true .v23
      g!"{\"spdxVersion\":\"SPDX-2.3\",\"annotations\":[{\"annotator\":[\"Tool\"]}]}" = .err :=
  ⟨{ spdxVersion := g!"SPDX-2.3", packages := [{ filesAnalyzed := true, supplier := some { supplierType := g!"[\"Person", supplier := g!"x\", 2]" }, originator := some { originatorType := g!"{\"a\" ", originator := g!"[ ]}" } }] },
   { spdxVersion := g!"SPDX-2.3", annotations := [{ annotator := { annotatorType := g!"{\"Tool\"", annotator := g!"{}}" } }] },
   by decide +kernel, by decide +kernel, by decide +kernel, by decide +kernel, by decide +kernel⟩

end Verif
