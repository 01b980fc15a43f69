import Verif.Lemmas.RdfLicense
import Verif.Lemmas.RdfExample

/-!
# C40: reading RDF ends, and a license is read exactly if it is described without a cycle
-/

namespace Verif
open RdfM Spec

theorem grey_initial : RState.grey {} = fun _ => false := by funext x; rfl

/-- C40: reading a graph ends: the methods of the reader never call each other deeper than the graph has triples (plus
two), so the model's limit on the depth is never met, and a larger limit gives the same result. -/
theorem C40_reading_ends (v : Version) (o : MapOrder) (g : Graph) :
    loadGraph v o g ≠ .cut ∧ ∀ k, loadState v g o (g.depth + k) {} = loadState v g o g.depth {} := by
  have h : loadState v g o g.depth {} ≠ .cut := by
    intro e
    have := free_loadState v g o g.depth (fun _ => false)
      (by have := g.free_le (fun _ => false); unfold Graph.depth; omega) {} grey_initial
    rw [e] at this; exact this
  refine ⟨?_, fun k => (Below.loadState v g o g.depth k {}).resolve_left h⟩
  unfold loadGraph
  cases e : loadState v g o g.depth {} with
  | ok x => dsimp only; split <;> simp
  | err => simp
  | panic => simp
  | cut => exact absurd e h

/-- C40: reading a license ends, whatever the state of the reader; a larger limit on the depth gives the same
result. -/
theorem C40_license_ends (g : Graph) (node : RNode) (s : RState) :
    getAnyLicense g g.depth node s ≠ .cut ∧ getAnyLicense g g.depth node s ≠ .panic ∧
    ∀ k, getAnyLicense g (g.depth + k) node s = getAnyLicense g g.depth node s := by
  have h : getAnyLicense g g.depth node s ≠ .cut := by
    intro e
    have := free_getAnyLicense g g.depth s.grey node
      (.inr (by have := g.free_le s.grey; unfold Graph.depth; omega)) s rfl
    rw [e] at this; exact this
  refine ⟨h, ?_, fun k => (Below.getAnyLicense_le g g.depth node k s).resolve_left h⟩
  intro e
  have := calm_getAnyLicense g g.depth node s trivial
  rw [e] at this; exact this

/-- C40: a license is read exactly if the graph describes a license tree at the node, without meeting a node that is
being read; the text is the tree's. -/
theorem C40_license (g : Graph) (node : RNode) (s : RState) :
    (∃ l s', licenseText g node s = .ok (l.text, s') ∧ Describes g s.grey node l ∧ s'.grey = s.grey) ∨
    (licenseText g node s = .err ∧ ∀ l, ¬ Describes g s.grey node l) := by
  obtain ⟨hc, hp, _⟩ := C40_license_ends g node s
  have hs := sound_getAnyLicense g g.depth s.grey node s rfl
  have hb : licenseText g node s = match getAnyLicense g g.depth node s with
      | .ok (l, s') => .ok (l.text, s') | .err => .err | .panic => .panic | .cut => .cut := by
    change RdfM.bind _ _ s = _
    unfold RdfM.bind
    cases getAnyLicense g g.depth node s <;> rfl
  cases e : getAnyLicense g g.depth node s with
  | ok x =>
    obtain ⟨l, s'⟩ := x
    rw [e] at hs hb
    exact .inl ⟨l.tree, s', by rw [hb, License.tree_text], hs⟩
  | err =>
    refine .inr ⟨by rw [hb, e], fun l hl => ?_⟩
    rcases does_getAnyLicense hl g.depth s rfl with e' | ⟨_, _, e', _⟩
    · rw [e] at e'; simp at e'
    · rw [e] at e'; simp at e'
  | panic => exact absurd e hp
  | cut => exact absurd e hc

/-- C40: a node describes at most one license tree. -/
theorem C40_unique (g : Graph) (G : Str → Bool) (node : RNode) (l l' : Lic) (h : Describes g G node l)
    (h' : Describes g G node l') : l = l' := by
  -- a state in which just the nodes of `G` that matter are being read
  let s : RState := { cache := (node.id :: g.objects).map fun x => (x, ⟨.nil, G x⟩) }
  have hget : ∀ (L : List Str) (x : Str), mapGet x (L.map fun x => (x, (⟨.nil, G x⟩ : NodeState))) =
      if x ∈ L then some ⟨.nil, G x⟩ else none := by
    intro L x
    induction L with
    | nil => rfl
    | cons a L ih =>
      simp only [List.map_cons, mapGet, ih]
      by_cases ha : a = x
      · subst ha; simp
      · simp [ha, Ne.symm ha]
  have hgrey : ∀ x, s.grey x = (if x ∈ node.id :: g.objects then G x else false) := by
    intro x
    simp only [RState.grey, s]
    rw [hget]
    by_cases hx : x ∈ node.id :: g.objects
    · rw [if_pos hx, if_pos hx]
    · rw [if_neg hx, if_neg hx]
  -- descriptions only depend on the nodes of the graph
  have conv : ∀ {G G' : Str → Bool} {n l}, Describes g G n l → G n.id = G' n.id → (∀ x ∈ g.objects, G x = G' x) →
      Describes g G' n l := by
    intro G G' n l hd hn hx
    exact hd.rec (motive_1 := fun G n l _ => ∀ G', G n.id = G' n.id → (∀ x ∈ g.objects, G x = G' x) → Describes g G' n l)
      (motive_2 := fun G ns ls _ => ∀ G', (∀ m ∈ ns, G m.id = G' m.id) → (∀ x ∈ g.objects, G x = G' x) → DescribeAll g G' ns ls)
      (fun hG hx G' hn _ => .named (hn ▸ hG) hx)
      (fun {G n ms} hG hs hms ih G' hn ho => .all (hn ▸ hG) hs (ih _
        (fun m hm => by
          have : m.id ∈ g.objects := by
            rw [membersOf_eq] at hm
            obtain ⟨t, ht, rfl⟩ := List.mem_map.1 hm
            exact obj_mem (List.mem_filter.1 ht).1
          simp only [opening, ho _ this])
        (fun x hx => by simp only [opening, ho _ hx])))
      (fun {G n ms} hG hs hms ih G' hn ho => .any (hn ▸ hG) hs (ih _
        (fun m hm => by
          have : m.id ∈ g.objects := by
            rw [membersOf_eq] at hm
            obtain ⟨t, ht, rfl⟩ := List.mem_map.1 hm
            exact obj_mem (List.mem_filter.1 ht).1
          simp only [opening, ho _ this])
        (fun x hx => by simp only [opening, ho _ hx])))
      (fun _ _ _ => .nil)
      (fun {G n ns l ls} h1 h2 ih1 ih2 G' hm ho => .cons (ih1 G' (hm _ (by simp)) ho) (ih2 G' (fun m h => hm m (by simp [h])) ho))
      G' hn hx
  have h1 : G node.id = s.grey node.id := by rw [hgrey]; simp
  have h2 : ∀ x ∈ g.objects, G x = s.grey x := fun x hx => by rw [hgrey, if_pos (List.mem_cons_of_mem _ hx)]
  have e1 := does_getAnyLicense (conv h h1 h2) g.depth s rfl
  have e2 := does_getAnyLicense (conv h' h1 h2) g.depth s rfl
  have hc := (C40_license_ends g node s).1
  rcases e1 with e1 | ⟨a, s1, e1, t1, _⟩
  · exact absurd e1 hc
  · rcases e2 with e2 | ⟨b, s2, e2, t2, _⟩
    · exact absurd e2 hc
    · rw [e1] at e2
      injection e2 with e2
      injection e2 with e2 _
      rw [← t1, ← t2, e2]

theorem Spec.DescribeAll.of_forall {g : Graph} {G : Str → Bool} : ∀ {ns : List RNode},
    (∀ n ∈ ns, ∃ l, Describes g G n l) → ∃ ls, DescribeAll g G ns ls
  | [], _ => ⟨[], .nil⟩
  | n :: ns, h => by
    obtain ⟨l, hl⟩ := h n (by simp)
    obtain ⟨ls, hls⟩ := DescribeAll.of_forall (ns := ns) fun m hm => h m (by simp [hm])
    exact ⟨l :: ls, .cons hl hls⟩

theorem Spec.DescribeAll.mem {g : Graph} {G : Str → Bool} : ∀ {ns : List RNode} {ls : List Lic}, DescribeAll g G ns ls →
    ∀ n ∈ ns, ∃ l, Describes g G n l ∧ l ∈ ls
  | _, _, .nil, n, hn => by simp at hn
  | _, _, .cons h1 h2, n, hn => by
    rcases List.mem_cons.1 hn with rfl | hn
    · exact ⟨_, h1, by simp⟩
    · obtain ⟨l, hl, hm⟩ := h2.mem n hn; exact ⟨l, hl, by simp [hm]⟩

theorem Spec.Named.not_set {g : Graph} {n : RNode} {x : Str} {b : Bool} (h : Named g n x) (h' : IsSet g n b) : False := by
  have hc : ClassOf g n.id .conjunctiveLicenseSet ∨ ClassOf g n.id .disjunctiveLicenseSet := by
    cases h' with
    | all h _ => exact .inl h
    | any h => exact .inr h
  have nope : ∀ c, c ≠ .conjunctiveLicenseSet → c ≠ .disjunctiveLicenseSet → ClassOf g n.id c → False := by
    intro c h1 h2 h3
    rcases hc with h | h
    · exact h1 (h3.unique h)
    · exact h2 (h3.unique h)
  cases h with
  | special hn _ =>
    have := about_nil.2 hn
    rcases hc with h | h
    · exact h.classType.choose_spec.2.2 this
    · exact h.classType.choose_spec.2.2 this
  | simple h _ => exact nope _ (by simp) (by simp) h
  | extracted h _ => exact nope _ (by simp) (by simp) h
  | listed h _ => exact nope _ (by simp) (by simp) h
  | license h _ => exact nope _ (by simp) (by simp) h
  | orLater h _ _ _ _ => exact nope _ (by simp) (by simp) h
  | withException h _ _ _ => exact nope _ (by simp) (by simp) h
  | exceptionAlone h _ => exact nope _ (by simp) (by simp) h

theorem walk_mem {g : Graph} {n : RNode} {ns : List RNode} (h : Walk g n ns) : ∃ t, ns = n :: t := by
  cases h <;> exact ⟨_, rfl⟩

theorem cycles_of_described (g : Graph) : ∀ {ns : List RNode} {G : Str → Bool} {n : RNode} {l : Lic},
    Describes g G n l → Walk g n ns → (ns.map (·.id)).Nodup ∧ ∀ m ∈ ns, G m.id = false ∧ Described g m
  | _, G, n, l, hd, .here => by
    refine ⟨by simp, fun m hm => ?_⟩
    rw [List.mem_singleton.1 hm]
    cases hd with
    | named h hx => exact ⟨h, .inl ⟨_, hx⟩⟩
    | all h hs _ => exact ⟨h, .inr ⟨_, hs⟩⟩
    | any h hs _ => exact ⟨h, .inr ⟨_, hs⟩⟩
  | _, G, n, l, hd, .step (m := m) (ns := ns) hs hm hw => by
    have key : G n.id = false ∧ ∃ l', Describes g (opening G n.id) m l' := by
      cases hd with
      | named h hx => exact absurd hs fun hs => hx.not_set hs
      | all h _ hms => obtain ⟨l', h', _⟩ := hms.mem m hm; exact ⟨h, l', h'⟩
      | any h _ hms => obtain ⟨l', h', _⟩ := hms.mem m hm; exact ⟨h, l', h'⟩
    obtain ⟨hG, l', hl'⟩ := key
    obtain ⟨hnd, hall⟩ := cycles_of_described g hl' hw
    refine ⟨?_, ?_⟩
    · simp only [List.map_cons, List.nodup_cons]
      refine ⟨fun h => ?_, hnd⟩
      obtain ⟨k, hk, e⟩ := List.mem_map.1 h
      have := (hall k hk).1
      simp [opening, e] at this
    · intro k hk
      rcases List.mem_cons.1 hk with rfl | hk
      · exact ⟨hG, .inr ⟨_, hs⟩⟩
      · obtain ⟨h, h'⟩ := hall k hk
        simp only [opening, Bool.or_eq_false_iff] at h
        exact ⟨h.2, h'⟩

theorem described_of_cycles (g : Graph) : ∀ (k : Nat) {G : Str → Bool} {n : RNode},
    (n.id ∈ g.objects ∧ g.free G < k) ∨ g.free G + 1 < k →
    (∀ ns, Walk g n ns → (ns.map (·.id)).Nodup ∧ ∀ m ∈ ns, G m.id = false ∧ Described g m) → ∃ l, Describes g G n l
  | 0, _, _, h, _ => by omega
  | k + 1, G, n, h, hw => by
    obtain ⟨hG, hd⟩ := (hw [n] .here).2 n (by simp)
    rcases hd with ⟨x, hx⟩ | ⟨b, hs⟩
    · exact ⟨_, .named hG hx⟩
    · have hms : ∀ m ∈ membersOf g n, ∃ l, Describes g (opening G n.id) m l := by
        intro m hm
        refine described_of_cycles g k ?_ fun ns hns => ?_
        · left
          refine ⟨?_, ?_⟩
          · rw [membersOf_eq] at hm
            obtain ⟨t, ht, rfl⟩ := List.mem_map.1 hm
            exact obj_mem (List.mem_filter.1 ht).1
          · rw [opening_eq]
            rcases h with ⟨h, h'⟩ | h
            · have := g.free_addGrey G n.id h hG; omega
            · have := g.free_addGrey_le G n.id; omega
        · obtain ⟨h1, h2⟩ := hw _ (.step hs hm hns)
          simp only [List.map_cons, List.nodup_cons] at h1
          refine ⟨h1.2, fun k hk => ⟨?_, (h2 k (by simp [hk])).2⟩⟩
          simp only [opening, Bool.or_eq_false_iff, decide_eq_false_iff_not]
          exact ⟨fun e => h1.1 (List.mem_map.2 ⟨k, hk, e⟩), (h2 k (by simp [hk])).1⟩
      obtain ⟨ls, hls⟩ := DescribeAll.of_forall hms
      cases b with
      | true => exact ⟨_, .all hG hs hls⟩
      | false => exact ⟨_, .any hG hs hls⟩

/-- C40: reading a license fails exactly if a walk through the members of license sets meets a node twice, or one
that is being read, or one that is not described in a known way. -/
theorem C40_cycles (g : Graph) (node : RNode) (s : RState) :
    licenseText g node s = .err ↔
      ∃ ns, Walk g node ns ∧ (¬ (ns.map (·.id)).Nodup ∨ ∃ m ∈ ns, s.grey m.id = true ∨ ¬ Described g m) := by
  constructor
  · intro e
    rcases C40_license g node s with ⟨l, s', e', _⟩ | ⟨_, hn⟩
    · rw [e] at e'; simp at e'
    · apply Classical.byContradiction
      intro hno
      refine Exists.elim (described_of_cycles g g.depth (G := s.grey) (n := node)
        (.inr (by have := g.free_le s.grey; unfold Graph.depth; omega)) fun ns hw => ?_) fun l hl => hn l hl
      refine ⟨Classical.byContradiction fun h => hno ⟨ns, hw, .inl h⟩, fun m hm => ⟨?_, ?_⟩⟩
      · cases hg : s.grey m.id with
        | false => rfl
        | true => exact absurd ⟨ns, hw, .inr ⟨m, hm, .inl hg⟩⟩ hno
      · exact Classical.byContradiction fun h => hno ⟨ns, hw, .inr ⟨m, hm, .inr h⟩⟩
  · rintro ⟨ns, hw, hbad⟩
    rcases C40_license g node s with ⟨l, s', _, hd, _⟩ | ⟨e, _⟩
    · obtain ⟨h1, h2⟩ := cycles_of_described g hd hw
      rcases hbad with h | ⟨m, hm, h | h⟩
      · exact absurd h1 h
      · rw [(h2 m hm).1] at h; simp at h
      · exact absurd (h2 m hm).2 h
    · exact e

/-! A set with two members of which one is shared, and a set that contains itself through another one. -/

def sharedGraph : Graph := exampleGraph [
  classTo g!"s" g!"ConjunctiveLicenseSet", linkTo g!"s" (spdxTerm g!"member") g!"l", linkTo g!"s" (spdxTerm g!"member") g!"d",
  classTo g!"d" g!"DisjunctiveLicenseSet", linkTo g!"d" (spdxTerm g!"member") g!"http://spdx.org/licenses/MIT",
  linkTo g!"d" (spdxTerm g!"member") g!"l",
  classTo g!"l" g!"ExtractedLicensingInfo", valueTo g!"l" (spdxTerm g!"licenseId") g!"LicenseRef-1",
  valueTo g!"l" (spdxTerm g!"extractedText") g!"text"] []

def cyclicGraph : Graph := exampleGraph [
  classTo g!"s" g!"ConjunctiveLicenseSet", linkTo g!"s" (spdxTerm g!"member") g!"d",
  classTo g!"d" g!"DisjunctiveLicenseSet", linkTo g!"d" (spdxTerm g!"member") g!"s"] []

/-- What a reading yields, without the state. -/
def ROut.value {α β : Type} : ROut (α × β) → ROut α
  | .ok (a, _) => .ok a
  | .err => .err
  | .panic => .panic
  | .cut => .cut

example : (licenseText sharedGraph (iriNode g!"s") {}).value = .ok g!"LicenseRef-1 AND MIT OR LicenseRef-1" := by
  decide +kernel
example : (licenseText cyclicGraph (iriNode g!"s") {}).value = .err := by decide +kernel
example : ∃ l, Describes sharedGraph (RState.grey {}) (iriNode g!"s") l := by
  rcases C40_license sharedGraph (iriNode g!"s") {} with ⟨l, _, _, h, _⟩ | ⟨h, _⟩
  · exact ⟨l, h⟩
  · have : (licenseText sharedGraph (iriNode g!"s") {}).value ≠ .err := by decide +kernel
    rw [h] at this; exact absurd rfl this
/-- The walk s, d, s through the cycle. -/
example : Walk cyclicGraph (iriNode g!"s") [iriNode g!"s", iriNode g!"d", iriNode g!"s"] := by
  refine .step (b := true) (.all ⟨classTo g!"s" g!"ConjunctiveLicenseSet", by decide +kernel, by decide +kernel⟩ (by decide +kernel))
    (m := iriNode g!"d") (by decide +kernel)
    (.step (b := false) (.any ⟨classTo g!"d" g!"DisjunctiveLicenseSet", by decide +kernel, by decide +kernel⟩)
      (m := iriNode g!"s") (by decide +kernel) .here)

end Verif
