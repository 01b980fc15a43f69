import Verif.Spec.RdfLegal
import Verif.Lemmas.RdfSays
import Verif.Lemmas.RdfDoc

/-!
# What the RDF reader has put into the elements: the invariant and the frame
-/

namespace Verif
open RdfM Spec Spec.Rdf

/-! ## Methods that end without an error -/

theorem bind_inv {α β : Type} {m : RdfM α} {f : α → RdfM β} {s : RState} {r : β × RState} (h : (m >>= f) s = .ok r) :
    ∃ a s1, m s = .ok (a, s1) ∧ f a s1 = .ok r := by
  change RdfM.bind m f s = _ at h
  unfold RdfM.bind at h
  cases e : m s with
  | ok x => obtain ⟨a, s1⟩ := x; rw [e] at h; exact ⟨a, s1, rfl, h⟩
  | err => rw [e] at h; simp at h
  | panic => rw [e] at h; simp at h
  | cut => rw [e] at h; simp at h

theorem pure_inv {α : Type} {a b : α} {s s' : RState} (h : (pure a : RdfM α) s = .ok (b, s')) : b = a ∧ s' = s := by
  injection h with h; injection h with h1 h2; exact ⟨h1.symm, h2.symm⟩

theorem lift_inv {α : Type} {r : Res α} {a : α} {s s' : RState} (h : lift r s = .ok (a, s')) : r = .ok a ∧ s' = s := by
  cases r with
  | ok b => obtain ⟨rfl, rfl⟩ := pure_inv h; exact ⟨rfl, rfl⟩
  | err => exact absurd h (by simp [lift, err])
  | panic => exact absurd h (by simp [lift, RdfM.panic])

theorem modify_inv {f : RState → RState} {a : Unit} {s s' : RState} (h : modify f s = .ok (a, s')) : s' = f s := by
  injection h with h; injection h with h1 h2; exact h2.symm

theorem bind_lift_inv {α β : Type} {m : Res α} {f : α → RdfM β} {s : RState} {r : β × RState} (h : (lift m >>= f) s = .ok r) :
    ∃ a, m = .ok a ∧ f a s = .ok r := by
  obtain ⟨a, s1, e1, e2⟩ := bind_inv h
  obtain ⟨h1, rfl⟩ := lift_inv e1
  exact ⟨a, h1, e2⟩

theorem err_inv {α : Type} {a : α} {s s' : RState} (h : (err : RdfM α) s = .ok (a, s')) : False := by simp [err] at h

theorem panic_inv {α : Type} {a : α} {s s' : RState} (h : (RdfM.panic : RdfM α) s = .ok (a, s')) : False := by
  simp [RdfM.panic] at h

theorem each_inv {body : Triple → RdfM Unit} {I : List Triple → RState → Prop} : ∀ {ts us : List Triple} {s s' : RState} {a : Unit},
    (∀ us t s s' a, t ∈ ts → I us s → body t s = .ok (a, s') → I (us ++ [t]) s') → I us s →
    RdfM.each body ts s = .ok (a, s') → I (us ++ ts) s'
  | [], us, s, s', a, _, h, e => by
    obtain ⟨_, rfl⟩ := pure_inv e
    simpa using h
  | t :: ts, us, s, s', a, hb, h, e => by
    obtain ⟨b, s1, e1, e2⟩ := bind_inv e
    have := each_inv (ts := ts) (fun us u s s' a hu => hb us u s s' a (by simp [hu])) (hb us t s s1 b (by simp) h e1) e2
    simpa using this

theorem fold_inv {α : Type} {body : α → Triple → RdfM α} {I : List Triple → α → RState → Prop} :
    ∀ {ts us : List Triple} {a b : α} {s s' : RState},
    (∀ us t a b s s', t ∈ ts → I us a s → body a t s = .ok (b, s') → I (us ++ [t]) b s') → I us a s →
    RdfM.fold body a ts s = .ok (b, s') → I (us ++ ts) b s'
  | [], us, a, b, s, s', _, h, e => by
    obtain ⟨rfl, rfl⟩ := pure_inv e
    simpa using h
  | t :: ts, us, a, b, s, s', hb, h, e => by
    obtain ⟨c, s1, e1, e2⟩ := bind_inv e
    have := fold_inv (ts := ts) (fun us u a b s s' hu => hb us u a b s s' (by simp [hu])) (hb us t a c s s1 (by simp) h e1) e2
    simpa using this

theorem KeepsFrom.ok {α : Type} {g : Graph} {w0 : View} {m : RdfM α} {Q : α → View → Prop} (h : KeepsFrom g w0 m Q)
    {s s' : RState} {a : α} (hi : RInv g s.view) (he : Ext w0 s.view) (e : m s = .ok (a, s')) :
    RInv g s'.view ∧ Ext w0 s'.view ∧ Q a s'.view := by
  have := RTrip.ok h ⟨hi, he⟩ e
  exact ⟨this.1.1, this.1.2, this.2⟩

/-! ## Licenses -/

/-- What reading a license does to the state: new nodes without object, in the cache. -/
structure LicFrame (s s' : RState) : Prop where
  rest : s' = { s with cache := s'.cache }
  cache : ∀ x, mapGet x s'.cache = mapGet x s.cache ∨ (mapGet x s.cache = none ∧ mapGet x s'.cache = some ⟨.nil, false⟩)

theorem LicFrame.refl (s : RState) : LicFrame s s := ⟨rfl, fun _ => .inl rfl⟩

theorem LicFrame.trans {s s' s'' : RState} (h : LicFrame s s') (h' : LicFrame s' s'') : LicFrame s s'' where
  rest := by rw [h'.rest, h.rest]
  cache x := by
    rcases h.cache x with e | ⟨e1, e2⟩
    · rw [← e]; exact h'.cache x
    · rcases h'.cache x with e | ⟨e, _⟩
      · exact .inr ⟨e1, by rw [e, e2]⟩
      · rw [e2] at e; simp at e

theorem licFrame_getAnyLicense (g : Graph) : ∀ (n : Nat) (node : RNode) (s s' : RState) (l : License),
    getAnyLicense g n node s = .ok (l, s') → LicFrame s s'
  | 0, _, _, _, _, h => by simp [getAnyLicense, RdfM.cut] at h
  | n + 1, node, s, s', l, h => by
    have hf : ∀ st ms ts s s' a, RdfM.fold (memberStep (getAnyLicense g n) st) ms ts s = .ok (a, s') → LicFrame s s' := by
      intro st ms ts s s' a e
      refine fold_inv (I := fun _ _ s' => LicFrame s s') (us := []) (fun us t a b s1 s2 _ h1 e1 => ?_) (.refl s) e
      unfold memberStep at e1
      cases hp : t.pred <;> simp only [hp] at e1 <;> first
        | (obtain ⟨_, rfl⟩ := pure_inv e1; exact h1)
        | (split at e1
           · exact (err_inv e1).elim
           · obtain ⟨_, rfl⟩ := pure_inv e1; exact h1)
        | (obtain ⟨m, s3, e3, e4⟩ := bind_inv e1
           obtain ⟨_, rfl⟩ := pure_inv e4
           exact h1.trans (licFrame_getAnyLicense g n _ _ _ _ e3))
    have hb : ∀ s s' l, licenseBody g (getAnyLicense g n) node s = .ok (l, s') → LicFrame s s' := by
      intro s s' l e
      rcases body_cases g node with hc | hc | ⟨l0, x, e0, _⟩ | e0
      · rw [hc.body] at e
        obtain ⟨ms, s1, e1, e2⟩ := bind_inv e
        obtain ⟨_, rfl⟩ := pure_inv e2
        exact hf _ _ _ _ _ _ e1
      · rw [hc.body] at e
        obtain ⟨ms, s1, e1, e2⟩ := bind_inv e
        obtain ⟨_, rfl⟩ := pure_inv e2
        exact hf _ _ _ _ _ _ e1
      · rw [e0] at e
        obtain ⟨_, rfl⟩ := pure_inv e
        exact .refl _
      · rw [e0] at e; exact (err_inv e).elim
    -- entering, the body, leaving
    have main : ∀ o, (mapGet node.id s.cache = none ∧ o = .nil ∨ mapGet node.id s.cache = some ⟨o, false⟩) → ∀ s2,
        LicFrame { s with cache := mapInsert node.id ⟨o, true⟩ s.cache } s2 → ∀ s3, leave node.id s2 = .ok ((), s3) → LicFrame s s3 := by
      intro o ho s2 h2 s3 e3
      have hg : mapGet node.id s2.cache = some ⟨o, true⟩ := by
        rcases h2.cache node.id with e | ⟨e, _⟩
        · rw [e]; simp [mapGet_inserted]
        · simp [mapGet_inserted] at e
      have e3 := modify_inv e3
      rw [hg] at e3
      dsimp only at e3
      subst e3
      refine ⟨by rw [h2.rest], fun y => ?_⟩
      simp only [mapGet_inserted]
      by_cases hy : y = node.id
      · subst hy
        rcases ho with ⟨e, rfl⟩ | e
        · exact .inr ⟨e, by simp⟩
        · exact .inl (by simp [e])
      · rcases h2.cache y with e | ⟨e, e'⟩
        · simp only [mapGet_inserted, hy, if_false] at e
          exact .inl (by simp [hy, e])
        · simp only [mapGet_inserted, hy, if_false] at e
          exact .inr ⟨e, by simp [hy, e']⟩
    unfold getAnyLicense at h
    rcases enter_eq node.id .nil s with ⟨o', hc, e⟩ | ⟨hc, e⟩ | ⟨o', hc, e⟩
    · rw [bind_at e] at h; exact (err_inv h).elim
    · rw [bind_at e] at h
      obtain ⟨l1, s2, e1, h⟩ := bind_inv h
      obtain ⟨u, s3, e2, h⟩ := bind_inv h
      obtain ⟨_, rfl⟩ := pure_inv h
      exact main .nil (.inl ⟨hc, rfl⟩) s2 (hb _ _ _ e1) _ e2
    · rw [bind_at e] at h
      obtain ⟨l1, s2, e1, h⟩ := bind_inv h
      obtain ⟨u, s3, e2, h⟩ := bind_inv h
      obtain ⟨_, rfl⟩ := pure_inv h
      exact main o' (.inr hc) s2 (hb _ _ _ e1) _ e2

mutual
theorem Spec.Describes.anti {g : Graph} {G G' : Str → Bool} {n : RNode} {l : Lic} (h : Describes g G n l)
    (hG : ∀ x, G x = false → G' x = false) : Describes g G' n l := by
  cases h with
  | named h1 h2 => exact .named (hG _ h1) h2
  | all h1 h2 h3 => exact .all (hG _ h1) h2 (h3.anti fun x hx => by
      simp only [opening, Bool.or_eq_false_iff] at hx ⊢; exact ⟨hx.1, hG _ hx.2⟩)
  | any h1 h2 h3 => exact .any (hG _ h1) h2 (h3.anti fun x hx => by
      simp only [opening, Bool.or_eq_false_iff] at hx ⊢; exact ⟨hx.1, hG _ hx.2⟩)
theorem Spec.DescribeAll.anti {g : Graph} {G G' : Str → Bool} {ns : List RNode} {ls : List Lic} (h : DescribeAll g G ns ls)
    (hG : ∀ x, G x = false → G' x = false) : DescribeAll g G' ns ls := by
  cases h with
  | nil => exact .nil
  | cons h1 h2 => exact .cons (h1.anti hG) (h2.anti hG)
end

theorem licenseText_inv {g : Graph} {n : RNode} {s s' : RState} {x : Str} (h : licenseText g n s = .ok (x, s')) :
    LicFrame s s' ∧ LicenseSays g n x := by
  obtain ⟨l, s1, e1, e2⟩ := bind_inv h
  obtain ⟨rfl, rfl⟩ := pure_inv e2
  have := RTrip.ok (sound_getAnyLicense g g.depth s.grey n) rfl e1
  exact ⟨licFrame_getAnyLicense _ _ _ _ _ _ e1, l.tree, this.1.anti fun _ _ => rfl, (License.tree_text l).symm⟩

/-! ## What the document leads to -/

theorem leads_used {g : Graph} {p : Part} (h : Leads g p) : match p with
    | .file n => UsedAsFile g n.id
    | .package n => UsedAsPackage g n.id
    | .relationship t => UsedAsRelationship g t.object.id := by
  cases h with
  | described _ ht hp => exact .inl (used_of ht (by simp [hp]))
  | ofDocument _ ht hp => exact used_of ht (by simp [hp])
  | contained _ ht hp => exact .inl (used_of ht (by simp [hp]))
  | ofPackage _ ht hp => exact used_of ht (by simp [hp])
  | dependency _ ht hp => exact .inl (used_of ht (by simp [hp]))
  | ofFile _ ht hp => exact used_of ht (by simp [hp])
  | relatedFile _ ht hp hc h1 h2 => exact .inr ⟨_, (mem_of ht).1, hp, rfl, _, (mem_of hc).1, (mem_of hc).2, h1, h2⟩
  | relatedPackage _ ht hp hc h1 h2 => exact .inr ⟨_, (mem_of ht).1, hp, rfl, _, (mem_of hc).1, (mem_of hc).2, h1, h2⟩
  | snippetFile _ ht hp => exact .inl (used_of ht (by simp [hp]))
  | rangeFile _ _ _ _ _ ht hp _ => exact .inl (used_of ht (by simp [hp]))

theorem leads_referred {g : Graph} {n : RNode} (h : Leads g (.file n) ∨ Leads g (.package n)) : IsReferred g n := by
  have key : ∀ {t : Triple} {m : RNode}, t ∈ g.of m →
      t.pred ∈ [.hasFile, .fileDependency, .snippetFromFile, .reference, .describesPackage, .relatedSpdxElement] → IsReferred g t.object :=
    fun h hp => ⟨_, (mem_of h).1, hp, rfl⟩
  rcases h with h | h <;> cases h
  case contained ht hp => exact key ht (by simp [hp])
  case dependency ht hp => exact key ht (by simp [hp])
  case relatedFile ht hp _ _ _ => exact key ht (by simp [hp])
  case snippetFile ht hp => exact key ht (by simp [hp])
  case rangeFile ht hp _ => exact key ht (by simp [hp])
  case described ht hp => exact key ht (by simp [hp])
  case relatedPackage ht hp _ _ _ => exact key ht (by simp [hp])

theorem leads_relationship {g : Graph} {t : Triple} (h : Leads g (.relationship t)) : t ∈ g.triples ∧ t.pred = .relationship := by
  cases h
  case ofDocument ht hp => exact ⟨(mem_of ht).1, hp⟩
  case ofPackage ht hp => exact ⟨(mem_of ht).1, hp⟩
  case ofFile ht hp => exact ⟨(mem_of ht).1, hp⟩

/-! ## The invariant -/

/-- The files and packages that a relationship is to were read or are being read. -/
def RelatedIn (g : Graph) (s : RState) (ts : List Triple) : Prop :=
  ∀ t ∈ ts, t.pred = .relatedSpdxElement → ∀ u, typeTriples (g.of t.object) t.object.id = [u] →
    (Cls.ofStr u.object.id = .file → ∃ j, s.view.cached t.object.id (.file j)) ∧
    (Cls.ofStr u.object.id = .package → ∃ i, s.view.cached t.object.id (.pkg i))

/-- A relationship with the node was read, with what it is to. -/
def RelRead (g : Graph) (s : RState) (x : Str) : Prop :=
  ∃ r ∈ s.doc.relationships, ∃ u, Leads g (.relationship u) ∧ u.object.id = x ∧ RelationshipSays g u.subject (g.of u.object) r ∧
    RelatedIn g s (g.of u.object)

/-- What statements refer to was read or is being read. -/
structure ToldIn (g : Graph) (s : RState) (ts : List Triple) : Prop where
  annotations : ∀ t ∈ ts, t.pred = .annotation → ∃ a ∈ s.doc.annotations, Rdf.AnnotationSays (g.of t.object) a
  relationships : ∀ t ∈ ts, t.pred = .relationship →
    UsedAsRelationship g t.object.id ∧ (s.grey t.object.id = true ∨ RelRead g s t.object.id)
  dependencies : ∀ t ∈ ts, t.pred = .fileDependency → ∃ j, s.view.cached t.object.id (.file j)

theorem referred_of {g : Graph} {n : RNode} {t : Triple} (h : t ∈ g.of n)
    (hp : t.pred ∈ [.hasFile, .fileDependency, .snippetFromFile, .reference, .describesPackage, .relatedSpdxElement]) :
    IsReferred g t.object := ⟨t, (mem_of h).1, hp, rfl⟩

/-- The file `j` is what the statements say. -/
def FileRead (v : Version) (g : Graph) (s : RState) (j : Nat) (ts : List Triple) : Prop :=
  ∃ f, s.fileHeap[j]? = some f ∧ FileSays v g ts f ∧ ToldIn g s ts

def PackageRead (v : Version) (g : Graph) (s : RState) (i : Nat) (ts : List Triple) : Prop :=
  ∃ p, s.pkgHeap[i]? = some p ∧ PackageSays v g (fun n j => s.view.cached n.id (.file j)) ts p ∧ ToldIn g s ts

def FileAt (v : Version) (g : Graph) (s : RState) (x : Str) (j : Nat) : Prop :=
  ∃ ns : List RNode, ns ≠ [] ∧ (∀ n ∈ ns, n.id = x ∧ Leads g (.file n)) ∧ FileRead v g s j (ns.flatMap g.of)

def PackageAt (v : Version) (g : Graph) (s : RState) (x : Str) (i : Nat) : Prop :=
  ∃ ns : List RNode, ns ≠ [] ∧ (∀ n ∈ ns, n.id = x ∧ Leads g (.package n)) ∧ PackageRead v g s i (ns.flatMap g.of)

/-- The invariant on the contents of the elements. -/
structure CInv (v : Version) (g : Graph) (s : RState) : Prop where
  files : ∀ x j, mapGet x s.cache = some ⟨.file j, false⟩ → FileAt v g s x j
  packages : ∀ x i, mapGet x s.cache = some ⟨.pkg i, false⟩ → PackageAt v g s x i
  relationships : ∀ r ∈ s.doc.relationships, ∃ u, Leads g (.relationship u) ∧
    RelationshipSays g u.subject (g.of u.object) r ∧ RelatedIn g s (g.of u.object)
  annotations : ∀ a ∈ s.doc.annotations, ∃ n, Annotatable g n ∧ ∃ t ∈ g.of n, t.pred = .annotation ∧ Rdf.AnnotationSays (g.of t.object) a
  assoc : ∀ id ∈ s.assoc, ∃ x i l j, s.view.cached x (.pkg i) ∧ s.view.pfs[i]? = some l ∧ j ∈ l ∧ s.view.fids[j]? = some id

/-- What stays, and what grows. -/
structure Grows (g : Graph) (s s' : RState) : Prop where
  cached : ∀ x o, s.view.cached x o → s'.view.cached x o
  grey : ∀ x, UsedAsRelationship g x → s.grey x = true → s'.grey x = true ∨ RelRead g s' x
  relationships : s.doc.relationships <+: s'.doc.relationships
  annotations : s.doc.annotations <+: s'.doc.annotations

theorem RelatedIn.grow {g : Graph} {s s' : RState} {ts : List Triple} (h : RelatedIn g s ts)
    (hg : ∀ x o, s.view.cached x o → s'.view.cached x o) : RelatedIn g s' ts := by
  intro t ht hp u hu
  obtain ⟨h1, h2⟩ := h t ht hp u hu
  exact ⟨fun e => (h1 e).imp fun j => hg _ _, fun e => (h2 e).imp fun j => hg _ _⟩

theorem RelRead.grow {g : Graph} {s s' : RState} {x : Str} (h : RelRead g s x) (hg : Grows g s s') : RelRead g s' x := by
  obtain ⟨r, hr, u, h1, h2, h3, h4⟩ := h
  exact ⟨r, hg.relationships.subset hr, u, h1, h2, h3, h4.grow hg.cached⟩

theorem ToldIn.grow {g : Graph} {s s' : RState} {ts : List Triple} (h : ToldIn g s ts) (hg : Grows g s s') : ToldIn g s' ts where
  annotations t ht hp := by obtain ⟨a, ha, h⟩ := h.annotations t ht hp; exact ⟨a, hg.annotations.subset ha, h⟩
  relationships t ht hp := by
    obtain ⟨hu, h⟩ := h.relationships t ht hp
    refine ⟨hu, ?_⟩
    rcases h with h | h
    · exact hg.grey _ hu h
    · exact .inr (h.grow hg)
  dependencies t ht hp := by obtain ⟨j, h⟩ := h.dependencies t ht hp; exact ⟨j, hg.cached _ _ h⟩

theorem FileRead.grow {v : Version} {g : Graph} {s s' : RState} {j : Nat} {ts : List Triple} (h : FileRead v g s j ts)
    (hg : Grows g s s') (hj : s'.fileHeap[j]? = s.fileHeap[j]?) : FileRead v g s' j ts := by
  obtain ⟨f, h1, h2, h3⟩ := h
  exact ⟨f, by rw [hj, h1], h2, h3.grow hg⟩

theorem PackageRead.grow {v : Version} {g : Graph} {s s' : RState} {j : Nat} {ts : List Triple} (h : PackageRead v g s j ts)
    (hg : Grows g s s') (hj : s'.pkgHeap[j]? = s.pkgHeap[j]?) : PackageRead v g s' j ts := by
  obtain ⟨f, h1, h2, h3⟩ := h
  exact ⟨f, by rw [hj, h1], { h2 with files := h2.files.imp fun _ _ => hg.cached _ _ }, h3.grow hg⟩

theorem FileAt.grow {v : Version} {g : Graph} {s s' : RState} {j : Nat} {x : Str} (h : FileAt v g s x j)
    (hg : Grows g s s') (hj : s'.fileHeap[j]? = s.fileHeap[j]?) : FileAt v g s' x j := by
  obtain ⟨ns, h1, h2, h3⟩ := h
  exact ⟨ns, h1, h2, h3.grow hg hj⟩

theorem PackageAt.grow {v : Version} {g : Graph} {s s' : RState} {j : Nat} {x : Str} (h : PackageAt v g s x j)
    (hg : Grows g s s') (hj : s'.pkgHeap[j]? = s.pkgHeap[j]?) : PackageAt v g s' x j := by
  obtain ⟨ns, h1, h2, h3⟩ := h
  exact ⟨ns, h1, h2, h3.grow hg hj⟩

/-- Something keeps the invariant if it grows the state and leaves alone what was read. -/
theorem CInv.step {v : Version} {g : Graph} {s s' : RState} (h : CInv v g s) (hg : Grows g s s')
    (hf : ∀ x j, mapGet x s'.cache = some ⟨.file j, false⟩ →
      (mapGet x s.cache = some ⟨.file j, false⟩ ∧ s'.fileHeap[j]? = s.fileHeap[j]?) ∨ FileAt v g s' x j)
    (hp : ∀ x i, mapGet x s'.cache = some ⟨.pkg i, false⟩ →
      (mapGet x s.cache = some ⟨.pkg i, false⟩ ∧ s'.pkgHeap[i]? = s.pkgHeap[i]?) ∨ PackageAt v g s' x i)
    (hr : ∀ r ∈ s'.doc.relationships, r ∈ s.doc.relationships ∨ ∃ u, Leads g (.relationship u) ∧
      RelationshipSays g u.subject (g.of u.object) r ∧ RelatedIn g s' (g.of u.object))
    (ha : ∀ a ∈ s'.doc.annotations, a ∈ s.doc.annotations ∨ ∃ n, Annotatable g n ∧ ∃ t ∈ g.of n, t.pred = .annotation ∧ Rdf.AnnotationSays (g.of t.object) a)
    (hs : ∀ id ∈ s'.assoc, ∃ x i l j, s'.view.cached x (.pkg i) ∧ s'.view.pfs[i]? = some l ∧ j ∈ l ∧ s'.view.fids[j]? = some id) :
    CInv v g s' where
  files x j e := by
    rcases hf x j e with ⟨e1, e2⟩ | h'
    · exact (h.files x j e1).grow hg e2
    · exact h'
  packages x j e := by
    rcases hp x j e with ⟨e1, e2⟩ | h'
    · exact (h.packages x j e1).grow hg e2
    · exact h'
  relationships r hr' := by
    rcases hr r hr' with h' | h'
    · obtain ⟨u, h1, h2, h3⟩ := h.relationships r h'
      exact ⟨u, h1, h2, h3.grow hg.cached⟩
    · exact h'
  annotations a ha' := by
    rcases ha a ha' with h' | h'
    · exact h.annotations a h'
    · exact h'
  assoc := hs

/-- The other part of the invariant does not matter for what was read, but both are kept together. -/
structure Sound (v : Version) (g : Graph) (s : RState) : Prop where
  inv : RInv g s.view
  content : CInv v g s

/-! ## The frame -/

/-- The document without what any method may change. -/
def core (d : HDoc) : HDoc := { d with packages := [], relationships := [], annotations := [] }

/-- What a method leaves alone: the elements that are being read.  The nodes of `X` may be read afterwards. -/
structure Frame (X : Str → Prop) (s s' : RState) : Prop where
  cached : ∀ x o, s.view.cached x o → s'.view.cached x o
  grey : ∀ x, s.grey x = true → s'.grey x = true
  newGrey : ∀ x, s'.grey x = true → s.grey x = true ∨ X x
  files : ∀ x j, mapGet x s.cache = some ⟨.file j, true⟩ → s'.fileHeap[j]? = s.fileHeap[j]?
  packages : ∀ x i, mapGet x s.cache = some ⟨.pkg i, true⟩ → s'.pkgHeap[i]? = s.pkgHeap[i]?
  doc : core s'.doc = core s.doc
  relationships : s.doc.relationships <+: s'.doc.relationships
  annotations : s.doc.annotations <+: s'.doc.annotations

/-- Nothing is being read afterwards that was not before. -/
abbrev Calm (s s' : RState) : Prop := Frame (fun _ => False) s s'

theorem Frame.grows {g : Graph} {X : Str → Prop} {s s' : RState} (h : Frame X s s') : Grows g s s' :=
  ⟨h.cached, fun x _ hx => .inl (h.grey x hx), h.relationships, h.annotations⟩

theorem grey_iff {s : RState} {x : Str} : s.grey x = true ↔ ∃ o, mapGet x s.cache = some ⟨o, true⟩ := by
  unfold RState.grey
  cases e : mapGet x s.cache with
  | none => simp
  | some n => obtain ⟨o, b⟩ := n; cases b <;> simp

/-- A node that is being read has the same object afterwards. -/
theorem Frame.entry {X : Str → Prop} {s s' : RState} (h : Frame X s s') {x : Str} {o : CObj} (e : mapGet x s.cache = some ⟨o, true⟩) :
    mapGet x s'.cache = some ⟨o, true⟩ := by
  obtain ⟨o', e'⟩ := grey_iff.1 (h.grey x (grey_iff.2 ⟨o, e⟩))
  have := cached_unique (w := s'.view) ⟨_, e'⟩ (h.cached x o ⟨_, e⟩)
  rw [← this]; exact e'

theorem Frame.refl (X : Str → Prop) (s : RState) : Frame X s s :=
  ⟨fun _ _ h => h, fun _ h => h, fun _ h => .inl h, fun _ _ _ => rfl, fun _ _ _ => rfl, rfl, List.prefix_refl _, List.prefix_refl _⟩

theorem Frame.trans {X : Str → Prop} {s s' s'' : RState} (h : Frame X s s') (h' : Calm s' s'') : Frame X s s'' where
  cached x o e := h'.cached x o (h.cached x o e)
  grey x e := h'.grey x (h.grey x e)
  newGrey x e := by
    rcases h'.newGrey x e with e | e
    · exact h.newGrey x e
    · exact e.elim
  files x j e := by rw [h'.files x j (h.entry e), h.files x j e]
  packages x j e := by rw [h'.packages x j (h.entry e), h.packages x j e]
  doc := by rw [h'.doc, h.doc]
  relationships := h.relationships.trans h'.relationships
  annotations := h.annotations.trans h'.annotations

theorem LicFrame.calm {s s' : RState} (h : LicFrame s s') : Calm s s' where
  cached x o := by
    rintro ⟨b, e⟩
    rcases h.cache x with e' | ⟨e', _⟩
    · exact ⟨b, e'.trans e⟩
    · have e : mapGet x s.cache = _ := e
      rw [e] at e'; simp at e'
  grey x e := by
    obtain ⟨o, e⟩ := grey_iff.1 e
    rcases h.cache x with e' | ⟨e', _⟩
    · exact grey_iff.2 ⟨o, e'.trans e⟩
    · rw [e] at e'; simp at e'
  newGrey x e := by
    obtain ⟨o, e⟩ := grey_iff.1 e
    rcases h.cache x with e' | ⟨_, e'⟩
    · exact .inl (grey_iff.2 ⟨o, e'.symm.trans e⟩)
    · rw [e] at e'; simp at e'
  files _ _ _ := by rw [h.rest]
  packages _ _ _ := by rw [h.rest]
  doc := by rw [h.rest]
  relationships := by rw [h.rest]; exact List.prefix_refl _
  annotations := by rw [h.rest]; exact List.prefix_refl _

theorem LicFrame.black {s s' : RState} (h : LicFrame s s') {x : Str} {o : CObj} (ho : o ≠ .nil) (e : mapGet x s'.cache = some ⟨o, false⟩) :
    mapGet x s.cache = some ⟨o, false⟩ := by
  rcases h.cache x with e' | ⟨_, e'⟩
  · exact e'.symm.trans e
  · rw [e] at e'; injection e' with e'; injection e' with e'; exact absurd e' ho

/-- Entries of the list of files of packages persist under extension of the view only if the lists do; here they are
the same. -/
theorem CInv.assoc_of {v : Version} {g : Graph} {s s' : RState} (h : CInv v g s) (hc : ∀ x o, s.view.cached x o → s'.view.cached x o)
    (hp : s.view.pfs <+: s'.view.pfs) (hf : s.view.fids <+: s'.view.fids) (ha : s'.assoc = s.assoc) :
    ∀ id ∈ s'.assoc, ∃ x i l j, s'.view.cached x (.pkg i) ∧ s'.view.pfs[i]? = some l ∧ j ∈ l ∧ s'.view.fids[j]? = some id := by
  intro id hid
  rw [ha] at hid
  obtain ⟨x, i, l, j, h1, h2, h3, h4⟩ := h.assoc id hid
  exact ⟨x, i, l, j, hc _ _ h1, prefix_get hp h2, h3, prefix_get hf h4⟩

theorem LicFrame.content {v : Version} {g : Graph} {s s' : RState} (h : LicFrame s s') (hs : CInv v g s) : CInv v g s' := by
  have e1 : s'.fileHeap = s.fileHeap := by rw [h.rest]
  have e2 : s'.pkgHeap = s.pkgHeap := by rw [h.rest]
  have e3 : s'.doc = s.doc := by rw [h.rest]
  have e4 : s'.assoc = s.assoc := by rw [h.rest]
  refine hs.step h.calm.grows (fun x j e => .inl ⟨h.black (by simp) e, by rw [e1]⟩)
    (fun x j e => .inl ⟨h.black (by simp) e, by rw [e2]⟩) (fun r hr => .inl (by rw [e3] at hr; exact hr))
    (fun r hr => .inl (by rw [e3] at hr; exact hr)) (hs.assoc_of h.calm.cached ?_ ?_ e4)
  · simp only [RState.view, e2]; exact List.prefix_refl _
  · simp only [RState.view, e1]; exact List.prefix_refl _

theorem Sound.license {v : Version} {g : Graph} {s s' : RState} {n : RNode} {x : Str} (hs : Sound v g s) (hu : UsedAsLicense g n.id)
    (e : licenseText g n s = .ok (x, s')) : Sound v g s' ∧ Calm s s' ∧ LicenseSays g n x := by
  obtain ⟨hf, hx⟩ := licenseText_inv e
  exact ⟨⟨((keeps_licenseText hu).ok hs.inv (.refl _) e).1, hf.content hs.content⟩, hf.calm, hx⟩

/-! ## Elements that are being read -/

theorem file_inj {g : Graph} (ht : Tidy g) {w : View} (hi : RInv g w) {x y : Str} {k : Nat} (hx : w.cached x (.file k))
    (hy : w.cached y (.file k)) : x = y := by
  obtain ⟨a, ha, ea⟩ := hi.fileIds ht x k hx
  obtain ⟨b, hb, eb⟩ := hi.fileIds ht y k hy
  rw [ea] at eb
  injection eb with eb
  subst eb
  exact ht.2.file x y a (hi.kinds ht.1 _ _ hx) (hi.kinds ht.1 _ _ hy) ha hb

theorem package_inj {g : Graph} (ht : Tidy g) {w : View} (hi : RInv g w) {x y : Str} {k : Nat} (hx : w.cached x (.pkg k))
    (hy : w.cached y (.pkg k)) : x = y := by
  obtain ⟨a, ha, ea⟩ := hi.pkgIds ht x k hx
  obtain ⟨b, hb, eb⟩ := hi.pkgIds ht y k hy
  rw [ea] at eb
  injection eb with eb
  subst eb
  exact ht.2.package x y a (hi.kinds ht.1 _ _ hx) (hi.kinds ht.1 _ _ hy) ha hb

/-- The node `x` with object `o` is being read; `s0` is the state before that. -/
structure InNode (v : Version) (g : Graph) (s0 : RState) (x : Str) (o : CObj) (s : RState) : Prop where
  sound : Sound v g s
  frame : Frame (· = x) s0 s
  now : mapGet x s.cache = some ⟨o, true⟩
  before : s0.grey x = false

theorem InNode.move {v : Version} {g : Graph} {s0 s s' : RState} {x : Str} {o : CObj} (h : InNode v g s0 x o s) (hs : Sound v g s')
    (hc : Calm s s') : InNode v g s0 x o s' :=
  ⟨hs, h.frame.trans hc, hc.entry h.now, h.before⟩

/-- A change that concerns neither the cache nor what the frame speaks about, other than the object of the node. -/
theorem InNode.change {v : Version} {g : Graph} {s0 s s' : RState} {x : Str} {o : CObj} (h : InNode v g s0 x o s)
    (hv : RInv g s'.view) (hp : s'.view.pfs = s.view.pfs) (hfi : s'.view.fids = s.view.fids) (hc : s'.cache = s.cache)
    (ha : s'.assoc = s.assoc) (hf : ∀ y j, y ≠ x → s.view.cached y (.file j) → s'.fileHeap[j]? = s.fileHeap[j]?)
    (hk : ∀ y j, y ≠ x → s.view.cached y (.pkg j) → s'.pkgHeap[j]? = s.pkgHeap[j]?) (hd : core s'.doc = core s.doc)
    (hr : s'.doc.relationships = s.doc.relationships) (hn : s.doc.annotations <+: s'.doc.annotations)
    (hn' : ∀ a ∈ s'.doc.annotations, a ∈ s.doc.annotations ∨ ∃ n, Annotatable g n ∧ ∃ t ∈ g.of n, t.pred = .annotation ∧ Rdf.AnnotationSays (g.of t.object) a) :
    InNode v g s0 x o s' ∧ Grows g s s' := by
  have hcc : ∀ y o, s'.view.cached y o ↔ s.view.cached y o := fun y o => by
    change (∃ b, mapGet y s'.cache = _) ↔ ∃ b, mapGet y s.cache = _
    rw [hc]
  have hgr : s'.grey = s.grey := by funext y; simp only [RState.grey, hc]
  have hg : Grows g s s' := ⟨fun y o e => (hcc y o).2 e, fun y _ e => .inl (by rw [hgr]; exact e), by rw [hr]; exact List.prefix_refl _, hn⟩
  have hne : ∀ y o', mapGet y s.cache = some ⟨o', false⟩ → y ≠ x := by
    rintro y o' e rfl
    rw [h.now] at e; simp at e
  refine ⟨⟨⟨hv, h.sound.content.step hg ?_ ?_ ?_ hn' ?_⟩, ?_, by rw [hc]; exact h.now, h.before⟩, hg⟩
  · intro y j e
    rw [hc] at e
    exact .inl ⟨e, hf y j (hne y _ e) ⟨_, e⟩⟩
  · intro y j e
    rw [hc] at e
    exact .inl ⟨e, hk y j (hne y _ e) ⟨_, e⟩⟩
  · intro r hr'
    rw [hr] at hr'; exact .inl hr'
  · exact h.sound.content.assoc_of (fun y o e => (hcc y o).2 e) (by rw [hp]; exact List.prefix_refl _)
      (by rw [hfi]; exact List.prefix_refl _) ha
  · have hne0 : ∀ y o', mapGet y s0.cache = some ⟨o', true⟩ → y ≠ x := by
      rintro y o' e rfl
      have := h.before
      rw [grey_iff.2 ⟨_, e⟩] at this; simp at this
    exact
      { cached := fun y o' e => (hcc y o').2 (h.frame.cached y o' e)
        grey := fun y e => by rw [hgr]; exact h.frame.grey y e
        newGrey := fun y e => h.frame.newGrey y (by rw [hgr] at e; exact e)
        files := fun y j e => by rw [hf y j (hne0 y _ e) (h.frame.cached _ _ ⟨_, e⟩), h.frame.files y j e]
        packages := fun y j e => by rw [hk y j (hne0 y _ e) (h.frame.cached _ _ ⟨_, e⟩), h.frame.packages y j e]
        doc := by rw [hd, h.frame.doc]
        relationships := by rw [hr]; exact h.frame.relationships
        annotations := h.frame.annotations.trans hn }

theorem InNode.modFile {v : Version} {g : Graph} (ht : Tidy g) {s0 s s' : RState} {x : Str} {k : Nat} (h : InNode v g s0 x (.file k) s)
    {f : FileV → FileV} (hf : ∀ y, (f y).spdxId = y.spdxId) {u : Unit} (e : modFileAt k f s = .ok (u, s')) :
    InNode v g s0 x (.file k) s' ∧ Grows g s s' ∧ s'.fileHeap[k]? = (s.fileHeap[k]?).map f ∧ s'.doc = s.doc := by
  have hv := ((keeps_modFileAt (w0 := s.view) k hf).ok h.sound.inv (.refl _) e).1
  have e := modify_inv e
  subst e
  refine ⟨?_, ?_, ?_, rfl⟩
  rotate_left 2
  · simp
  all_goals
    have := h.change hv rfl (map_modify_same (fun y : FileV => y.spdxId) f hf _ _) rfl rfl (fun y j hy hc => by
      have hjk : j ≠ k := by
        rintro rfl
        exact hy (file_inj ht h.sound.inv hc ⟨_, h.now⟩)
      change (s.fileHeap.modify k f)[j]? = _
      simp [Ne.symm hjk]) (fun _ _ _ _ => rfl) rfl rfl (List.prefix_refl _) (fun _ h => .inl h)
  · exact this.1
  · exact this.2

theorem InNode.modPackage {v : Version} {g : Graph} (ht : Tidy g) {s0 s s' : RState} {x : Str} {k : Nat} (h : InNode v g s0 x (.pkg k) s)
    {f : Package Nat → Package Nat} (hf : ∀ y, (f y).spdxId = y.spdxId) (hf' : ∀ y, (f y).files = y.files) {u : Unit}
    (e : Verif.modPackage k f s = .ok (u, s')) :
    InNode v g s0 x (.pkg k) s' ∧ Grows g s s' ∧ s'.pkgHeap[k]? = (s.pkgHeap[k]?).map f ∧ s'.doc = s.doc := by
  have hv := ((keeps_modPackage (w0 := s.view) k hf hf').ok h.sound.inv (.refl _) e).1
  have e := modify_inv e
  subst e
  refine ⟨?_, ?_, ?_, rfl⟩
  rotate_left 2
  · simp
  all_goals
    have := h.change hv (map_modify_same (fun y : Package Nat => y.files) f hf' _ _) rfl rfl rfl (fun _ _ _ _ => rfl) (fun y j hy hc => by
      have hjk : j ≠ k := by
        rintro rfl
        exact hy (package_inj ht h.sound.inv hc ⟨_, h.now⟩)
      change (s.pkgHeap.modify k f)[j]? = _
      simp [Ne.symm hjk]) rfl rfl (List.prefix_refl _) (fun _ h => .inl h)
  · exact this.1
  · exact this.2

/-- The state when a node begins to be read. -/
theorem InNode.start {v : Version} {g : Graph} {s s3 : RState} {x : Str} {o : CObj} (hs : Sound v g s) (hi : RInv g s3.view)
    (hc : s3.cache = mapInsert x ⟨o, true⟩ s.cache) (ho : mapGet x s.cache = none ∨ mapGet x s.cache = some ⟨o, false⟩)
    (hf : s.fileHeap <+: s3.fileHeap) (hp : s.pkgHeap <+: s3.pkgHeap) (hd : s3.doc = s.doc) (ha : s3.assoc = s.assoc) :
    InNode v g s x o s3 := by
  have hge : ∀ y, mapGet y s3.cache = if y = x then some ⟨o, true⟩ else mapGet y s.cache := fun y => by
    rw [hc, mapGet_inserted]
  have hbef : s.grey x = false := by
    unfold RState.grey
    rcases ho with e | e <;> simp [e]
  have hcache : ∀ y o', s.view.cached y o' → s3.view.cached y o' := by
    rintro y o' ⟨b, e⟩
    have e : mapGet y s.cache = _ := e
    by_cases hy : y = x
    · subst hy
      rcases ho with e' | e'
      · rw [e] at e'; simp at e'
      · rw [e] at e'; injection e' with e'; injection e' with e1 e2
        subst e1
        exact ⟨true, by change mapGet y s3.cache = _; rw [hge]; simp⟩
    · exact ⟨b, by change mapGet y s3.cache = _; rw [hge, if_neg hy]; exact e⟩
  have hF : ∀ y j, s.view.cached y (.file j) → s3.fileHeap[j]? = s.fileHeap[j]? := fun y j e => by
    have := hs.inv.cacheFile y j e
    simp only [RState.view, List.length_map] at this
    obtain ⟨f, hf'⟩ := get_some this
    rw [hf', prefix_get hf hf']
  have hP : ∀ y j, s.view.cached y (.pkg j) → s3.pkgHeap[j]? = s.pkgHeap[j]? := fun y j e => by
    have := hs.inv.cachePkg y j e
    simp only [RState.view, List.length_map] at this
    obtain ⟨f, hf'⟩ := get_some this
    rw [hf', prefix_get hp hf']
  have hfr : Frame (· = x) s s3 :=
    { cached := hcache
      grey := fun y e => by
        obtain ⟨o', e⟩ := grey_iff.1 e
        refine grey_iff.2 ⟨o', ?_⟩
        rw [hge, if_neg, e]
        rintro rfl
        rw [grey_iff.2 ⟨_, e⟩] at hbef; simp at hbef
      newGrey := fun y e => by
        obtain ⟨o', e⟩ := grey_iff.1 e
        rw [hge] at e
        by_cases hy : y = x
        · exact .inr hy
        · rw [if_neg hy] at e; exact .inl (grey_iff.2 ⟨_, e⟩)
      files := fun y j e => hF y j ⟨_, e⟩
      packages := fun y j e => hP y j ⟨_, e⟩
      doc := by rw [hd]
      relationships := by rw [hd]; exact List.prefix_refl _
      annotations := by rw [hd]; exact List.prefix_refl _ }
  have hblack : ∀ y o', mapGet y s3.cache = some ⟨o', false⟩ → mapGet y s.cache = some ⟨o', false⟩ := by
    intro y o' e
    rw [hge] at e
    by_cases hy : y = x
    · rw [if_pos hy] at e; simp at e
    · rw [if_neg hy] at e; exact e
  refine ⟨⟨hi, hs.content.step hfr.grows (fun y j e => .inl ⟨hblack _ _ e, hF _ _ ⟨_, hblack _ _ e⟩⟩)
    (fun y j e => .inl ⟨hblack _ _ e, hP _ _ ⟨_, hblack _ _ e⟩⟩) (fun r hr => .inl (by rw [hd] at hr; exact hr))
    (fun r hr => .inl (by rw [hd] at hr; exact hr)) (hs.content.assoc_of hcache (hp.map _) (hf.map _) ha)⟩, hfr, by rw [hge]; simp, hbef⟩

/-- The state when a node has been read. -/
theorem InNode.stop {v : Version} {g : Graph} {s0 s s' : RState} {x : Str} {o : CObj} (h : InNode v g s0 x o s) (hi : RInv g s'.view)
    (hc : s'.cache = mapInsert x ⟨o, false⟩ s.cache) (hf : s'.fileHeap = s.fileHeap) (hp : s'.pkgHeap = s.pkgHeap)
    (hd : core s'.doc = core s.doc) (ha : s'.assoc = s.assoc)
    (hn : s'.doc.annotations = s.doc.annotations) (hr : s.doc.relationships <+: s'.doc.relationships)
    (hr' : Grows g s s' → ∀ r ∈ s'.doc.relationships, r ∈ s.doc.relationships ∨ ∃ u, Leads g (.relationship u) ∧
      RelationshipSays g u.subject (g.of u.object) r ∧ RelatedIn g s' (g.of u.object))
    (hrx : UsedAsRelationship g x → RelRead g s' x) (hof : Grows g s s' → ∀ j, o = .file j → FileAt v g s' x j)
    (hop : Grows g s s' → ∀ j, o = .pkg j → PackageAt v g s' x j) : Sound v g s' ∧ Calm s0 s' ∧ s'.view.cached x o := by
  have hge : ∀ y, mapGet y s'.cache = if y = x then some ⟨o, false⟩ else mapGet y s.cache := fun y => by
    rw [hc, mapGet_inserted]
  have hcache : ∀ y o', s.view.cached y o' → s'.view.cached y o' := by
    rintro y o' ⟨b, e⟩
    have e : mapGet y s.cache = _ := e
    by_cases hy : y = x
    · subst hy
      rw [h.now] at e
      injection e with e; injection e with e1 e2
      subst e1
      exact ⟨false, by change mapGet y s'.cache = _; rw [hge]; simp⟩
    · exact ⟨b, by change mapGet y s'.cache = _; rw [hge, if_neg hy]; exact e⟩
  have hgrey : ∀ y, y ≠ x → s'.grey y = s.grey y := fun y hy => by
    unfold RState.grey; rw [hge, if_neg hy]
  have hg : Grows g s s' := ⟨hcache, fun y hu e => by
    by_cases hy : y = x
    · subst hy; exact .inr (hrx hu)
    · exact .inl (by rw [hgrey y hy]; exact e), hr, by rw [hn]; exact List.prefix_refl _⟩
  refine ⟨⟨hi, h.sound.content.step hg ?_ ?_ (hr' hg) (fun a ha => .inl (by rw [hn] at ha; exact ha)) ?_⟩, ?_, ⟨false, by
    change mapGet x s'.cache = _; rw [hge]; simp⟩⟩
  · intro y j e
    rw [hge] at e
    by_cases hy : y = x
    · subst hy
      simp only [if_true, Option.some.injEq, NodeState.mk.injEq, and_true] at e
      exact .inr (hof hg j e)
    · rw [if_neg hy] at e
      exact .inl ⟨e, by rw [hf]⟩
  · intro y j e
    rw [hge] at e
    by_cases hy : y = x
    · subst hy
      simp only [if_true, Option.some.injEq, NodeState.mk.injEq, and_true] at e
      exact .inr (hop hg j e)
    · rw [if_neg hy] at e
      exact .inl ⟨e, by rw [hp]⟩
  · exact h.sound.content.assoc_of hcache (by simp only [RState.view, hp]; exact List.prefix_refl _)
      (by simp only [RState.view, hf]; exact List.prefix_refl _) ha
  · have hne : ∀ y, s0.grey y = true → y ≠ x := by
      rintro y e rfl
      rw [h.before] at e; simp at e
    exact
      { cached := fun y o' e => hcache y o' (h.frame.cached y o' e)
        grey := fun y e => by rw [hgrey y (hne y e)]; exact h.frame.grey y e
        newGrey := fun y e => by
          have hy : y ≠ x := by
            rintro rfl
            obtain ⟨o', e⟩ := grey_iff.1 e
            rw [hge] at e; simp at e
          rw [hgrey y hy] at e
          rcases h.frame.newGrey y e with e | e
          · exact .inl e
          · exact absurd e hy
        files := fun y j e => by rw [hf, h.frame.files y j e]
        packages := fun y j e => by rw [hp, h.frame.packages y j e]
        doc := by rw [hd, h.frame.doc]
        relationships := h.frame.relationships.trans hr
        annotations := by rw [hn]; exact h.frame.annotations }

/-- A state with new objects that no node has. -/
theorem Sound.grow {v : Version} {g : Graph} {s s' : RState} (hs : Sound v g s) (hi : RInv g s'.view) (hc : s'.cache = s.cache)
    (hf : s.fileHeap <+: s'.fileHeap) (hp : s.pkgHeap <+: s'.pkgHeap) (hd : core s'.doc = core s.doc)
    (hr : s'.doc.relationships = s.doc.relationships) (hn : s.doc.annotations <+: s'.doc.annotations)
    (hn' : ∀ a ∈ s'.doc.annotations, a ∈ s.doc.annotations ∨ ∃ n, Annotatable g n ∧ ∃ t ∈ g.of n, t.pred = .annotation ∧ Rdf.AnnotationSays (g.of t.object) a)
    (ha : s'.assoc = s.assoc) : Sound v g s' ∧ Calm s s' := by
  have hcc : ∀ y o, s.view.cached y o → s'.view.cached y o := fun y o => by
    rintro ⟨b, e⟩
    exact ⟨b, by change mapGet y s'.cache = _; rw [hc]; exact e⟩
  have hgr : s'.grey = s.grey := by funext y; simp only [RState.grey, hc]
  have hF : ∀ y j, s.view.cached y (.file j) → s'.fileHeap[j]? = s.fileHeap[j]? := fun y j e => by
    have := hs.inv.cacheFile y j e
    simp only [RState.view, List.length_map] at this
    obtain ⟨f, hf'⟩ := get_some this
    rw [hf', prefix_get hf hf']
  have hP : ∀ y j, s.view.cached y (.pkg j) → s'.pkgHeap[j]? = s.pkgHeap[j]? := fun y j e => by
    have := hs.inv.cachePkg y j e
    simp only [RState.view, List.length_map] at this
    obtain ⟨f, hf'⟩ := get_some this
    rw [hf', prefix_get hp hf']
  have hfr : Calm s s' :=
    { cached := hcc
      grey := fun y e => by rw [hgr]; exact e
      newGrey := fun y e => by rw [hgr] at e; exact .inl e
      files := fun y j e => hF y j ⟨_, e⟩
      packages := fun y j e => hP y j ⟨_, e⟩
      doc := hd
      relationships := by rw [hr]; exact List.prefix_refl _
      annotations := hn }
  refine ⟨⟨hi, hs.content.step hfr.grows (fun y j e => ?_) (fun y j e => ?_) (fun r h => .inl (by rw [hr] at h; exact h)) hn'
    (hs.content.assoc_of hcc (hp.map _) (hf.map _) ha)⟩, hfr⟩
  · rw [hc] at e; exact .inl ⟨e, hF _ _ ⟨_, e⟩⟩
  · rw [hc] at e; exact .inl ⟨e, hP _ _ ⟨_, e⟩⟩

/-! ## Statements that do not concern the element itself -/

theorem Sound.annotation {v : Version} {g : Graph} {s s' : RState} {n : RNode} {t : Triple} (hs : Sound v g s) (hn : Annotatable g n)
    (hm : t ∈ g.of n) (hp : t.pred = .annotation) {u : Unit} (e : addAnnotation g t.object s = .ok (u, s')) :
    Sound v g s' ∧ Calm s s' ∧ ∃ a ∈ s'.doc.annotations, Rdf.AnnotationSays (g.of t.object) a := by
  have hi := ((keeps_addAnnotation (w0 := s.view) t.object).ok hs.inv (.refl _) e).1
  obtain ⟨a, s1, e1, e2⟩ := bind_inv e
  obtain ⟨ha, rfl⟩ := lift_inv e1
  rw [annotation_iff] at ha
  have e2 := modify_inv e2
  subst e2
  have := hs.grow hi rfl (List.prefix_refl _) (List.prefix_refl _) rfl rfl (List.prefix_append _ _) (fun b hb => by
    rcases List.mem_append.1 hb with hb | hb
    · exact .inl hb
    · rw [List.mem_singleton.1 hb]; exact .inr ⟨n, hn, t, hm, hp, ha⟩) rfl
  exact ⟨this.1, this.2, a, by simp, ha⟩

theorem ToldIn.nil {g : Graph} {s : RState} : ToldIn g s [] := by constructor <;> (intro t ht; simp at ht)

theorem ToldIn.snoc {g : Graph} {s : RState} {ts : List Triple} {t : Triple} (h : ToldIn g s ts)
    (h1 : t.pred = .annotation → ∃ a ∈ s.doc.annotations, Rdf.AnnotationSays (g.of t.object) a)
    (h2 : t.pred = .relationship → UsedAsRelationship g t.object.id ∧ (s.grey t.object.id = true ∨ RelRead g s t.object.id))
    (h3 : t.pred = .fileDependency → ∃ j, s.view.cached t.object.id (.file j)) : ToldIn g s (ts ++ [t]) := by
  constructor <;> intro u hu <;> rcases List.mem_append.1 hu with hu | hu
  · exact h.annotations u hu
  · rw [List.mem_singleton.1 hu]; exact h1
  · exact h.relationships u hu
  · rw [List.mem_singleton.1 hu]; exact h2
  · exact h.dependencies u hu
  · rw [List.mem_singleton.1 hu]; exact h3

/-- What the methods that call each other guarantee about contents. -/
structure CGood (v : Version) (g : Graph) (c : RCalls) : Prop where
  file : ∀ n s s' k, Leads g (.file n) → Sound v g s → c.file n s = .ok (k, s') →
    Sound v g s' ∧ Calm s s' ∧ s'.view.cached n.id (.file k)
  package : ∀ n s s' k, Leads g (.package n) → Sound v g s → c.package n s = .ok (k, s') →
    Sound v g s' ∧ Calm s s' ∧ s'.view.cached n.id (.pkg k)
  relationship : ∀ t s s' u, Leads g (.relationship t) → Sound v g s → c.relationship t s = .ok (u, s') →
    Sound v g s' ∧ Calm s s' ∧ (s'.grey t.object.id = true ∨ RelRead g s' t.object.id)

end Verif
