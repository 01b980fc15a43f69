import Verif.Lemmas.RdfContent

/-!
# The methods of the RDF reader put into the elements what the statements say
-/

namespace Verif
open RdfM Spec Spec.Rdf

theorem fileAt_inv {i : Nat} {f : FileV} {s s' : RState} (h : fileAt i s = .ok (f, s')) : s.fileHeap[i]? = some f ∧ s' = s := by
  unfold fileAt at h
  split at h
  · next e => injection h with h; injection h with h1 h2; subst h1; subst h2; exact ⟨e, rfl⟩
  · simp at h

theorem packageAt_inv {i : Nat} {f : Package Nat} {s s' : RState} (h : packageAt i s = .ok (f, s')) :
    s.pkgHeap[i]? = some f ∧ s' = s := by
  unfold packageAt at h
  split at h
  · next e => injection h with h; injection h with h1 h2; subst h1; subst h2; exact ⟨e, rfl⟩
  · simp at h

/-- The identifier of the file of a node. -/
theorem cached_file_id {g : Graph} (ht : Tidy g) {s : RState} (hi : RInv g s.view) {x : Str} {j : Nat} {f : FileV}
    (hc : s.view.cached x (.file j)) (e : s.fileHeap[j]? = some f) : FileIdOf x f.spdxId := by
  obtain ⟨id, h1, h2⟩ := hi.fileIds ht x j hc
  simp only [RState.view, List.getElem?_map, e, Option.map_some, Option.some.injEq] at h2
  rw [h2]; exact h1

theorem cached_package_id {g : Graph} (ht : Tidy g) {s : RState} (hi : RInv g s.view) {x : Str} {j : Nat} {f : Package Nat}
    (hc : s.view.cached x (.pkg j)) (e : s.pkgHeap[j]? = some f) : PackageIdOf x f.spdxId := by
  obtain ⟨id, h1, h2⟩ := hi.pkgIds ht x j hc
  simp only [RState.view, List.getElem?_map, e, Option.map_some, Option.some.injEq] at h2
  rw [h2]; exact h1

/-- One more statement about an element with many fields. -/
macro "field_step" hp:ident : tactic => `(tactic|
  first
    | with_reducible assumption
    | (rw [vals_snoc_other (by rw [$hp:ident]; simp)]; with_reducible assumption)
    | (rw [vals_snoc_same $hp]; first
        | exact LastOf.snoc (by with_reducible assumption) rfl
        | exact LastOf.snoc (by with_reducible assumption) (by with_reducible assumption)
        | exact EachOf.snoc (by with_reducible assumption) rfl
        | exact EachOf.snoc (by with_reducible assumption) (by with_reducible assumption)))

/-! ## Files -/

theorem fileSays_id {v : Version} {g : Graph} {ts : List Triple} {id : Str} {f : FileV} (h : FileSays v g ts f) :
    FileSays v g ts { f with spdxId := id } := { h with }

theorem fileSays_nil {v : Version} {g : Graph} {id : Str} : FileSays v g [] { spdxId := id } := by
  constructor <;> first | exact .nil | exact EachOf.nil | exact Only.nil | rfl

/-- A statement that changes only the file. -/
theorem put_file {v : Version} {g : Graph} (ht : Tidy g) {s0 s s' : RState} {x : Str} {k : Nat} {ts : List Triple} {t : Triple}
    (hn : InNode v g s0 x (.file k) s) {f : FileV} (hf : s.fileHeap[k]? = some f) (told : ToldIn g s (ts ++ [t]))
    {F : FileV → FileV} (hF : ∀ y, (F y).spdxId = y.spdxId) {u : Unit} (e : modFileAt k F s = .ok (u, s'))
    (says : FileSays v g (ts ++ [t]) (F f)) : InNode v g s0 x (.file k) s' ∧ FileRead v g s' k (ts ++ [t]) := by
  obtain ⟨h1, h2, h3, _⟩ := hn.modFile ht hF e
  exact ⟨h1, F f, by rw [h3, hf]; rfl, says, told.grow h2⟩

theorem content_fileStep {v : Version} {g : Graph} (ht : Tidy g) {c : RCalls} (hc : CGood v g c) {s0 s s' : RState} {x : Str} {k : Nat}
    {ts : List Triple} {t : Triple} {n : RNode} (hl' : Leads g (.file n)) (hm : t ∈ g.of n) (hn : InNode v g s0 x (.file k) s) (hr : FileRead v g s k ts)
    {u : Unit} (e : fileStep v g c k t s = .ok (u, s')) : InNode v g s0 x (.file k) s' ∧ FileRead v g s' k (ts ++ [t]) := by
  obtain ⟨f, hf, says, told⟩ := hr
  have say := says
  obtain ⟨h1, h2, h3, h4, h5, h6, h7, h8, h9, h10, h11, h12, h13, h14, h15⟩ := says
  unfold fileStep at e
  cases hp : t.pred <;> simp only [hp] at e <;> first
    | (exact (err_inv e).elim)
    | skip
  -- nothing
  case name | type_ | licenseInfoFromFiles =>
    obtain ⟨_, rfl⟩ := pure_inv e
    exact ⟨hn, f, hf, by constructor <;> says_step hp, told.snoc (by simp [hp]) (by simp [hp]) (by simp [hp])⟩
  -- texts
  case fileName | licenseComments | copyrightText | comment | fileContributor | attributionText =>
    refine put_file ht hn hf (told.snoc (by simp [hp]) (by simp [hp]) (by simp [hp])) ?_ e ?_
    · intro _; rfl
    · constructor <;> says_step hp
  case noticeText =>
    have hno := (notice_iff t.object _).2 rfl
    refine put_file ht hn hf (told.snoc (by simp [hp]) (by simp [hp]) (by simp [hp])) ?_ e ?_
    · intro _; rfl
    · constructor <;> says_step hp
  -- values
  case fileType | checksum | artifactOf =>
    obtain ⟨y, e1, e⟩ := bind_lift_inv e
    first | rw [← fileType_iff] at e1 | rw [elementChecksum_iff] at e1 | rw [artifact_iff] at e1
    refine put_file ht hn hf (told.snoc (by simp [hp]) (by simp [hp]) (by simp [hp])) ?_ e ?_
    · intro _; rfl
    · constructor <;> says_step hp
  -- licenses
  case licenseConcluded | licenseInfoInFile =>
    obtain ⟨y, s1, e1, e⟩ := bind_inv e
    obtain ⟨hs1, hcalm, hl⟩ := hn.sound.license (used_of hm (by simp [hp])) e1
    have hf1 := (hcalm.files _ _ hn.now).trans hf
    refine put_file ht (hn.move hs1 hcalm) hf1
      ((told.grow hcalm.grows).snoc (by simp [hp]) (by simp [hp]) (by simp [hp])) ?_ e ?_
    · intro _; rfl
    · constructor <;> says_step hp
  -- other elements
  case fileDependency =>
    obtain ⟨j, s1, e1, e3⟩ := bind_inv e
    obtain ⟨d, s2, e2, e⟩ := bind_inv e3
    clear e3
    obtain ⟨hs1, hcalm, hj⟩ := hc.file _ _ _ _ (.dependency hl' hm hp) hn.sound e1
    obtain ⟨hd, rfl⟩ := fileAt_inv e2
    have hid := cached_file_id ht hs1.inv hj hd
    have hf1 := (hcalm.files _ _ hn.now).trans hf
    refine put_file ht (hn.move hs1 hcalm) hf1
      ((told.grow hcalm.grows).snoc (by simp [hp]) (by simp [hp]) (fun _ => ⟨j, hj⟩)) ?_ e ?_
    · intro _; rfl
    · constructor <;> says_step hp
  case annotation =>
    obtain ⟨hs1, hcalm, ha⟩ := hn.sound.annotation (.file hl') hm hp e
    have hf1 := (hcalm.files _ _ hn.now).trans hf
    exact ⟨hn.move hs1 hcalm, f, hf1, by constructor <;> says_step hp,
      (told.grow hcalm.grows).snoc (fun _ => ha) (by simp [hp]) (by simp [hp])⟩
  case relationship =>
    obtain ⟨hs1, hcalm, ha⟩ := hc.relationship _ _ _ _ (.ofFile hl' hm hp) hn.sound e
    have hf1 := (hcalm.files _ _ hn.now).trans hf
    exact ⟨hn.move hs1 hcalm, f, hf1, by constructor <;> says_step hp,
      (told.grow hcalm.grows).snoc (by simp [hp]) (fun _ => ⟨used_of hm (by simp [hp]), ha⟩) (by simp [hp])⟩

/-- The parts of reading a file. -/
theorem fileBody_inv {v : Version} {g : Graph} (ht : Tidy g) {c : RCalls} {node : RNode} (hu : UsedAsFile g node.id) {s s' : RState} {k : Nat}
    (hi : RInv g s.view) (e : fileBody v g c node s = .ok (k, s')) :
    (mapGet node.id s.cache = some ⟨.file k, true⟩ ∧ s' = { s with fileHeap := s.fileHeap ++ [{}] }) ∨
    ∃ id s3 s4 f, FileIdOf node.id id ∧ RInv g s3.view ∧
      s3 = { s with fileHeap := s.fileHeap ++ [{ spdxId := id }], cache := mapInsert node.id ⟨.file k, true⟩ s.cache } ∧
      ((mapGet node.id s.cache = none ∧ k = s.fileHeap.length) ∨ mapGet node.id s.cache = some ⟨.file k, false⟩) ∧
      RdfM.each (fileStep v g c k) (g.of node) s3 = .ok ((), s4) ∧ s4.fileHeap[k]? = some f ∧
      leave node.id { s4 with files := mapInsert f.spdxId k s4.files } = .ok ((), s') := by
  unfold fileBody at e
  rw [bind_at (a := s.fileHeap.length) (s' := { s with fileHeap := s.fileHeap ++ [{}] }) rfl] at e
  -- the file with the identifier is the file of the node
  have canon : ∀ id k0, FileIdOf node.id id → mapGet id s.files = some k0 → s.view.cached node.id (.file k0) := by
    intro id k0 hid e'
    obtain ⟨x, hx⟩ := hi.filesCanon ht _ (pair_of_mapGet e')
    obtain ⟨id', h1, h2⟩ := hi.fileIds ht x _ hx
    rw [hi.files _ (pair_of_mapGet e')] at h2
    injection h2 with h2
    subst h2
    rw [← ht.2.file x node.id id (hi.kinds ht.1 _ _ hx) hu h1 hid]; exact hx
  have main : ∀ o', (mapGet node.id s.cache = none ∧ o' = .file s.fileHeap.length ∨ mapGet node.id s.cache = some ⟨o', false⟩) →
      ∀ k s', (fileNew v g c node s.fileHeap.length >>= fun k => leave node.id >>= fun _ => pure k)
        { s with fileHeap := s.fileHeap ++ [{}], cache := mapInsert node.id ⟨o', true⟩ s.cache } = .ok (k, s') →
      ∃ id s3 s4 f, FileIdOf node.id id ∧ RInv g s3.view ∧
        s3 = { s with fileHeap := s.fileHeap ++ [{ spdxId := id }], cache := mapInsert node.id ⟨.file k, true⟩ s.cache } ∧
        ((mapGet node.id s.cache = none ∧ k = s.fileHeap.length) ∨ mapGet node.id s.cache = some ⟨.file k, false⟩) ∧
        RdfM.each (fileStep v g c k) (g.of node) s3 = .ok ((), s4) ∧ s4.fileHeap[k]? = some f ∧
        leave node.id { s4 with files := mapInsert f.spdxId k s4.files } = .ok ((), s') := by
    intro o' ho k s' e
    obtain ⟨k', s5, e1, e2⟩ := bind_inv e
    obtain ⟨_, s6, e3, e4⟩ := bind_inv e2
    obtain ⟨rfl, rfl⟩ := pure_inv e4
    unfold fileNew at e1
    obtain ⟨id, s6, e4, e5⟩ := bind_inv e1
    obtain ⟨hid, rfl⟩ := lift_inv e4
    obtain ⟨_, s8, e6, e7⟩ := bind_inv e5
    have e4 := modify_inv e6
    obtain ⟨s9, s10, e8, e9⟩ := bind_inv e7
    have e10 : s9 = s8 ∧ s10 = s8 := by injection e8 with e8; injection e8 with h1 h2; exact ⟨h1.symm, h2.symm⟩
    obtain ⟨e10, e11⟩ := e10
    rw [e10, e11] at e9
    obtain ⟨_, s4', e20, e12⟩ := bind_inv e9
    obtain ⟨f, s11, e13, e14⟩ := bind_inv e12
    obtain ⟨hf, e15⟩ := fileAt_inv e13
    rw [e15] at e14
    obtain ⟨_, s12, e16, e17⟩ := bind_inv e14
    obtain ⟨hk, e18⟩ := pure_inv e17
    have e8 := modify_inv e16
    rw [← e18] at e8
    have hs8 : s8.files = s.files := by rw [e4]
    rw [hs8] at e20 hk e8 hf
    rw [← hk] at e20 e8 hf
    have hk' : (mapGet node.id s.cache = none ∧ k = s.fileHeap.length ∨ mapGet node.id s.cache = some ⟨.file k, false⟩) ∧ o' = .file k := by
      rcases ho with ⟨hnone, rfl⟩ | hblack
      · have : k = s.fileHeap.length := by
          cases e' : mapGet id s.files with
          | none => rw [hk, e']; rfl
          | some k0 =>
            obtain ⟨b, h⟩ := canon id k0 hid e'
            have h : mapGet node.id s.cache = _ := h
            rw [hnone] at h; simp at h
        subst this
        exact ⟨.inl ⟨hnone, rfl⟩, rfl⟩
      · have hrole := hi.kinds ht.1 node.id o' ⟨false, hblack⟩
        have : ∃ j, o' = .file j := by
          cases o' with
          | nil => exact absurd hrole (ht.1.file _ hu).2.1
          | pkg i => exact absurd hrole (ht.1.file _ hu).1
          | rel => exact absurd hrole (ht.1.file _ hu).2.2
          | file j => exact ⟨j, rfl⟩
        obtain ⟨j, rfl⟩ := this
        have hdone := hi.filesDone ht node.id j id hblack hid
        cases e' : mapGet id s.files with
        | none => exact absurd hdone (not_mem_of_mapGet e')
        | some k0 =>
          have h0 := cached_unique (canon id k0 hid e') ⟨false, hblack⟩
          injection h0 with h0
          have : k = j := by rw [hk, e']; simpa using h0
          subst this
          exact ⟨.inr hblack, rfl⟩
    obtain ⟨hk', rfl⟩ := hk'
    have e4' : s8 = { s with fileHeap := s.fileHeap ++ [{ spdxId := id }], cache := mapInsert node.id ⟨.file k, true⟩ s.cache } := by
      rw [e4]; simp only [rmodify_last]
    refine ⟨id, s8, s4', f, hid, ?_, e4', hk', e20, hf, by rw [← e8]; exact e3⟩
    have hv3 : s8.view = View.put { s.view with fids := s.view.fids ++ [id] } node.id (.file k) true := by
      simp [e4', RState.view, View.put]
    rw [hv3]
    refine ((hi.growFile id).put (x := node.id) (o := .file k) (b := true) ?_ fun _ => .inl rfl).1
    rcases hk' with ⟨hn, rfl⟩ | hb
    · refine .inr ⟨hn, hu, fun j hj => ?_, by simp⟩
      injection hj with hj
      subst hj
      exact ⟨id, hid, by simp [RState.view]⟩
    · exact .inl ⟨_, hb⟩
  rcases enter_eq node.id (.file s.fileHeap.length) { s with fileHeap := s.fileHeap ++ [{}] } with
    ⟨o', hc, e'⟩ | ⟨hc, e'⟩ | ⟨o', hc, e'⟩
  · rw [bind_at e'] at e
    cases o' with
    | file j => obtain ⟨rfl, rfl⟩ := pure_inv e; exact .inl ⟨hc, rfl⟩
    | nil => exact (panic_inv e).elim
    | pkg i => exact (panic_inv e).elim
    | rel => exact (panic_inv e).elim
  · rw [bind_at e'] at e
    exact .inr (main (.file s.fileHeap.length) (.inl ⟨hc, rfl⟩) k s' e)
  · rw [bind_at e'] at e
    exact .inr (main o' (.inr hc) k s' e)

/-- The end of reading a node. -/
theorem leave_inv {s s' : RState} {x : Str} {o : CObj} {u : Unit} (hx : mapGet x s.cache = some ⟨o, true⟩) (e : leave x s = .ok (u, s')) :
    s' = { s with cache := mapInsert x ⟨o, false⟩ s.cache } := by
  have e := modify_inv e
  rw [hx] at e
  exact e

theorem content_fileBody {v : Version} {g : Graph} (ht : Tidy g) {c : RCalls} (hg : Good g c) (hc : CGood v g c) {node : RNode} (hv : Leads g (.file node))
    {s s' : RState} {k : Nat} (hs : Sound v g s) (e : fileBody v g c node s = .ok (k, s')) :
    Sound v g s' ∧ Calm s s' ∧ s'.view.cached node.id (.file k) := by
  have hu : UsedAsFile g node.id := leads_used hv
  have hkeep := (keeps_fileBody v hg node s.view hu).ok hs.inv (.refl _) e
  rcases fileBody_inv ht hu hs.inv e with ⟨hgrey, rfl⟩ | ⟨id, s3, s4, f, hid, hi3, es3, hk, e4, hf4, e5⟩
  · obtain ⟨h1, h2⟩ := hs.grow hkeep.1 rfl (List.prefix_append _ _) (List.prefix_refl _) rfl rfl (List.prefix_refl _)
      (fun _ h => .inl h) rfl
    exact ⟨h1, h2, true, hgrey⟩
  · have hstart : InNode v g s node.id (.file k) s3 := by
      refine InNode.start hs hi3 (by rw [es3]) ?_ (by rw [es3]; exact List.prefix_append _ _) (by rw [es3]; exact List.prefix_refl _)
        (by rw [es3]) (by rw [es3])
      rcases hk with h | h
      · exact .inl h.1
      · exact .inr h
    obtain ⟨ns, hns, hread⟩ : ∃ ns : List RNode, (∀ n ∈ ns, n.id = node.id ∧ Leads g (.file n)) ∧ FileRead v g s3 k (ns.flatMap g.of) := by
      rcases hk with ⟨_, hk⟩ | hb
      · exact ⟨[], by simp, { spdxId := id }, by rw [es3, hk]; simp, fileSays_nil, .nil⟩
      · obtain ⟨ns, _, h2, h3⟩ := hs.content.files _ _ hb
        refine ⟨ns, h2, h3.grow hstart.frame.grows ?_⟩
        have := hs.inv.cacheFile node.id k ⟨_, hb⟩
        simp only [RState.view, List.length_map] at this
        rw [es3]; exact List.getElem?_append_left this
    have hloop := each_inv (I := fun ts s => InNode v g _ node.id (.file k) s ∧ FileRead v g s k ts)
      (fun us t s s' a hm h e => content_fileStep ht hc hv hm h.1 h.2 e) ⟨hstart, hread⟩ e4
    obtain ⟨h4, hr4⟩ := hloop
    have e5 := leave_inv (s := { s4 with files := mapInsert f.spdxId k s4.files }) h4.now e5
    subst e5
    exact h4.stop hkeep.1 rfl rfl rfl rfl rfl rfl (List.prefix_refl _) (fun _ _ h => .inl h)
      (fun hr => absurd hr (ht.1.file _ hu).2.2) (fun hgr j hj => by
        injection hj with hj
        subst hj
        refine ⟨ns ++ [node], by simp, ?_, ?_⟩
        · intro n hn
          rcases List.mem_append.1 hn with hn | hn
          · exact hns n hn
          · rw [List.mem_singleton.1 hn]; exact ⟨rfl, hv⟩
        · have := hr4.grow hgr rfl
          simpa using this) (by simp)

/-! ## Packages -/

theorem packageSays_nil {v : Version} {g : Graph} {F : RNode → Nat → Prop} {id : Str} : PackageSays v g F [] { spdxId := id } := by
  constructor <;> first | exact .nil | exact EachOf.nil | exact Only.nil | rfl | exact .inl ⟨rfl, rfl⟩

/-- A statement that changes only the package. -/
theorem put_package {v : Version} {g : Graph} (ht : Tidy g) {s0 s s' : RState} {x : Str} {k : Nat} {ts : List Triple} {t : Triple}
    (hn : InNode v g s0 x (.pkg k) s) {f : Package Nat} (hf : s.pkgHeap[k]? = some f) (told : ToldIn g s (ts ++ [t]))
    {F : Package Nat → Package Nat} (hF : ∀ y, (F y).spdxId = y.spdxId) (hF' : ∀ y, (F y).files = y.files) {u : Unit}
    (e : modPackage k F s = .ok (u, s'))
    (says : PackageSays v g (fun n j => s.view.cached n.id (.file j)) (ts ++ [t]) (F f)) :
    InNode v g s0 x (.pkg k) s' ∧ PackageRead v g s' k (ts ++ [t]) := by
  obtain ⟨h1, h2, h3, _⟩ := hn.modPackage ht hF hF' e
  exact ⟨h1, F f, by rw [h3, hf]; rfl, { says with files := says.files.imp fun _ _ => h2.cached _ _ }, told.grow h2⟩

/-- The verification code after one more of its nodes. -/
theorem packageCode_snoc {v : Version} {g : Graph} {vs : List RNode} {c c' : Option VerificationCode} {n : RNode}
    (h : PackageCodeSays v g vs c) (e : verificationAt v g c n = .ok c') : PackageCodeSays v g (vs ++ [n]) c' := by
  unfold verificationAt at e
  rw [bind_eq_ok] at e
  obtain ⟨x, e1, e2⟩ := e
  have h0 : foldTriples verificationStep {} (vs.flatMap g.of) = .ok (c.getD {}) := by
    rcases h with ⟨rfl, rfl⟩ | ⟨_, y, hy, rfl⟩
    · rfl
    · rw [(verification_iff _ y).2 hy]
      split
      · next h => rw [h.2]; rfl
      · rfl
  refine .inr ⟨by simp, x, ?_, ?_⟩
  · rw [← verification_iff, List.flatMap_append, foldTriples_append, h0]
    simpa [Bind.bind, Res.bind] using e1
  · split at e2 <;> (injection e2 with e2; subst e2)
    · rw [if_pos ‹_›]
    · rw [if_neg ‹_›]

set_option maxHeartbeats 1000000 in
theorem content_packageStep {v : Version} {g : Graph} (ht : Tidy g) {c : RCalls} (hg : Good g c) (hc : CGood v g c) {s0 s s' : RState}
    {x : Str} {k : Nat} {ts : List Triple} {t : Triple} {n : RNode} (hl' : Leads g (.package n)) (hm : t ∈ g.of n) (hn : InNode v g s0 x (.pkg k) s)
    (hr : PackageRead v g s k ts) {u : Unit} (e : packageStep v g c k t s = .ok (u, s')) :
    InNode v g s0 x (.pkg k) s' ∧ PackageRead v g s' k (ts ++ [t]) := by
  have hkeep := (keeps_packageStep v hg hm (w0 := s.view) (hn.sound.inv.cachePkg x k ⟨_, hn.now⟩)).ok hn.sound.inv (.refl _) e
  obtain ⟨f, hf, says, told⟩ := hr
  -- the statements and the package, in a state reached meanwhile
  have at_ : ∀ {s1 : RState}, Calm s s1 → s1.pkgHeap[k]? = some f ∧ PackageSays v g (fun n j => s1.view.cached n.id (.file j)) ts f ∧
      ToldIn g s1 ts := fun h => ⟨(h.packages _ _ hn.now).trans hf, { says with files := says.files.imp fun _ _ => h.cached _ _ }, told.grow h.grows⟩
  have say := says
  unfold packageStep at e
  cases hp : t.pred <;> simp only [hp] at e <;> first
    | (exact (err_inv e).elim)
    | skip
  -- nothing
  case type_ =>
    obtain ⟨h1, h2, h3, h4, h5, h6, h7, h8, h9, h10, h11, h12, h13, h14, h15, h16, h17, h18, h19, h20, h21, h22, h23, h24, h25, h26, h27, h28, h29, h30⟩ := says
    obtain ⟨_, rfl⟩ := pure_inv e
    exact ⟨hn, f, hf, by constructor <;> first | exact Only.snoc h1 (by rw [hp]; simp [packageProps]) | field_step hp, told.snoc (by simp [hp]) (by simp [hp]) (by simp [hp])⟩
  -- texts
  case name | versionInfo | packageFileName | sourceInfo | licenseComments | copyrightText | summary | description | comment |
      attributionText =>
    obtain ⟨h1, h2, h3, h4, h5, h6, h7, h8, h9, h10, h11, h12, h13, h14, h15, h16, h17, h18, h19, h20, h21, h22, h23, h24, h25, h26, h27, h28, h29, h30⟩ := says
    refine put_package ht hn hf (told.snoc (by simp [hp]) (by simp [hp]) (by simp [hp])) ?_ ?_ e ?_
    · intro _; rfl
    · intro _; rfl
    · constructor <;> first | exact Only.snoc h1 (by rw [hp]; simp [packageProps]) | field_step hp
  case releaseDate | builtDate | validUntilDate =>
    obtain ⟨h1, h2, h3, h4, h5, h6, h7, h8, h9, h10, h11, h12, h13, h14, h15, h16, h17, h18, h19, h20, h21, h22, h23, h24, h25, h26, h27, h28, h29, h30⟩ := says
    split at e
    · next hv =>
      refine put_package ht hn hf (told.snoc (by simp [hp]) (by simp [hp]) (by simp [hp])) ?_ ?_ e ?_
      · intro _; rfl
      · intro _; rfl
      · constructor <;> first | exact Only.snoc h1 (by rw [hp]; simp [packageProps, hv]) | field_step hp
    · exact (err_inv e).elim
  case primaryPackagePurpose =>
    obtain ⟨h1, h2, h3, h4, h5, h6, h7, h8, h9, h10, h11, h12, h13, h14, h15, h16, h17, h18, h19, h20, h21, h22, h23, h24, h25, h26, h27, h28, h29, h30⟩ := says
    split at e
    · next hv =>
      have hpu := (purpose_iff t.object _).2 rfl
      refine put_package ht hn hf (told.snoc (by simp [hp]) (by simp [hp]) (by simp [hp])) ?_ ?_ e ?_
      · intro _; rfl
      · intro _; rfl
      · constructor <;> first | exact Only.snoc h1 (by rw [hp]; simp [packageProps, hv]) | field_step hp
    · exact (err_inv e).elim
  case homepage =>
    obtain ⟨h1, h2, h3, h4, h5, h6, h7, h8, h9, h10, h11, h12, h13, h14, h15, h16, h17, h18, h19, h20, h21, h22, h23, h24, h25, h26, h27, h28, h29, h30⟩ := says
    split at e
    · next hv =>
      have hur : UriSays g t.object t.object.id := ⟨hv, rfl⟩
      refine put_package ht hn hf (told.snoc (by simp [hp]) (by simp [hp]) (by simp [hp])) ?_ ?_ e ?_
      · intro _; rfl
      · intro _; rfl
      · constructor <;> first | exact Only.snoc h1 (by rw [hp]; simp [packageProps]) | field_step hp
    · exact (err_inv e).elim
  case licenseInfoFromFiles =>
    obtain ⟨h1, h2, h3, h4, h5, h6, h7, h8, h9, h10, h11, h12, h13, h14, h15, h16, h17, h18, h19, h20, h21, h22, h23, h24, h25, h26, h27, h28, h29, h30⟩ := says
    have hno := (licenseName_iff t.object _).2 rfl
    refine put_package ht hn hf (told.snoc (by simp [hp]) (by simp [hp]) (by simp [hp])) ?_ ?_ e ?_
    · intro _; rfl
    · intro _; rfl
    · constructor <;> first | exact Only.snoc h1 (by rw [hp]; simp [packageProps]) | field_step hp
  -- values
  case checksum | downloadLocation | externalRef =>
    obtain ⟨h1, h2, h3, h4, h5, h6, h7, h8, h9, h10, h11, h12, h13, h14, h15, h16, h17, h18, h19, h20, h21, h22, h23, h24, h25, h26, h27, h28, h29, h30⟩ := says
    obtain ⟨y, e1, e⟩ := bind_lift_inv e
    first | rw [← location_iff] at e1 | rw [elementChecksum_iff] at e1 | rw [externalRef_iff] at e1
    refine put_package ht hn hf (told.snoc (by simp [hp]) (by simp [hp]) (by simp [hp])) ?_ ?_ e ?_
    · intro _; rfl
    · intro _; rfl
    · constructor <;> first | exact Only.snoc h1 (by rw [hp]; simp [packageProps]) | field_step hp
  case filesAnalyzed =>
    obtain ⟨h1, h2, h3, h4, h5, h6, h7, h8, h9, h10, h11, h12, h13, h14, h15, h16, h17, h18, h19, h20, h21, h22, h23, h24, h25, h26, h27, h28, h29, h30⟩ := says
    obtain ⟨y, e1, e⟩ := bind_lift_inv e
    rw [← bool_iff] at e1
    refine put_package ht hn hf (told.snoc (by simp [hp]) (by simp [hp]) (by simp [hp])) ?_ ?_ e ?_
    · intro _; rfl
    · intro _; rfl
    · constructor <;> first | exact Only.snoc h1 (by rw [hp]; simp [packageProps]) | field_step hp
  case supplier | originator =>
    obtain ⟨h1, h2, h3, h4, h5, h6, h7, h8, h9, h10, h11, h12, h13, h14, h15, h16, h17, h18, h19, h20, h21, h22, h23, h24, h25, h26, h27, h28, h29, h30⟩ := says
    obtain ⟨y, e1, e⟩ := bind_lift_inv e
    first | rw [← supplier_iff] at e1 | rw [← originator_iff] at e1
    refine put_package ht hn hf (told.snoc (by simp [hp]) (by simp [hp]) (by simp [hp])) ?_ ?_ e ?_
    · intro _; rfl
    · intro _; rfl
    · constructor <;> first
        | exact Only.snoc h1 (by rw [hp]; simp [packageProps])
        | field_step hp
        | (rw [vals_snoc_same hp]; exact LastOf.snoc (by assumption) ⟨_, e1, rfl⟩)
  case packageVerificationCode =>
    obtain ⟨h1, h2, h3, h4, h5, h6, h7, h8, h9, h10, h11, h12, h13, h14, h15, h16, h17, h18, h19, h20, h21, h22, h23, h24, h25, h26, h27, h28, h29, h30⟩ := says
    obtain ⟨q, s1, e1, e2⟩ := bind_inv e
    obtain ⟨hq, e3⟩ := packageAt_inv e1
    rw [e3] at e2
    rw [hf] at hq
    injection hq with hq
    obtain ⟨y, e4, e5⟩ := bind_lift_inv e2
    rw [← hq] at e4
    have hcode := packageCode_snoc h11 e4
    refine put_package ht hn hf (told.snoc (by simp [hp]) (by simp [hp]) (by simp [hp])) ?_ ?_ e5 ?_
    · intro _; rfl
    · intro _; rfl
    · constructor <;> first
        | exact Only.snoc h1 (by rw [hp]; simp [packageProps])
        | field_step hp
        | (rw [vals_snoc_same hp]; exact hcode)
  -- licenses
  case licenseConcluded | licenseDeclared =>
    obtain ⟨y, s1, e1, e⟩ := bind_inv e
    obtain ⟨hs1, hcalm, hl⟩ := hn.sound.license (used_of hm (by simp [hp])) e1
    obtain ⟨hf1, says1, told1⟩ := at_ hcalm
    obtain ⟨h1, h2, h3, h4, h5, h6, h7, h8, h9, h10, h11, h12, h13, h14, h15, h16, h17, h18, h19, h20, h21, h22, h23, h24, h25, h26, h27, h28, h29, h30⟩ := says1
    refine put_package ht (hn.move hs1 hcalm) hf1 (told1.snoc (by simp [hp]) (by simp [hp]) (by simp [hp])) ?_ ?_ e ?_
    · intro _; rfl
    · intro _; rfl
    · constructor <;> first | exact Only.snoc h1 (by rw [hp]; simp [packageProps]) | field_step hp
  -- other elements
  case annotation =>
    obtain ⟨hs1, hcalm, ha⟩ := hn.sound.annotation (.package hl') hm hp e
    obtain ⟨hf1, says1, told1⟩ := at_ hcalm
    obtain ⟨h1, h2, h3, h4, h5, h6, h7, h8, h9, h10, h11, h12, h13, h14, h15, h16, h17, h18, h19, h20, h21, h22, h23, h24, h25, h26, h27, h28, h29, h30⟩ := says1
    exact ⟨hn.move hs1 hcalm, f, hf1, by constructor <;> first | exact Only.snoc h1 (by rw [hp]; simp [packageProps]) | field_step hp,
      told1.snoc (fun _ => ha) (by simp [hp]) (by simp [hp])⟩
  case relationship =>
    obtain ⟨hs1, hcalm, ha⟩ := hc.relationship _ _ _ _ (.ofPackage hl' hm hp) hn.sound e
    obtain ⟨hf1, says1, told1⟩ := at_ hcalm
    obtain ⟨h1, h2, h3, h4, h5, h6, h7, h8, h9, h10, h11, h12, h13, h14, h15, h16, h17, h18, h19, h20, h21, h22, h23, h24, h25, h26, h27, h28, h29, h30⟩ := says1
    exact ⟨hn.move hs1 hcalm, f, hf1, by constructor <;> first | exact Only.snoc h1 (by rw [hp]; simp [packageProps]) | field_step hp,
      told1.snoc (by simp [hp]) (fun _ => ⟨used_of hm (by simp [hp]), ha⟩) (by simp [hp])⟩
  case hasFile =>
    obtain ⟨j, s1, e1, e2⟩ := bind_inv e
    obtain ⟨d, s2, e3, e4⟩ := bind_inv e2
    obtain ⟨_, s3, e5, e6⟩ := bind_inv e4
    obtain ⟨hs1, hcalm, hj⟩ := hc.file _ _ _ _ (.contained hl' hm hp) hn.sound e1
    obtain ⟨hd, e7⟩ := fileAt_inv e3
    subst e7
    have e5 := modify_inv e5
    subst e5
    have e6 := modify_inv e6
    subst e6
    obtain ⟨hf1, says1, told1⟩ := at_ hcalm
    have hn1 := hn.move hs1 hcalm
    have hpk : (s2.pkgHeap.modify k fun p => { p with files := p.files ++ [j] })[k]? = some { f with files := f.files ++ [j] } := by
      simp [hf1]
    have hpo : ∀ i, i ≠ k → (s2.pkgHeap.modify k fun p => { p with files := p.files ++ [j] })[i]? = s2.pkgHeap[i]? := fun i hi => by
      simp [Ne.symm hi]
    have hgr : Grows g s2 { s2 with pkgHeap := s2.pkgHeap.modify k fun p => { p with files := p.files ++ [j] }, assoc := d.spdxId :: s2.assoc } :=
      ⟨fun _ _ h => h, fun _ _ h => .inl h, List.prefix_refl _, List.prefix_refl _⟩
    refine ⟨⟨⟨hkeep.1, ?_⟩, ?_, hn1.now, hn1.before⟩, _, hpk, ?_, (told1.snoc (by simp [hp]) (by simp [hp]) (by simp [hp])).grow hgr⟩
    · refine hs1.content.step hgr (fun y i e => .inl ⟨e, rfl⟩) (fun y i ey => .inl ⟨ey, hpo i ?_⟩) (fun _ h => .inl h) (fun _ h => .inl h) ?_
      · intro hik
        rw [hik] at ey
        have := package_inj ht hs1.inv (x := y) (y := x) ⟨_, ey⟩ ⟨_, hn1.now⟩
        rw [this] at ey
        have ey : mapGet x s2.cache = _ := ey
        rw [hn1.now] at ey; simp at ey
      · -- the files of packages
        intro id hid
        have pget : ∀ (i : Nat) (l : List Nat), s2.view.pfs[i]? = some l → ∃ l' : List Nat, ((s2.pkgHeap.modify k fun p => { p with files := p.files ++ [j] }).map (·.files))[i]? = some l' ∧
            ∀ m ∈ l, m ∈ l' := by
          intro i l hl
          simp only [RState.view, List.getElem?_map] at hl ⊢
          by_cases hik : i = k
          · subst hik
            rw [hf1] at hl
            rw [hpk]
            simp only [Option.map_some, Option.some.injEq] at hl
            subst hl
            exact ⟨_, rfl, fun m hm => by simp [hm]⟩
          · rw [hpo i hik]
            exact ⟨l, hl, fun _ h => h⟩
        rcases List.mem_cons.1 hid with rfl | hid
        · refine ⟨x, k, f.files ++ [j], j, ⟨_, hn1.now⟩, ?_, by simp, ?_⟩
          · simp only [RState.view, List.getElem?_map, hpk, Option.map_some]
          · simp only [RState.view, List.getElem?_map, hd, Option.map_some]
        · obtain ⟨y, i, l, m, h1, h2, h3, h4⟩ := hs1.content.assoc id hid
          obtain ⟨l', h5, h6⟩ := pget i l h2
          exact ⟨y, i, l', m, h1, h5, h6 m h3, h4⟩
    · have hfr := hn1.frame
      exact
        { cached := hfr.cached, grey := hfr.grey, newGrey := hfr.newGrey, files := hfr.files
          packages := fun y i ey => by
            rw [← hfr.packages y i ey]
            refine hpo i fun hik => ?_
            rw [hik] at ey
            have := package_inj ht hs1.inv (x := y) (y := x) (hfr.cached _ _ ⟨_, ey⟩) ⟨_, hn1.now⟩
            rw [this] at ey
            have hb := hn1.before
            rw [grey_iff.2 ⟨_, ey⟩] at hb; simp at hb
          doc := hfr.doc, relationships := hfr.relationships, annotations := hfr.annotations }
    · have hj' : ({ s2 with pkgHeap := s2.pkgHeap.modify k fun p => { p with files := p.files ++ [j] }, assoc := d.spdxId :: s2.assoc } : RState).view.cached
        t.object.id (.file j) := hj
      obtain ⟨h1, h2, h3, h4, h5, h6, h7, h8, h9, h10, h11, h12, h13, h14, h15, h16, h17, h18, h19, h20, h21, h22, h23, h24, h25, h26, h27, h28, h29, h30⟩ := says1
      constructor <;> first
        | exact Only.snoc h1 (by rw [hp]; simp [packageProps])
        | field_step hp
        | (rw [vals_snoc_same hp]; exact EachOf.snoc h29 hj)

end Verif
