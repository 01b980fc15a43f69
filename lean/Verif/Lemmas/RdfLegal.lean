import Verif.Spec.RdfLegal
import Verif.Lemmas.RdfRead
import Verif.Props.C40_RdfLicense

/-!
# Reading a legal graph ends without an error
-/

namespace Verif
open RdfM Spec Spec.Rdf

/-- No license is being read. -/
def NoLicense (g : Graph) (s : RState) : Prop := ∀ x, UsedAsLicense g x → s.grey x = false

/-- Started while no license is being read, the method does not end in an error, and its result has `Q`. -/
def Fine {α : Type} (g : Graph) (m : RdfM α) (Q : α → Prop) : Prop :=
  ∀ s, NoLicense g s → match m s with
    | .ok (a, s') => NoLicense g s' ∧ Q a
    | .err => False
    | .panic => True
    | .cut => True

namespace Fine
variable {α β : Type} {g : Graph}

theorem pure {a : α} {Q : α → Prop} (h : Q a) : Fine g (Pure.pure a) Q := fun _ hs => ⟨hs, h⟩

theorem panic {Q : α → Prop} : Fine g (RdfM.panic : RdfM α) Q := fun _ _ => True.intro

theorem cut {Q : α → Prop} : Fine g (RdfM.cut : RdfM α) Q := fun _ _ => True.intro

theorem bind {m : RdfM α} {f : α → RdfM β} {R : α → Prop} {Q : β → Prop} (hm : Fine g m R) (hf : ∀ a, R a → Fine g (f a) Q) :
    Fine g (m >>= f) Q := by
  intro s hs
  have h := hm s hs
  change match RdfM.bind m f s with | .ok (a, s') => _ ∧ Q a | .err => False | .panic => True | .cut => True
  unfold RdfM.bind
  cases e : m s with
  | ok x => obtain ⟨a, s'⟩ := x; rw [e] at h; exact hf a h.2 s' h.1
  | err => rw [e] at h; exact h
  | panic => trivial
  | cut => trivial

theorem post {m : RdfM α} {Q Q' : α → Prop} (h : Fine g m Q) (hq : ∀ a, Q a → Q' a) : Fine g m Q' := by
  intro s hs
  have := h s hs
  cases e : m s with
  | ok x => obtain ⟨a, s'⟩ := x; rw [e] at this; exact ⟨this.1, hq a this.2⟩
  | err => rw [e] at this; exact this
  | panic => trivial
  | cut => trivial

theorem lift {r : Res α} {Q : α → Prop} (he : r ≠ .err) (h : ∀ a, r = .ok a → Q a) : Fine g (RdfM.lift r) Q := by
  cases r with
  | ok a => exact fun s hs => ⟨hs, h a rfl⟩
  | err => exact absurd rfl he
  | panic => exact fun _ _ => True.intro

/-- A value that was read. -/
theorem said {r : Res α} {a : α} (h : r = .ok a) : Fine g (RdfM.lift r) fun _ => True :=
  lift (by rw [h]; simp) fun _ _ => trivial

theorem modify {f : RState → RState} (h : ∀ s, (f s).cache = s.cache) : Fine g (RdfM.modify f) fun _ => True := by
  intro s hs
  refine ⟨fun x hx => ?_, trivial⟩
  have := hs x hx
  simp only [RState.grey, h] at this ⊢
  exact this

theorem get : Fine g RdfM.get fun _ => True := fun _ hs => ⟨hs, trivial⟩

theorem modFile {i : Nat} {f : FileV → FileV} : Fine g (modFileAt i f) fun _ => True := modify fun _ => rfl
theorem modPkg {i : Nat} {f : Package Nat → Package Nat} : Fine g (modPackage i f) fun _ => True := modify fun _ => rfl
theorem modDoc {f : HDoc → HDoc} : Fine g (modDocument f) fun _ => True := modify fun _ => rfl

theorem newFile : Fine g allocFile fun _ => True := fun _ hs => ⟨hs, trivial⟩
theorem newPackage : Fine g allocPackage fun _ => True := fun _ hs => ⟨hs, trivial⟩

theorem atFile {i : Nat} : Fine g (fileAt i) fun _ => True := by
  intro s hs
  unfold fileAt
  cases s.fileHeap[i]? with
  | some f => exact ⟨hs, trivial⟩
  | none => trivial

theorem atPackage {i : Nat} : Fine g (packageAt i) fun _ => True := by
  intro s hs
  unfold packageAt
  cases s.pkgHeap[i]? with
  | some f => exact ⟨hs, trivial⟩
  | none => trivial

theorem each {body : Triple → RdfM Unit} : ∀ {ts : List Triple}, (∀ t ∈ ts, Fine g (body t) fun _ => True) →
    Fine g (RdfM.each body ts) fun _ => True
  | [], _ => pure trivial
  | t :: ts, h => (h t (by simp)).bind fun _ _ => each fun u hu => h u (by simp [hu])

theorem fold {body : α → Triple → RdfM α} {I : List Triple → α → Prop} : ∀ {ts us : List Triple} {a : α},
    (∀ us t a, t ∈ ts → I us a → Fine g (body a t) (I (us ++ [t]))) → I us a → Fine g (RdfM.fold body a ts) (I (us ++ ts))
  | [], us, a, _, h => pure (by simpa using h)
  | t :: ts, us, a, hb, h => (hb us t a (by simp) h).bind fun b hb' => by
      have := fold (ts := ts) (us := us ++ [t]) (a := b) (fun us u a hu => hb us u a (by simp [hu])) hb'
      simpa using this

theorem entered {id : Str} {o : CObj} (hid : ¬ UsedAsLicense g id) : Fine g (enter id o) fun _ => True := by
  intro s hs
  have key : ∀ c : NodeState, NoLicense g { s with cache := mapInsert id c s.cache } := by
    intro c x hx
    have := hs x hx
    have hne : x ≠ id := fun e => hid (e ▸ hx)
    simp only [RState.grey, mapGet_inserted, hne, if_false] at this ⊢
    exact this
  rcases enter_eq id o s with ⟨o', hc, e⟩ | ⟨hc, e⟩ | ⟨o', hc, e⟩ <;> rw [e]
  · exact ⟨hs, trivial⟩
  · exact ⟨key _, trivial⟩
  · exact ⟨key _, trivial⟩

theorem left {id : Str} : Fine g (leave id) fun _ => True := by
  intro s hs
  refine ⟨fun x hx => ?_, trivial⟩
  cases e : mapGet id s.cache with
  | none => simp only [RState.grey, e]; exact hs x hx
  | some c =>
    have := hs x hx
    simp only [RState.grey, e, mapGet_inserted] at this ⊢
    by_cases h : x = id
    · simp [h]
    · simp only [h, if_false]; exact this

theorem ite {c : Prop} [Decidable c] {m m' : RdfM α} {Q : α → Prop} (h : c → Fine g m Q) (h' : ¬c → Fine g m' Q) :
    Fine g (if c then m else m') Q := by
  split
  · exact h ‹_›
  · exact h' ‹_›

end Fine

/-! ## Licenses -/

mutual
theorem describes_avoiding {g : Graph} {G G' : Str → Bool} {n : RNode} {l : Lic} (h : Describes g G n l) (hn : UsedAsLicense g n.id)
    (hG : ∀ x, UsedAsLicense g x → G x = false → G' x = false) : Describes g G' n l := by
  have step : ∀ x, UsedAsLicense g x → opening G n.id x = false → opening G' n.id x = false := fun x hx e => by
    simp only [opening, Bool.or_eq_false_iff] at e ⊢; exact ⟨e.1, hG _ hx e.2⟩
  have mem : ∀ m ∈ membersOf g n, UsedAsLicense g m.id := fun m hm => by
    simp only [membersOf, List.mem_map, List.mem_filter, Bool.and_eq_true, decide_eq_true_eq] at hm
    obtain ⟨t, ⟨h1, _, h2⟩, rfl⟩ := hm
    exact ⟨t, h1, by simp [h2], rfl⟩
  cases h with
  | named h1 h2 => exact .named (hG _ hn h1) h2
  | all h1 h2 h3 => exact .all (hG _ hn h1) h2 (describeAll_avoiding h3 mem step)
  | any h1 h2 h3 => exact .any (hG _ hn h1) h2 (describeAll_avoiding h3 mem step)
theorem describeAll_avoiding {g : Graph} {G G' : Str → Bool} {ns : List RNode} {ls : List Lic} (h : DescribeAll g G ns ls)
    (hn : ∀ n ∈ ns, UsedAsLicense g n.id) (hG : ∀ x, UsedAsLicense g x → G x = false → G' x = false) : DescribeAll g G' ns ls := by
  cases h with
  | nil => exact .nil
  | cons h1 h2 => exact .cons (describes_avoiding h1 (hn _ (by simp)) hG) (describeAll_avoiding h2 (fun n h => hn n (by simp [h])) hG)
end

theorem fine_licenseText {g : Graph} {n : RNode} {x : Str} (hu : UsedAsLicense g n.id) (h : LicenseSays g n x) :
    Fine g (licenseText g n) fun _ => True := by
  intro s hs
  obtain ⟨l, hl, _⟩ := h
  rcases C40_license g n s with ⟨l', s', e, _, hg⟩ | ⟨_, hno⟩
  · rw [e]; exact ⟨fun x hx => by rw [hg]; exact hs x hx, trivial⟩
  · exact (hno l (describes_avoiding hl hu fun x hx _ => hs x hx)).elim

/-! ## What the document leads to -/

/-- The methods read what the document leads to without an error. -/
structure FineCalls (g : Graph) (c : RCalls) : Prop where
  file : ∀ n, Leads g (.file n) → Fine g (c.file n) fun _ => True
  package : ∀ n, Leads g (.package n) → Fine g (c.package n) fun _ => True
  relationship : ∀ t, Leads g (.relationship t) → Fine g (c.relationship t) fun _ => True

theorem fine_addAnnotation {v : Version} {g : Graph} (hl : Legal v g) {n : RNode} (hn : Annotatable g n) {t : Triple} (ht : t ∈ g.of n)
    (hp : t.pred = .annotation) : Fine g (addAnnotation g t.object) fun _ => True := by
  obtain ⟨a, ha⟩ := hl.annotations n hn t ht hp
  exact (Fine.said ((annotation_iff _ _ _).2 ha)).bind fun _ _ => .modDoc

theorem fine_fileStep {v : Version} {g : Graph} (hl : Legal v g) {c : RCalls} (hc : FineCalls g c) {n : RNode} (hn : Leads g (.file n))
    {t : Triple} (ht : t ∈ g.of n) (i : Nat) : Fine g (fileStep v g c i t) fun _ => True := by
  obtain ⟨f, _, hf⟩ := hl.files n hn
  have ho := hf.only t ht
  have lic : t.pred ∈ [Pred.licenseConcluded, .licenseInfoInFile, .licenseDeclared, .dataLicense, .licenseInfoInSnippet, .member] →
      UsedAsLicense g t.object.id := used_of ht
  unfold fileStep
  cases hp : t.pred <;> first
    | exact .pure trivial
    | exact .modFile
    | (rw [hp] at ho; simp at ho; done)
    | skip
  case fileType =>
    obtain ⟨y, hy⟩ := hf.types.legal (mem_vals' ht hp)
    exact (Fine.said ((fileType_iff _ _).1 hy)).bind fun _ _ => .modFile
  case checksum =>
    obtain ⟨y, hy⟩ := hf.checksums.legal (mem_vals' ht hp)
    exact (Fine.said ((elementChecksum_iff _ _ _ _).2 hy)).bind fun _ _ => .modFile
  case licenseConcluded =>
    obtain ⟨y, hy⟩ := hf.licenseConcluded.legal (mem_vals' ht hp)
    exact (fine_licenseText (lic (by simp [hp])) hy).bind fun _ _ => .modFile
  case licenseInfoInFile =>
    obtain ⟨y, hy⟩ := hf.licenseInfo.legal (mem_vals' ht hp)
    exact (fine_licenseText (lic (by simp [hp])) hy).bind fun _ _ => .modFile
  case artifactOf =>
    obtain ⟨y, hy⟩ := hf.artifacts.legal (mem_vals' ht hp)
    exact (Fine.said ((artifact_iff _ _ _).2 hy)).bind fun _ _ => .modFile
  case fileDependency => exact (hc.file _ (.dependency hn ht hp)).bind fun _ _ => Fine.atFile.bind fun _ _ => .modFile
  case annotation => exact fine_addAnnotation hl (.file hn) ht hp
  case relationship => exact hc.relationship _ (.ofFile hn ht hp)

/-- Whether a verification code can be read does not depend on what was read before. -/
theorem verification_total {ts : List Triple} (h : ∀ t ∈ ts, t.pred ∈ [Pred.type_, .packageVerificationCodeValue,
    .packageVerificationCodeExcludedFile]) (c : VerificationCode) : ∃ c', foldTriples verificationStep c ts = .ok c' := by
  refine fold_total ts c fun t ht a => ?_
  have ho := h t ht
  unfold verificationStep
  cases hp : t.pred <;> first | exact ⟨_, rfl⟩ | (rw [hp] at ho; simp at ho)

theorem code_legal {v : Version} {g : Graph} {vs : List RNode} {x : Option VerificationCode} (h : PackageCodeSays v g vs x) {n : RNode}
    (hn : n ∈ vs) (old : Option VerificationCode) : ∃ c, verificationAt v g old n = .ok c := by
  rcases h with ⟨rfl, _⟩ | ⟨_, y, hy, _⟩
  · simp at hn
  · obtain ⟨c, hc⟩ := verification_total (ts := g.of n) (fun t ht => hy.only t (List.mem_flatMap.2 ⟨n, hn, ht⟩)) (old.getD {})
    have e : verificationAt v g old n = (foldTriples verificationStep (old.getD {}) (g.of n)).bind
      fun c => if v ≠ .v23 ∧ c = {} then .ok none else .ok (some c) := rfl
    rw [e, hc]
    by_cases hx : v ≠ .v23 ∧ c = {}
    · exact ⟨none, if_pos hx⟩
    · exact ⟨some c, if_neg hx⟩

theorem fine_packageStep {v : Version} {g : Graph} (hl : Legal v g) {c : RCalls} (hc : FineCalls g c) {n : RNode} (hn : Leads g (.package n))
    {t : Triple} (ht : t ∈ g.of n) (i : Nat) : Fine g (packageStep v g c i t) fun _ => True := by
  obtain ⟨f, _, hf⟩ := hl.packages n hn
  have ho := hf.only t ht
  have lic : t.pred ∈ [Pred.licenseConcluded, .licenseInfoInFile, .licenseDeclared, .dataLicense, .licenseInfoInSnippet, .member] →
      UsedAsLicense g t.object.id := used_of ht
  unfold packageProps at ho
  unfold packageStep
  cases hp : t.pred <;> first
    | exact .pure trivial
    | exact .modPkg
    | (rw [hp] at ho; simp at ho; done)
    | (rw [hp] at ho; split at ho <;> simp at ho; done)
    | skip
  case supplier =>
    obtain ⟨y, x, hy, _⟩ := hf.supplier.legal (mem_vals' ht hp)
    exact (Fine.said ((supplier_iff _ _).1 hy)).bind fun _ _ => .modPkg
  case originator =>
    obtain ⟨y, x, hy, _⟩ := hf.originator.legal (mem_vals' ht hp)
    exact (Fine.said ((originator_iff _ _).1 hy)).bind fun _ _ => .modPkg
  case downloadLocation =>
    obtain ⟨y, hy⟩ := hf.downloadLocation.legal (mem_vals' ht hp)
    exact (Fine.said ((location_iff _ _ _).1 hy)).bind fun _ _ => .modPkg
  case filesAnalyzed =>
    obtain ⟨y, hy⟩ := hf.filesAnalyzed.legal (mem_vals' ht hp)
    exact (Fine.said ((bool_iff _ _).1 hy)).bind fun _ _ => .modPkg
  case packageVerificationCode =>
    refine Fine.atPackage.bind fun p _ => ?_
    obtain ⟨y, hy⟩ := code_legal hf.verificationCode (mem_vals' ht hp) p.verificationCode
    exact (Fine.said hy).bind fun _ _ => .modPkg
  case checksum =>
    obtain ⟨y, hy⟩ := hf.checksums.legal (mem_vals' ht hp)
    exact (Fine.said ((elementChecksum_iff _ _ _ _).2 hy)).bind fun _ _ => .modPkg
  case homepage =>
    obtain ⟨y, hy⟩ := hf.homePage.legal (mem_vals' ht hp)
    exact .ite (fun _ => .modPkg) fun h => absurd hy.1 h
  case licenseConcluded =>
    obtain ⟨y, hy⟩ := hf.licenseConcluded.legal (mem_vals' ht hp)
    exact (fine_licenseText (lic (by simp [hp])) hy).bind fun _ _ => .modPkg
  case licenseDeclared =>
    obtain ⟨y, hy⟩ := hf.licenseDeclared.legal (mem_vals' ht hp)
    exact (fine_licenseText (lic (by simp [hp])) hy).bind fun _ _ => .modPkg
  case externalRef =>
    obtain ⟨y, hy⟩ := hf.externalRefs.legal (mem_vals' ht hp)
    exact (Fine.said ((externalRef_iff _ _ _).2 hy)).bind fun _ _ => .modPkg
  case hasFile =>
    exact (hc.file _ (.contained hn ht hp)).bind fun _ _ => Fine.atFile.bind fun _ _ => Fine.modPkg.bind fun _ _ => .modify fun _ => rfl
  case relationship => exact hc.relationship _ (.ofPackage hn ht hp)
  case annotation => exact fine_addAnnotation hl (.package hn) ht hp
  all_goals
    refine .ite (fun _ => .modPkg) fun hv => ?_
    rw [hp, if_neg hv] at ho
    simp at ho

theorem fine_relationshipStep {v : Version} {g : Graph} (hl : Legal v g) {c : RCalls} (hc : FineCalls g c) {u : Triple}
    (hu : Leads g (.relationship u)) {t : Triple} (ht : t ∈ g.of u.object) (r : Relationship) :
    Fine g (relationshipStep g c r t) fun _ => True := by
  obtain ⟨r', hr⟩ := hl.relationships u hu
  have ho := hr.only t ht
  unfold relationshipStep
  cases hp : t.pred <;> first
    | exact .pure trivial
    | (rw [hp] at ho; simp at ho; done)
    | skip
  case relationshipType =>
    obtain ⟨y, hy⟩ := hr.type.legal (mem_vals' ht hp)
    exact (Fine.said ((relationshipType_iff _ _).1 hy)).bind fun _ _ => .pure trivial
  case relatedSpdxElement =>
    obtain ⟨y, x, hx, hy⟩ := hr.refB.legal (mem_vals' ht hp)
    refine (Fine.said ((reference_iff _ _).1 hx)).bind fun b _ => ?_
    refine .ite (fun _ => .pure trivial) fun hne => ?_
    rcases hy with ⟨he, _⟩ | ⟨tt, htt, hcls⟩
    · exact absurd he hne
    · rw [htt]
      have hm : tt ∈ typeTriples (g.of t.object) t.object.id := by rw [htt]; simp
      obtain ⟨h1, h2⟩ := List.mem_filter.1 hm
      simp only [Bool.and_eq_true, decide_eq_true_eq] at h2
      have hs := (mem_of h1).2
      refine Fine.bind (R := fun _ => True) ?_ fun _ _ => .pure trivial
      unfold relatedElement
      rw [hs]
      rcases hcls with ⟨k, _⟩ | ⟨k, _⟩ | ⟨k, z, hz, hr⟩ <;> rw [k]
      · exact (hc.file _ (.relatedFile hu ht hp h1 h2.2 k)).bind fun _ _ => Fine.atFile.bind fun _ _ => .pure trivial
      · exact (hc.package _ (.relatedPackage hu ht hp h1 h2.2 k)).bind fun _ _ => Fine.atPackage.bind fun _ _ => .pure trivial
      · rw [lastPart_iff] at hz
        subst hz
        exact .said (refReads_iff.1 hr)

theorem fine_calls {v : Version} {g : Graph} (hl : Legal v g) (h1 : OneRole g) (h2 : LicensesApart g) : ∀ n, FineCalls g (calls v g n)
  | 0 => ⟨fun _ _ => .cut, fun _ _ => .cut, fun _ _ => .cut⟩
  | n + 1 => by
    have ih := fine_calls hl h1 h2 n
    refine ⟨fun m hm => ?_, fun m hm => ?_, fun t ht => ?_⟩
    · obtain ⟨f, hid, _⟩ := hl.files m hm
      refine Fine.newFile.bind fun i _ => (Fine.entered (h1.file _ (leads_used hm)).2.1).bind fun o _ => ?_
      split
      · exact .pure trivial
      · exact .panic
      · refine Fine.bind (R := fun _ => True) ?_ fun _ _ => Fine.left.bind fun _ _ => .pure trivial
        exact (Fine.said hid).bind fun _ _ => Fine.modFile.bind fun _ _ => Fine.get.bind fun _ _ =>
          (Fine.each fun t ht => fine_fileStep hl ih hm ht _).bind fun _ _ => Fine.atFile.bind fun _ _ =>
          Fine.bind (R := fun _ => True) (.modify fun _ => rfl) fun _ _ => .pure trivial
    · obtain ⟨p, hid, _⟩ := hl.packages m hm
      refine Fine.newPackage.bind fun i _ => (Fine.entered (h1.package _ (leads_used hm)).1).bind fun o _ => ?_
      split
      · exact .pure trivial
      · exact .panic
      · refine Fine.bind (R := fun _ => True) ?_ fun _ _ => Fine.left.bind fun _ _ => .pure trivial
        refine (Fine.said hid).bind fun _ _ => Fine.modPkg.bind fun _ _ => Fine.get.bind fun s _ => ?_
        split
        · exact (Fine.each fun t ht => fine_packageStep hl ih hm ht _).bind fun _ _ => .pure trivial
        · exact (Fine.each fun t ht => fine_packageStep hl ih hm ht _).bind fun _ _ => Fine.modDoc.bind fun _ _ => .pure trivial
    · obtain ⟨r, hr⟩ := hl.relationships t ht
      refine (Fine.said ((reference_iff _ _).1 hr.refA)).bind fun _ _ =>
        (Fine.entered fun h => h2 _ h (leads_used ht)).bind fun o _ => ?_
      split
      · exact .pure trivial
      · exact (Fine.fold (I := fun _ _ => True) (us := []) (fun _ u r hu _ => fine_relationshipStep hl ih ht hu r) trivial).bind
          fun _ _ => Fine.modDoc.bind fun _ _ => .left

/-! ## The document -/

theorem fine_documentStep {v : Version} {g : Graph} (hl : Legal v g) {c : RCalls} (hc : FineCalls g c) {n : RNode} (hn : IsDocumentNode g n)
    {d : Doc} (hd : DocumentSays g n (g.of n) d) {t : Triple} (ht : t ∈ g.of n) : Fine g (documentStep g c t) fun _ => True := by
  have ho := hd.only t ht
  unfold documentStep
  cases hp : t.pred <;> first
    | exact .pure trivial
    | exact .modDoc
    | (rw [hp] at ho; simp at ho; done)
    | skip
  case dataLicense =>
    obtain ⟨y, hy⟩ := hd.dataLicense.legal (mem_vals' ht hp)
    exact (fine_licenseText (used_of ht (by simp [hp])) hy).bind fun _ _ => .modDoc
  case externalDocumentRef =>
    obtain ⟨y, hy⟩ := hd.externals.legal (mem_vals' ht hp)
    exact (Fine.said ((externalDocument_iff _ _ _).2 hy)).bind fun _ _ => .modDoc
  case creationInfo =>
    obtain ⟨x, _, hx⟩ := hd.creation
    refine Fine.get.bind fun s _ => ?_
    split
    · exact .panic
    · next ci _ =>
      have hsub : ∀ p, ∀ m ∈ vals (g.of t.object) p, m ∈ vals ((vals (g.of n) .creationInfo).flatMap g.of) p := by
        intro p m hm
        simp only [vals, List.mem_map, List.mem_filter] at hm ⊢
        obtain ⟨a, ⟨h1, h2⟩, h3⟩ := hm
        exact ⟨a, ⟨List.mem_flatMap.2 ⟨t.object, mem_vals' ht hp, h1⟩, h2⟩, h3⟩
      obtain ⟨c', hc'⟩ : ∃ c', foldTriples creationStep ci (g.of t.object) = .ok c' := by
        refine fold_total (g.of t.object) ci fun u hu a => ?_
        have ho := fun u hu => hx.only u (List.mem_flatMap.2 ⟨t.object, mem_vals' ht hp, hu⟩)
        have hv : ∀ m ∈ vals (g.of t.object) .creator, ∃ y, creatorOf m.id = .ok y := fun m hm => by
          obtain ⟨y, hy⟩ := hx.creators.legal (hsub _ _ hm); exact ⟨y, (creator_iff _ _).1 hy⟩
        unfold creationStep
        cases hq : u.pred <;> legal_step hq ho hu hv
      exact (Fine.said hc').bind fun _ _ => .modDoc
  case reviewed =>
    obtain ⟨y, hy⟩ := hd.reviews.legal (mem_vals' ht hp)
    exact (Fine.said ((review_iff _ _ _).2 hy)).bind fun _ _ => .modDoc
  case describesPackage => exact (hc.package _ (.described hn ht hp)).bind fun _ _ => .modDoc
  case hasExtractedLicensingInfo =>
    obtain ⟨y, hy⟩ := hd.licenses.legal (mem_vals' ht hp)
    exact (Fine.said ((otherLicense_iff _ _ _).2 hy)).bind fun _ _ => .modDoc
  case relationship => exact hc.relationship _ (.ofDocument hn ht hp)
  case annotation => exact fine_addAnnotation hl (.document hn) ht hp

theorem fine_documentAt {v : Version} {g : Graph} (hl : Legal v g) {c : RCalls} (hc : FineCalls g c) {n : RNode} (hn : IsDocumentNode g n)
    {d : Doc} (hd : DocumentSays g n (g.of n) d) : Fine g (documentAt g c n) fun _ => True := by
  obtain ⟨a, b, e, ha, _⟩ := hd.names
  refine Fine.bind (R := fun _ => True) ?_ fun _ _ => Fine.modDoc.bind fun _ _ => .each fun t ht => fine_documentStep hl hc hn hd ht
  exact .said (a := (trimSpace a, trimSpace b)) (by unfold extractSubs; rw [cut_single_eq.2 ⟨e, ha⟩])

/-! ## Snippets -/

/-- The offsets and line numbers. -/
def isNumber (t : Triple) : Bool := t.pred = .offset || t.pred = .lineNumber

/-- The kind of a pointer: that of its last number. -/
def kindOf (ts : List Triple) : Option Bool := ((ts.filter isNumber).getLast?).map fun t => decide (t.pred = .lineNumber)

theorem kindOf_snoc (ts : List Triple) (t : Triple) : kindOf (ts ++ [t]) = if isNumber t then some (decide (t.pred = .lineNumber)) else kindOf ts := by
  unfold kindOf
  rw [List.filter_append]
  by_cases h : isNumber t = true
  · rw [if_pos h]; simp [h]
  · rw [if_neg h]; simp [h]

theorem kindOf_says {g : Graph} {n : RNode} {line : Bool} {k : Int} (h : PointerSays g n line k) : kindOf (g.of n) = some line := by
  obtain ⟨ts, t, us, e, h1, h2, _⟩ := h.last
  have hu : us.filter isNumber = [] := List.filter_eq_nil_iff.2 fun u hu => by
    have := h1 u hu
    simp only [List.mem_cons, List.not_mem_nil, or_false, not_or] at this
    simp [isNumber, this]
  have ht : isNumber t = true := by cases line <;> simp [isNumber, h2]
  unfold kindOf
  rw [e, List.filter_append, List.filter_cons, if_pos ht, hu]
  cases line <;> simp [h2]

theorem fine_pointerAt {g : Graph} {c : RCalls} (hc : FineCalls g c) {n : RNode} {line : Bool} {k : Int}
    (h : PointerSays g n line k) (hf : ∀ t ∈ g.of n, t.pred = .reference → ∀ u, Stated g t.object.id u → Leads g (.file t.object)) :
    Fine g (pointerAt g c n) fun r => r.1 = line := by
  have hk := kindOf_says h
  unfold pointerAt
  refine Fine.bind (R := fun a => a.1 = kindOf ([] ++ g.of n)) (Fine.fold (I := fun us (a : Option Bool × Int) => a.1 = kindOf us) (fun us t a ht ha => ?_) rfl) fun a ha => ?_
  · have ho := h.only t ht
    have hn : ∀ {p : Pred}, p ∈ [Pred.offset, .lineNumber] → t.pred = p → ∃ i, atoi t.object.id = some i := by
      intro p hp e
      obtain ⟨i, hi⟩ := h.numbers t ht (by rw [e]; exact hp)
      exact ⟨i, number_iff.1 hi⟩
    rw [kindOf_snoc]
    unfold pointerStep isNumber
    cases hp : t.pred <;> first
      | (rw [hp] at ho; simp at ho; done)
      | skip
    case type_ => exact .pure (by simpa using ha)
    case reference =>
      refine .ite (fun _ => .pure (by simpa using ha)) fun hne => ?_
      obtain ⟨u, hu⟩ := List.exists_mem_of_ne_nil _ hne
      simp only [Graph.about, List.mem_filter, decide_eq_true_eq] at hu
      exact (hc.file _ (hf t ht hp u hu)).bind fun _ _ => .pure (by simpa using ha)
    case offset =>
      obtain ⟨i, hi⟩ := hn (by simp) hp
      simp only [hi]
      exact .pure (by simp)
    case lineNumber =>
      obtain ⟨i, hi⟩ := hn (by simp) hp
      simp only [hi]
      exact .pure (by simp)
  · rw [List.nil_append, hk] at ha
    rw [ha]
    exact .pure rfl

theorem typeTriples_of {g : Graph} {n m : RNode} (h : vals (g.of n) .type_ = [m]) : ∃ t, typeTriples (g.of n) n.id = [t] ∧ t.object = m := by
  have : typeTriples (g.of n) n.id = (g.of n).filter fun t => t.pred = .type_ := by
    unfold typeTriples
    refine List.filter_congr fun t ht => ?_
    simp [(mem_of ht).2]
  unfold vals at h
  rw [← this] at h
  obtain ⟨t, e, h⟩ := List.map_eq_singleton_iff.1 h
  exact ⟨t, e, h⟩

theorem withPred_of {g : Graph} {n m : RNode} {p : Pred} (h : vals (g.of n) p = [m]) :
    ∃ t ∈ g.of n, withPred (g.of n) n.id p = [t] ∧ t.object = m ∧ t.pred = p := by
  have : withPred (g.of n) n.id p = (g.of n).filter fun t => t.pred = p := by
    unfold withPred
    refine List.filter_congr fun t ht => ?_
    simp [(mem_of ht).2]
  unfold vals at h
  obtain ⟨t, e, h⟩ := List.map_eq_singleton_iff.1 h
  have hm : t ∈ (g.of n).filter fun t => t.pred = p := by rw [e]; simp
  simp only [List.mem_filter, decide_eq_true_eq] at hm
  exact ⟨t, hm.1, by rw [this, e], h, hm.2⟩

theorem fine_rangeAt {g : Graph} {c : RCalls} (hc : FineCalls g c) {n : RNode} (hn : IsSnippetNode g n) {t : Triple}
    (ht : t ∈ g.of n) (hp : t.pred = .range) {f' : Str} {r : SnippetRange} (h : RangeSays g f' t.object r) (f : Str) :
    Fine g (rangeAt g c f t.object) fun _ => True := by
  obtain ⟨hl, x, a, b, line, i, j, h1, h2, h3, h4, h5, _⟩ := h
  obtain ⟨tx, e1, _⟩ := typeTriples_of h1
  obtain ⟨ta, ma, e2, ra, pa⟩ := withPred_of h2
  obtain ⟨tb, mb, e3, rb, pb⟩ := withPred_of h3
  unfold rangeAt
  simp only [hl, e1, e2, e3, ne_eq, not_true_eq_false, if_false]
  subst ra rb
  refine (fine_pointerAt hc h4 fun u hu hup w hw => .rangeFile hn ht hp ma (.inl pa) hu hup hw).bind fun x hx => ?_
  refine (fine_pointerAt hc h5 fun u hu hup w hw => .rangeFile hn ht hp mb (.inr pb) hu hup hw).bind fun y hy => ?_
  exact .ite (fun _ => .pure trivial) fun hne => absurd (hx.trans hy.symm) hne

theorem snippetFile_iff (v : Version) (n : RNode) (y : Str) : SnippetFileSays v n y ↔ snippetFileOf v n.id = .ok y := by
  refine ⟨fun h => ?_, snippetFile_of⟩
  unfold snippetFileOf
  rcases h with ⟨z, r, hz, hr, rfl⟩ | ⟨hv, rfl, hno⟩
  · rw [lastPart_iff] at hz
    subst hz
    rw [refReads_iff.1 hr]
  · cases e : extractDocElementID (lastPart n.id) with
    | ok r => exact (hno ⟨_, r, (lastPart_iff _ _).2 rfl, refReads_iff.2 e⟩).elim
    | err => simp [hv]
    | panic => exact absurd e (extractDocElementID_ne_panic _)

theorem fine_snippetStep {v : Version} {g : Graph} {c : RCalls} (hc : FineCalls g c) {n : RNode} (hn : IsSnippetNode g n)
    {y : Snippet} (hy : SnippetSays v g (g.of n) y) {t : Triple} (ht : t ∈ g.of n) (x : Snippet) :
    Fine g (snippetStep v g c x t) fun _ => True := by
  have ho := hy.only t ht
  unfold snippetStep
  cases hp : t.pred <;> first
    | exact .pure trivial
    | (rw [hp] at ho; simp at ho; done)
    | skip
  case snippetFromFile =>
    obtain ⟨z, hz⟩ := hy.fromFile.legal (mem_vals' ht hp)
    exact (hc.file _ (.snippetFile hn ht hp)).bind fun _ _ => (Fine.said ((snippetFile_iff _ _ _).1 hz)).bind fun _ _ => .pure trivial
  case range =>
    obtain ⟨f, r, hr⟩ := hy.ranges.1 _ (mem_vals' ht hp)
    exact (fine_rangeAt hc hn ht hp hr _).bind fun _ _ => .pure trivial
  case licenseInfoInSnippet =>
    obtain ⟨z, hz⟩ := hy.licenseInfo.legal (mem_vals' ht hp)
    exact (fine_licenseText (used_of ht (by simp [hp])) hz).bind fun _ _ => .pure trivial
  case licenseConcluded =>
    obtain ⟨z, hz⟩ := hy.licenseConcluded.legal (mem_vals' ht hp)
    exact (fine_licenseText (used_of ht (by simp [hp])) hz).bind fun _ _ => .pure trivial


theorem no_grey {s : RState} (h : s.grey = fun _ => false) (g : Graph) : NoLicense g s := fun _ _ => by rw [h]

theorem Fine.not_err {α : Type} {g : Graph} {m : RdfM α} {Q : α → Prop} (h : Fine g m Q) {s : RState} (hs : NoLicense g s) : m s ≠ .err := by
  intro e
  have := h s hs
  rw [e] at this
  exact this

theorem bind_err_inv {α β : Type} {m : RdfM α} {f : α → RdfM β} {s : RState} (h : (m >>= f) s = .err) :
    m s = .err ∨ ∃ a s1, m s = .ok (a, s1) ∧ f a s1 = .err := by
  change RdfM.bind m f s = _ at h
  unfold RdfM.bind at h
  cases e : m s with
  | ok x => obtain ⟨a, s1⟩ := x; rw [e] at h; exact .inr ⟨a, s1, rfl, h⟩
  | err => exact .inl rfl
  | panic => rw [e] at h; simp at h
  | cut => rw [e] at h; simp at h

theorem Calm.quiet {s s' : RState} (h : Calm s s') (hs : s.grey = fun _ => false) : s'.grey = fun _ => false := by
  funext x
  cases e : s'.grey x with
  | false => rfl
  | true =>
    rcases h.newGrey x e with e | e
    · rw [hs] at e; simp at e
    · exact e.elim

/-- The files that a snippet names were read. -/
theorem vals_source {ts : List Triple} {p : Pred} {m : RNode} (h : m ∈ vals ts p) : ∃ t ∈ ts, t.pred = p ∧ t.object = m := by
  obtain ⟨t, ht, rfl⟩ := List.mem_map.1 h
  have := List.mem_filter.1 ht
  exact ⟨t, this.1, of_decide_eq_true this.2, rfl⟩

theorem mapGet_of_key {α : Type} {k : Str} {m : List (Str × α)} (h : k ∈ m.map (·.1)) : mapGet k m ≠ none := by
  induction m with
  | nil => simp at h
  | cons p m ih =>
    obtain ⟨a, b⟩ := p
    simp only [mapGet]
    split
    · simp
    · next hne =>
      refine ih ?_
      simp only [List.map_cons, List.mem_cons] at h
      rcases h with h | h
      · exact absurd h.symm hne
      · exact h

theorem addSnippet_fine {v : Version} {g : Graph} (hl : Legal v g) (ht : Tidy g) {c : RCalls} (hfc : FineCalls g c) (hc : CGood v g c)
    {n : RNode} (hn : IsSnippetNode g n) {s : RState} (hs : Sound v g s) (hq : s.grey = fun _ => false) : addSnippet v g c n s ≠ .err := by
  obtain ⟨y, hid, hy, m, hm, hmf⟩ := hl.snippets n hn
  intro ea
  unfold addSnippet at ea
  rcases bind_err_inv ea with e | ⟨id, s0, e0, eb⟩
  · rw [show extractElementID (lastPart n.id) = .ok y.spdxId from hid] at e; simp [lift, pure] at e
  rw [(lift_inv e0).2] at eb
  rcases bind_err_inv eb with e | ⟨x, s1, e1, ec⟩
  · exact (Fine.fold (I := fun _ _ => True) (us := []) (fun _ t x ht _ => fine_snippetStep hfc hn hy ht x) trivial).not_err (no_grey hq g) e
  have hinv := fold_inv (us := []) (I := fun us x s1 => Sound v g s1 ∧ Calm s s1 ∧ SnippetSays v g us x ∧ SnipFiles g s1 us)
    (fun us t x x' s1 s2 hm h e => by
      obtain ⟨h1, h2, h3, h4⟩ := h
      obtain ⟨q1, q2, q3, q4⟩ := content_snippetStep hc hn hm h1 h3 e
      exact ⟨q1, h2.trans q2, q3, files_snippetStep hc hn hm h1 h3 h4 e⟩)
    ⟨hs, .refl _ _, by constructor <;> first | exact Only.nil | exact .nil | exact EachOf.nil | exact ⟨fun _ h => by simp [vals] at h, .inl ⟨rfl, rfl⟩⟩ | rfl,
      by simp, by simp⟩ e1
  rw [List.nil_append] at hinv
  obtain ⟨h1, h2, h3, h4⟩ := hinv
  rcases bind_err_inv ec with e | ⟨s2, s3, e2, e⟩
  · simp [RdfM.get] at e
  have e7 : s2 = s1 ∧ s3 = s1 := by injection e2 with e2; injection e2 with a b; exact ⟨a.symm, b.symm⟩
  rw [e7.1, e7.2] at e
  have hsame : x.fromFile = y.fromFile := h3.fromFile.unique (unique_of (snippetFile_iff v)) hy.fromFile
  obtain ⟨um, hum, hump, rfl⟩ := vals_source hm
  obtain ⟨k, b, hb⟩ := h4.1 um hum hump
  have hb : mapGet um.object.id s1.cache = some ⟨.file k, b⟩ := hb
  have hbl : b = false := by
    have := congrFun (h2.quiet hq) um.object.id
    simp only [RState.grey, hb] at this
    exact this
  subst hbl
  have hkey := h1.inv.filesDone ht um.object.id k y.fromFile hb hmf
  have hget := mapGet_of_key hkey
  rw [hsame] at e
  cases hg : mapGet y.fromFile s1.files with
  | none => exact hget hg
  | some i => rw [hg] at e; simp [modFileAt, RdfM.modify] at e

theorem snippetRoots_fine {v : Version} {g : Graph} (hl : Legal v g) (ht : Tidy g) {c : RCalls} (hfc : FineCalls g c) (hg : Good g c)
    (hc : CGood v g c) (hk : KeepSnips c) : ∀ (rs : List RNode) (s : RState), (∀ r ∈ rs, r ∈ g.roots) → Sound v g s →
      s.grey = (fun _ => false) → snippetRoots v g c rs s ≠ .err
  | [], s, _, _, _ => by simp [snippetRoots, pure]
  | r :: rs, s, hr, hs, hq => by
    have hrs : ∀ x ∈ rs, x ∈ g.roots := fun x hx => hr x (by simp [hx])
    obtain ⟨t, htt, hts⟩ := hl.roots r (hr r (by simp))
    have htt : typeTriples g.triples r.id = [t] := htt
    have hmt : t ∈ typeTriples g.triples r.id := by rw [htt]; simp
    simp only [typeTriples, List.mem_filter, Bool.and_eq_true, decide_eq_true_eq] at hmt
    intro e
    unfold snippetRoots at e
    rw [htt] at e
    dsimp only at e
    by_cases hcls : Cls.ofStr t.object.id = .snippet
    · rw [if_pos hcls] at e
      have hsn : IsSnippetNode g t.subject := ⟨⟨r, hr r (by simp), hmt.2.1.symm⟩, t, hmt.1, rfl, hmt.2.2, hcls⟩
      rcases bind_err_inv e with e | ⟨_, s1, e1, e⟩
      · exact addSnippet_fine hl ht hfc hc hsn hs hq e
      · obtain ⟨x, i, s2, q1, q2, q3, q4, q5, q6, q7, q8, q9, q10⟩ := content_addSnippet hg hc hk hsn hs e1
        refine snippetRoots_fine hl ht hfc hg hc hk rs s1 hrs q8 ?_ e
        have := q4.quiet hq
        rw [q7]
        exact this
    · rw [if_neg hcls] at e
      exact snippetRoots_fine hl ht hfc hg hc hk rs s hrs hs hq e

/-! ## The whole -/

theorem findDocNode_fine {v : Version} {g : Graph} (hl : Legal v g) {n : RNode} (hn : ∀ m, IsDocumentNode g m → m = n) :
    ∀ (rs : List RNode) (found : Option RNode), (∀ r ∈ rs, r ∈ g.roots) → (found = none ∨ found = some n) →
      (∃ r, findDocNode g found rs = .ok r) ∧ ((found = some n ∨ (n ∈ rs ∧ IsDocumentNode g n)) → findDocNode g found rs = .ok (some n))
  | [], found, _, hf => ⟨⟨_, rfl⟩, by rintro (rfl | ⟨h, _⟩) <;> simp_all [findDocNode]⟩
  | r :: rs, found, hr, hf => by
    have hrr := hr r (by simp)
    have hrs : ∀ x ∈ rs, x ∈ g.roots := fun x hx => hr x (by simp [hx])
    obtain ⟨t, htt, hts⟩ := hl.roots r hrr
    have hmt : t ∈ g.triples.filter (fun t => t.subject.id = r.id && t.pred = .type_) := by rw [htt]; simp
    simp only [List.mem_filter, Bool.and_eq_true, decide_eq_true_eq] at hmt
    have htr : typeTriples (g.of r) r.id = [t] := by
      have : typeTriples (g.of r) r.id = (g.triples.filter (fun t => t.subject.id = r.id && t.pred = .type_)).filter fun t => t.subject = r := by
        unfold typeTriples Graph.of
        rw [List.filter_filter, List.filter_filter]
        exact List.filter_congr fun t _ => Bool.and_comm _ _
      rw [this, htt]; simp [hts]
    have ih := findDocNode_fine hl hn rs
    unfold findDocNode
    rw [htr]
    dsimp only
    by_cases hcls : Cls.ofStr t.object.id = .spdxDocument
    · have hd : t.subject = n := hn _ ⟨hts ▸ hrr, t, hmt.1, rfl, hmt.2.2, hcls⟩
      rw [if_pos hcls, if_neg (by simp), hd]
      obtain ⟨h1, h2⟩ := ih (some n) hrs (.inr rfl)
      rcases hf with rfl | rfl
      · exact ⟨h1, fun _ => h2 (.inl rfl)⟩
      · dsimp only
        rw [if_neg (by simp)]
        exact ⟨h1, fun _ => h2 (.inl rfl)⟩
    · rw [if_neg hcls]
      obtain ⟨h1, h2⟩ := ih found hrs hf
      refine ⟨h1, fun h => h2 ?_⟩
      rcases h with h | ⟨h, hd⟩
      · exact .inl h
      · rcases List.mem_cons.1 h with e | h
        · exfalso
          obtain ⟨_, u, hu, h3, h4, h5⟩ := hd
          have : u ∈ g.triples.filter (fun t => t.subject.id = r.id && t.pred = .type_) := by
            simp only [List.mem_filter, Bool.and_eq_true, decide_eq_true_eq]
            exact ⟨hu, by rw [h3, e], h4⟩
          rw [htt, List.mem_singleton] at this
          subst this
          exact hcls h5
        · exact .inr ⟨h, hd⟩

theorem load_fine {v : Version} {o : MapOrder} {g : Graph} (ht : Tidy g) (hap : LicensesApart g) (hl : Legal v g) :
    loadGraph v o g ≠ .err := by
  obtain ⟨n, hn, hu, d, hd⟩ := hl.document
  have hfc := fine_calls hl ht.1 hap g.depth
  have hg := Good.ofDepth v g g.depth
  have hc := CGood.ofDepth v ht g.depth
  have hk := snips_depth v g g.depth
  have hdn : docNode g = .ok n := by
    have := (findDocNode_fine hl hu g.roots none (fun _ h => h) (.inl rfl)).2 (.inr ⟨hn.1, hn⟩)
    have e : docNode g = (findDocNode g none g.roots).bind fun x => match x with | some n => .ok n | none => .err := rfl
    rw [e, this]; rfl
  have hls : loadState v g o g.depth {} ≠ .err := by
    intro ea
    unfold loadState at ea
    rcases bind_err_inv ea with e | ⟨n', s0, e0, eb⟩
    · rw [hdn] at e; simp [lift, pure] at e
    obtain ⟨e0, hs0⟩ := lift_inv e0
    rw [hdn] at e0
    injection e0 with e0
    rw [hs0, ← e0] at eb
    rcases bind_err_inv eb with e | ⟨_, s1, e1, ec⟩
    · exact (fine_documentAt hl hfc hn hd).not_err (no_grey (by funext x; rfl) g) e
    have hdr := content_documentAt hg hc hn e1
    have hq := RTrip.ok (free_documentAt (free_depth v g) n) (s := {}) (by funext x; rfl) e1
    rcases bind_err_inv ec with e | ⟨_, s2, e2, e⟩
    · exact snippetRoots_fine hl ht hfc hg hc hk g.roots s1 (fun _ h => h) hdr.sound hq e
    · simp [setUnpackagedFiles, RdfM.modify] at e
  intro e
  unfold loadGraph at e
  cases hls' : loadState v g o g.depth {} with
  | err => exact hls hls'
  | panic => rw [hls'] at e; simp at e
  | cut => rw [hls'] at e; simp at e
  | ok x =>
    rw [hls'] at e
    obtain ⟨u, s⟩ := x
    dsimp only at e
    split at e <;> simp at e

theorem legal_rootsTyped {v : Version} {g : Graph} (hl : Legal v g) : RootsTyped g := by
  intro r hr
  obtain ⟨t, htt, hts⟩ := hl.roots r hr
  have hmt : t ∈ g.triples.filter (fun t => t.subject.id = r.id && t.pred = .type_) := by rw [htt]; simp
  simp only [List.mem_filter, Bool.and_eq_true, decide_eq_true_eq] at hmt
  exact ⟨t, hmt.1, hts, hmt.2.2⟩

end Verif
