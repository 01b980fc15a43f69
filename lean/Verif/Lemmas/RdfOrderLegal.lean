import Verif.Lemmas.RdfOrderDoc

/-!
# Statements in another order describe something as well
-/

namespace Verif
open Spec Spec.Rdf

theorem Spec.Rdf.Reordered.same {g g' : Graph} (h : Reordered g g') : SameStatements g g' :=
  ⟨fun _ => h.triples.mem_iff, fun _ => h.roots.mem_iff, h.uris⟩

theorem Spec.Rdf.Reordered.symm {g g' : Graph} (h : Reordered g g') : Reordered g' g := ⟨h.triples.symm, h.roots.symm, h.uris.symm⟩

theorem Spec.Rdf.Reordered.of {g g' : Graph} (h : Reordered g g') (n : RNode) : (g.of n).Perm (g'.of n) := h.triples.filter _

theorem perm_one {α : Type} {l m : List α} {t : α} (h : l.Perm m) (e : l = [t]) : m = [t] := by
  subst e; exact List.perm_singleton.1 h.symm

theorem perm_two {α : Type} {m : List α} {s t : α} (h : [s, t].Perm m) : m = [s, t] ∨ m = [t, s] := by
  match m, h, h.length_eq with
  | [a, b], h, _ =>
    rcases List.mem_cons.1 (h.mem_iff.1 (by simp : s ∈ [s, t])) with rfl | h1
    · rw [List.singleton_perm.1 ((List.perm_cons s).1 h) |> List.singleton_inj.1 ] ; exact .inl rfl
    · rw [List.mem_singleton] at h1
      subst h1
      rw [List.singleton_perm.1 ((List.perm_cons s).1 (h.trans (.swap _ _ _))) |> List.singleton_inj.1]
      exact .inr rfl

theorem vals_perm {ts us : List Triple} (h : ts.Perm us) (p : Pred) : (vals ts p).Perm (vals us p) := (h.filter _).map _

theorem split_at_last {α : Type} {P : α → Prop} [DecidablePred P] : ∀ {l : List α}, (∃ t ∈ l, P t) →
    ∃ a t b, l = a ++ t :: b ∧ P t ∧ ∀ u ∈ b, ¬ P u
  | [], h => by simp at h
  | x :: l, h => by
    by_cases hl : ∃ t ∈ l, P t
    · obtain ⟨a, t, b, rfl, h1, h2⟩ := split_at_last hl
      exact ⟨x :: a, t, b, rfl, h1, h2⟩
    · refine ⟨[], x, l, rfl, ?_, fun u hu hp => hl ⟨u, hu, hp⟩⟩
      obtain ⟨t, ht, hp⟩ := h
      rcases List.mem_cons.1 ht with rfl | ht
      · exact hp
      · exact absurd ⟨t, ht, hp⟩ hl

theorem pointwise_ex {α β : Type} {R : α → β → Prop} : ∀ {l : List α}, (∀ a ∈ l, ∃ b, R a b) → ∃ m, Pointwise R l m
  | [], _ => ⟨[], .nil⟩
  | a :: l, h => by
    obtain ⟨b, hb⟩ := h a (by simp)
    obtain ⟨m, hm⟩ := pointwise_ex (l := l) fun x hx => h x (by simp [hx])
    exact ⟨b :: m, .cons hb hm⟩

section
variable {α : Type} {R R' : RNode → α → Prop} {ts us : List Triple} {p : Pred}

theorem each_again {xs : List α} (h : EachOf R (vals ts p) xs) (hm : SameMembers ts us) (hR : ∀ n ∈ vals ts p, ∀ a, R n a → ∃ b, R' n b) :
    ∃ ys, EachOf R' (vals us p) ys :=
  pointwise_ex fun n hn => by
    have hn := (vals_same hm p n).2 hn
    obtain ⟨a, _, ha⟩ := Pointwise.image h hn
    exact hR n hn a ha

theorem last_again {z x : α} (h : LastOf R z (vals ts p) x) (hm : SameMembers ts us) (hR : ∀ n ∈ vals ts p, ∀ a, R n a → ∃ b, R' n b) :
    ∃ y, LastOf R' z (vals us p) y := by
  obtain ⟨xs, h, _⟩ := h
  obtain ⟨ys, hy⟩ := each_again h hm hR
  exact ⟨_, ys, hy, rfl⟩

theorem only_again {ps : List Pred} (h : Only ts ps) (hm : SameMembers ts us) : Only us ps := fun t ht => h t ((hm t).2 ht)

theorem eachSame_again {xs : List α} (h : EachOf R (vals ts p) xs) (hm : SameMembers ts us) : ∃ ys, EachOf R (vals us p) ys :=
  each_again h hm fun _ _ a ha => ⟨a, ha⟩

theorem lastSame_again {z x : α} (h : LastOf R z (vals ts p) x) (hm : SameMembers ts us) : ∃ y, LastOf R z (vals us p) y :=
  last_again h hm fun _ _ a ha => ⟨a, ha⟩

end

/-! ## Licenses -/

section
variable {g g' : Graph} (hr : Reordered g g')

include hr in
theorem class_again {id : Str} {c : Cls} (h : ClassOf g id c) : ClassOf g' id c := by
  obtain ⟨t, h, e⟩ := h
  exact ⟨t, perm_one (hr.triples.filter _) h, e⟩

include hr in
theorem common_again {t : Triple} (h : Common g t) : Common g' t := by
  unfold Common at h ⊢; rw [← hr.uris]; exact h

include hr in
theorem plain_again {id : Str} (h : PlainLicense g id) : PlainLicense g' id :=
  fun t ht => common_again hr (h t ((stated_same hr.same _ _).2 ht))

include hr in
theorem exception_again {id : Str} (h : Exception g id) : Exception g' id :=
  fun t ht => by rw [← hr.uris]; exact h t ((stated_same hr.same _ _).2 ht)

include hr in
theorem listed_again {id : Str} (h : ListedInfo g id) : ListedInfo g' id :=
  fun t ht => (h t ((stated_same hr.same _ _).2 ht)).imp_left (common_again hr)

include hr in
theorem named_again {n : RNode} {x : Str} (h : Named g n x) : ∃ y, Named g' n y := by
  have st := fun t => (stated_same hr.same n.id t).2
  cases h with
  | special h1 h2 => exact ⟨_, .special (fun t ht => h1 t (st t ht)) h2⟩
  | simple h1 h2 => exact ⟨_, .simple (class_again hr h1) (plain_again hr h2)⟩
  | extracted h1 h2 => exact ⟨_, .extracted (class_again hr h1) fun t ht => (h2 t (st t ht)).imp_left (common_again hr)⟩
  | listed h1 h2 => exact ⟨_, .listed (class_again hr h1) (listed_again hr h2)⟩
  | license h1 h2 => exact ⟨_, .license (class_again hr h1) (listed_again hr h2)⟩
  | orLater h1 h2 h3 h4 h5 =>
    refine ⟨_, .orLater (class_again hr h1) ?_ h3 h4 (plain_again hr h5)⟩
    have hp := hr.triples.filter (fun t => decide (t.subject.id = n.id))
    rcases h2 with h2 | h2 <;> rw [h2] at hp
    · exact perm_two hp
    · exact (perm_two hp).symm
  | withException h1 h2 h3 h4 =>
    exact ⟨_, .withException (class_again hr h1) (fun t ht => (h2 t (st t ht)).imp_right (Or.imp_right fun q => ⟨q.1, exception_again hr q.2⟩))
      (perm_one (hr.triples.filter _) h3) (plain_again hr h4)⟩
  | exceptionAlone h1 h2 =>
    exact ⟨_, .exceptionAlone (class_again hr h1) fun t ht => (h2 t (st t ht)).imp_right fun q => ⟨q.1, exception_again hr q.2⟩⟩

include hr in
theorem isSet_again {n : RNode} {b : Bool} (h : IsSet g n b) : IsSet g' n b := by
  cases h with
  | all h1 h2 => exact .all (class_again hr h1) fun t ht => h2 t ((hr.same.triples t).2 ht)
  | any h1 => exact .any (class_again hr h1)

omit hr in
theorem describeAll_ex {G : Str → Bool} : ∀ {ns : List RNode}, (∀ n ∈ ns, ∃ l, Describes g G n l) → ∃ ls, DescribeAll g G ns ls
  | [], _ => ⟨[], .nil⟩
  | n :: ns, h => by
    obtain ⟨l, hl⟩ := h n (by simp)
    obtain ⟨ls, hls⟩ := describeAll_ex (ns := ns) fun x hx => h x (by simp [hx])
    exact ⟨l :: ls, .cons hl hls⟩

mutual
theorem describes_again {g g' : Graph} (hr : Reordered g g') : ∀ {G : Str → Bool} {n : RNode} {l : Lic}, Describes g G n l → ∃ l', Describes g' G n l'
  | _, _, _, .named h1 h => by
    obtain ⟨y, hy⟩ := named_again hr h
    exact ⟨_, .named h1 hy⟩
  | _, n, _, .all h1 h ha => by
    have := describeAll_again hr ha
    obtain ⟨ls, hls⟩ := describeAll_ex fun k hk => this k ((members_same hr.same n k).2 hk)
    exact ⟨_, .all h1 (isSet_again hr h) hls⟩
  | _, n, _, .any h1 h ha => by
    have := describeAll_again hr ha
    obtain ⟨ls, hls⟩ := describeAll_ex fun k hk => this k ((members_same hr.same n k).2 hk)
    exact ⟨_, .any h1 (isSet_again hr h) hls⟩
theorem describeAll_again {g g' : Graph} (hr : Reordered g g') : ∀ {G : Str → Bool} {ns : List RNode} {ls : List Lic}, DescribeAll g G ns ls →
    ∀ n ∈ ns, ∃ l', Describes g' G n l'
  | _, _, _, .nil => by simp
  | _, _, _, .cons h h2 => by
    have h1 := describes_again hr h
    have h3 := describeAll_again hr h2
    intro k hk
    rcases List.mem_cons.1 hk with rfl | hk
    · exact h1
    · exact h3 k hk
end

include hr in
theorem license_again {n : RNode} {x : Str} (h : Rdf.LicenseSays g n x) : ∃ y, Rdf.LicenseSays g' n y := by
  obtain ⟨l, h, _⟩ := h
  obtain ⟨l', h'⟩ := describes_again hr h
  exact ⟨_, l', h', rfl⟩

section
variable {v : Version} {ts us : List Triple} (hm : SameMembers ts us)

include hr hm in
theorem lastLicense_again {p : Pred} {x : Str} (h : LastOf (Rdf.LicenseSays g) [] (vals ts p) x) : ∃ y, LastOf (Rdf.LicenseSays g') [] (vals us p) y :=
  last_again h hm fun _ _ _ q => license_again hr q

include hr hm in
theorem eachLicense_again {p : Pred} {xs : List Str} (h : EachOf (Rdf.LicenseSays g) (vals ts p) xs) :
    ∃ ys, EachOf (Rdf.LicenseSays g') (vals us p) ys :=
  each_again h hm fun _ _ _ q => license_again hr q

/-! ## Small elements -/

include hm in
theorem checksum_again {c : Checksum} (h : Rdf.ChecksumSays ts c) : ∃ e, Rdf.ChecksumSays us e := by
  obtain ⟨x, hx⟩ := lastSame_again h.value hm
  obtain ⟨y, hy⟩ := lastSame_again h.algorithm hm
  exact ⟨{ value := x, algorithm := y }, only_again h.only hm, hx, hy⟩

include hr in
theorem elementChecksum_again (ho : SaidOnce g) {n : RNode} {c : Checksum} (h : ElementChecksumSays v g n c) : ∃ e, ElementChecksumSays v g' n e := by
  obtain ⟨e, he⟩ := checksum_again (hr.same.of n) h.1
  have := checksum_same ho (aboutOne_of g n) (hr.same.of n) h.1 he
  exact ⟨e, he, this ▸ h.2⟩

include hm in
theorem annotation_again {c : Annotation} (h : Rdf.AnnotationSays ts c) : ∃ e, Rdf.AnnotationSays us e := by
  obtain ⟨x, hx⟩ := lastSame_again h.annotator hm
  obtain ⟨y, hy⟩ := lastSame_again h.date hm
  obtain ⟨z, hz⟩ := lastSame_again h.comment hm
  obtain ⟨w, hw⟩ := lastSame_again h.type hm
  exact ⟨{ annotator := x, date := y, comment := z, type := w }, only_again h.only hm, hx, hy, hz, hw, rfl⟩

include hm in
theorem review_again {c : Review} (h : Rdf.ReviewSays ts c) : ∃ e, Rdf.ReviewSays us e := by
  obtain ⟨x, hx⟩ := lastSame_again h.comment hm
  obtain ⟨y, hy⟩ := lastSame_again h.date hm
  obtain ⟨z, hz⟩ := lastSame_again h.reviewer hm
  exact ⟨{ comment := x, date := y, reviewerType := z.1, reviewer := z.2 }, only_again h.only hm, hx, hy, hz⟩

include hm in
theorem creation_again {c : CreationInfo} (h : Rdf.CreationSays ts c) : ∃ e, Rdf.CreationSays us e := by
  obtain ⟨x, hx⟩ := lastSame_again h.licenseList hm
  obtain ⟨y, hy⟩ := eachSame_again h.creators hm
  obtain ⟨z, hz⟩ := lastSame_again h.created hm
  obtain ⟨w, hw⟩ := lastSame_again h.comment hm
  exact ⟨{ licenseListVersion := x, creators := y, created := z, creatorComment := w }, only_again h.only hm, hx, hy, hz, hw⟩

include hr hm in
theorem externalDocument_again {c : ExternalDocumentRef} (h : Rdf.ExternalDocumentSays g ts c) : ∃ e, Rdf.ExternalDocumentSays g' us e := by
  obtain ⟨x, hx⟩ := lastSame_again h.id hm
  obtain ⟨y, hy⟩ := lastSame_again h.uri hm
  obtain ⟨z, hz⟩ := last_again (R' := fun m => Rdf.ChecksumSays (g'.of m)) h.checksum hm fun n _ _ q => checksum_again (hr.same.of n) q
  exact ⟨{ documentRefID := x, uri := y, checksum := z }, only_again h.only hm, hx, hy, hz⟩

include hm in
theorem externalRef_again {c : PackageExternalRef} (h : Rdf.ExternalRefSays ts c) : ∃ e, Rdf.ExternalRefSays us e := by
  obtain ⟨x, hx⟩ := lastSame_again h.category hm
  obtain ⟨y, hy⟩ := lastSame_again h.type hm
  obtain ⟨z, hz⟩ := lastSame_again h.locator hm
  obtain ⟨w, hw⟩ := lastSame_again h.comment hm
  exact ⟨{ category := x, refType := y, locator := z, comment := w }, only_again h.only hm, hx, hy, hz, hw⟩

include hm in
theorem verification_again {c : VerificationCode} (h : Rdf.VerificationSays ts c) : ∃ e, Rdf.VerificationSays us e := by
  obtain ⟨x, hx⟩ := lastSame_again h.value hm
  obtain ⟨y, hy⟩ := eachSame_again h.excluded hm
  exact ⟨{ value := x, excludedFiles := y }, only_again h.only hm, hx, hy⟩

include hm in
theorem artifact_again {n : RNode} {c : ArtifactOfProject} (h : Rdf.ArtifactSays n ts c) : ∃ e, Rdf.ArtifactSays n us e := by
  obtain ⟨x, hx⟩ := lastSame_again h.homePage hm
  obtain ⟨y, hy⟩ := lastSame_again h.name hm
  exact ⟨{ homePage := x, name := y, uri := if n.kind = .iri then n.id else [] }, only_again h.only hm, hx, hy, rfl⟩

include hr in
theorem uri_again {n : RNode} {x : Str} (h : UriSays g n x) : UriSays g' n x := by
  unfold UriSays at h ⊢; rw [← hr.uris]; exact h

include hr hm in
theorem otherLicense_again {c : OtherLicense} (h : OtherLicenseSays g ts c) : ∃ e, OtherLicenseSays g' us e := by
  obtain ⟨x, hx⟩ := lastSame_again h.id hm
  obtain ⟨y, hy⟩ := lastSame_again h.text hm
  obtain ⟨z, hz⟩ := lastSame_again h.name hm
  obtain ⟨w, hw⟩ := lastSame_again h.comment hm
  obtain ⟨u, hu⟩ := each_again (R' := UriSays g') h.crossReferences hm fun n _ a q => ⟨a, uri_again hr q⟩
  exact ⟨{ licenseIdentifier := x, extractedText := y, licenseName := z, comment := w, crossReferences := u }, only_again h.only hm, hx, hy, hz, hw, hu⟩

/-! ## Elements -/

include hr hm in
theorem file_again (ho : SaidOnce g) {f : FileV} (h : FileSays v g ts f) : ∃ k : FileV, k.spdxId = f.spdxId ∧ FileSays v g' us k := by
  obtain ⟨a1, q1⟩ := lastSame_again h.name hm
  obtain ⟨a2, q2⟩ := eachSame_again h.types hm
  obtain ⟨a3, q3⟩ := each_again (R' := ElementChecksumSays v g') h.checksums hm fun n _ _ q => elementChecksum_again hr ho q
  obtain ⟨a4, q4⟩ := lastLicense_again hr hm h.licenseConcluded
  obtain ⟨a5, q5⟩ := eachLicense_again hr hm h.licenseInfo
  obtain ⟨a6, q6⟩ := lastSame_again h.licenseComments hm
  obtain ⟨a7, q7⟩ := lastSame_again h.copyrightText hm
  obtain ⟨a8, q8⟩ := each_again (R' := fun n => Rdf.ArtifactSays n (g'.of n)) h.artifacts hm fun n _ _ q => artifact_again (hr.same.of n) q
  obtain ⟨a9, q9⟩ := lastSame_again h.comment hm
  obtain ⟨b1, r1⟩ := lastSame_again h.notice hm
  obtain ⟨b2, r2⟩ := eachSame_again h.contributors hm
  obtain ⟨b3, r3⟩ := eachSame_again h.dependencies hm
  obtain ⟨b4, r4⟩ := eachSame_again h.attributionTexts hm
  exact ⟨{ f with name := a1, types := a2, checksums := a3, licenseConcluded := a4, licenseInfoInFiles := a5, licenseComments := a6,
                  copyrightText := a7, artifactOfProjects := a8, comment := a9, notice := b1, contributors := b2, dependencies := b3,
                  attributionTexts := b4 }, rfl,
    ⟨only_again h.only hm, q1, q2, q3, q4, q5, q6, q7, q8, q9, r1, r2, r3, r4, h.annotations⟩⟩

include hr hm in
theorem code_again {c : Option VerificationCode} (h : PackageCodeSays v g (vals ts .packageVerificationCode) c) :
    ∃ e, PackageCodeSays v g' (vals us .packageVerificationCode) e := by
  have hv := vals_same hm .packageVerificationCode
  rcases h with ⟨h1, _⟩ | ⟨h1, x, h2, _⟩
  · rw [h1] at hv
    exact ⟨none, .inl ⟨hv.nil, rfl⟩⟩
  · obtain ⟨y, hy⟩ := verification_again (hv.flatMap fun n _ => hr.same.of n) h2
    exact ⟨_, .inr ⟨fun e => h1 (by rw [e] at hv; exact hv.symm.nil), y, hy, rfl⟩⟩

include hr in
theorem location_again {n : RNode} {x : Str} (h : LocationSays g n x) : LocationSays g' n x := by
  unfold LocationSays at h ⊢; rw [← hr.uris]; exact h

include hr hm in
theorem package_again (ho : SaidOnce g) {F : RNode → FileV → Prop} {p : PackageV} (h : PackageSays v g F ts p) :
    ∃ q : PackageV, q.spdxId = p.spdxId ∧ PackageSays v g' F us q := by
  obtain ⟨a1, q1⟩ := lastSame_again h.name hm
  obtain ⟨a2, q2⟩ := lastSame_again h.version hm
  obtain ⟨a3, q3⟩ := lastSame_again h.fileName hm
  obtain ⟨a4, q4⟩ := lastSame_again h.supplier hm
  obtain ⟨a5, q5⟩ := lastSame_again h.originator hm
  obtain ⟨a6, q6⟩ := last_again (R' := LocationSays g') h.downloadLocation hm fun n _ a q => ⟨a, location_again hr q⟩
  obtain ⟨a7, q7⟩ := lastSame_again h.filesAnalyzed hm
  obtain ⟨a8, q8⟩ := lastSame_again h.filesAnalyzedTag hm
  obtain ⟨a9, q9⟩ := code_again hr hm h.verificationCode
  obtain ⟨b1, r1⟩ := each_again (R' := ElementChecksumSays v g') h.checksums hm fun n _ _ q => elementChecksum_again hr ho q
  obtain ⟨b2, r2⟩ := last_again (R' := UriSays g') h.homePage hm fun n _ a q => ⟨a, uri_again hr q⟩
  obtain ⟨b3, r3⟩ := lastSame_again h.sourceInfo hm
  obtain ⟨b4, r4⟩ := lastLicense_again hr hm h.licenseConcluded
  obtain ⟨b5, r5⟩ := eachSame_again h.licenseInfo hm
  obtain ⟨b6, r6⟩ := lastLicense_again hr hm h.licenseDeclared
  obtain ⟨b7, r7⟩ := lastSame_again h.licenseComments hm
  obtain ⟨b8, r8⟩ := lastSame_again h.copyrightText hm
  obtain ⟨b9, r9⟩ := lastSame_again h.summary hm
  obtain ⟨c1, s1⟩ := lastSame_again h.description hm
  obtain ⟨c2, s2⟩ := lastSame_again h.comment hm
  obtain ⟨c3, s3⟩ := each_again (R' := fun n => Rdf.ExternalRefSays (g'.of n)) h.externalRefs hm fun n _ _ q => externalRef_again (hr.same.of n) q
  obtain ⟨c4, s4⟩ := eachSame_again h.attributionTexts hm
  obtain ⟨c5, s5⟩ := lastSame_again h.purpose hm
  obtain ⟨c6, s6⟩ := lastSame_again h.releaseDate hm
  obtain ⟨c7, s7⟩ := lastSame_again h.builtDate hm
  obtain ⟨c8, s8⟩ := lastSame_again h.validUntilDate hm
  obtain ⟨c9, s9⟩ := eachSame_again h.files hm
  exact ⟨{ p with name := a1, version := a2, fileName := a3, supplier := a4, originator := a5, downloadLocation := a6, filesAnalyzed := a7,
                  filesAnalyzedTagPresent := a8, verificationCode := a9, checksums := b1, homePage := b2, sourceInfo := b3,
                  licenseConcluded := b4, licenseInfoFromFiles := b5, licenseDeclared := b6, licenseComments := b7, copyrightText := b8,
                  summary := b9, description := c1, comment := c2, externalRefs := c3, attributionTexts := c4, primaryPurpose := c5,
                  releaseDate := c6, builtDate := c7, validUntilDate := c8, files := c9 }, rfl,
    ⟨only_again h.only hm, h.unpackaged, q1, q2, q3, q4, q5, q6, q7, q8, q9, r1, r2, r3, r4, r5, r6, r7, r8, r9, s1, s2, s3, s4, s5, s6, s7, s8,
      s9, h.annotations⟩⟩

include hr in
theorem related_again {n : RNode} {r : DocElementID} (h : RelatedSays g n r) : RelatedSays g' n r := by
  obtain ⟨x, hx, h⟩ := h
  refine ⟨x, hx, ?_⟩
  rcases h with ⟨h, rfl⟩ | ⟨t, h, q⟩
  · have := hr.same.of n
    rw [h] at this
    exact .inl ⟨this.nil, rfl⟩
  · exact .inr ⟨t, perm_one ((hr.of n).filter _) h, q⟩

include hr hm in
theorem relationship_again {n : RNode} {r : Relationship} (h : Rdf.RelationshipSays g n ts r) : ∃ k, Rdf.RelationshipSays g' n us k := by
  obtain ⟨a1, q1⟩ := last_again (R' := RelatedSays g') h.refB hm fun n _ a q => ⟨a, related_again hr q⟩
  obtain ⟨a2, q2⟩ := lastSame_again h.type hm
  obtain ⟨a3, q3⟩ := lastSame_again h.comment hm
  exact ⟨{ refA := r.refA, refB := a1, relationship := a2, comment := a3 }, only_again h.only hm, h.refA, q1, q2, q3⟩

/-! ## Snippets -/

include hr in
theorem pointer_again (ho : SaidOnce g) {n : RNode} {l : Bool} {i : Int} (h : PointerSays g n l i) : PointerSays g' n l i := by
  have hm := hr.same.of n
  refine ⟨only_again h.only hm, fun t ht => h.numbers t ((hm t).2 ht), ?_⟩
  obtain ⟨a, t, b, e, _, h1, h2⟩ := h.last
  have ht : t ∈ g.of n := by rw [e]; simp
  obtain ⟨a', t', b', e', h1', h3'⟩ := split_at_last (P := fun u : Triple => u.pred ∈ [Pred.offset, .lineNumber]) (l := g'.of n)
    ⟨t, (hm t).1 ht, by rw [h1]; cases l <;> simp⟩
  have ht' : t' ∈ g.of n := (hm t').2 (by rw [e']; simp)
  have haa := aboutOne_of g n
  have hp : t'.pred = t.pred := by
    have h1' : t'.pred = .offset ∨ t'.pred = .lineNumber := by simpa using h1'
    cases l <;> simp only [Bool.false_eq_true, if_false, if_true] at h1 <;> rcases h1' with h1' | h1' <;> first
      | exact h1'.trans h1.symm
      | exact absurd h1' (ho.pointers t (mem_of ht).1 t' (mem_of ht').1 (haa.2 t ht t' ht') h1)
      | exact absurd h1 (ho.pointers t' (mem_of ht').1 t (mem_of ht).1 (haa.2 t' ht' t ht) h1')
  have : t'.object = t.object := ho.once t' (mem_of ht').1 t (mem_of ht).1 (haa.2 t' ht' t ht) hp (by rw [hp, h1]; cases l <;> decide)
  exact ⟨a', t', b', e', h3', hp.trans h1, this ▸ h2⟩

include hr in
theorem range_again (ho : SaidOnce g) {f : Str} {n : RNode} {r : SnippetRange} (h : RangeSays g f n r) (k : Str) : ∃ s, RangeSays g' k n s := by
  obtain ⟨h0, c, a, b, l, i, j, h1, h2, h3, h4, h5, _⟩ := h
  have hp := hr.of n
  exact ⟨_, hp.length_eq ▸ h0, c, a, b, l, i, j, perm_one (vals_perm hp _) h1, perm_one (vals_perm hp _) h2, perm_one (vals_perm hp _) h3,
    pointer_again hr ho h4, pointer_again hr ho h5, rfl⟩

omit hr hm in
theorem vals_append' (a b : List Triple) (p : Pred) : vals (a ++ b) p = vals a p ++ vals b p := by simp [vals]

include hr hm in
theorem ranges_again (ho : SaidOnce g) {x : Str} {rs : List SnippetRange} (h : RangesSay v g ts rs)
    (hf : LastOf (SnippetFileSays v) [] (vals ts .snippetFromFile) x) : ∃ ss, RangesSay v g' us ss := by
  have hv := vals_same hm .range
  have hall : ∀ n ∈ vals us .range, ∃ f r, RangeSays g' f n r := by
    intro n hn
    obtain ⟨f, r, q⟩ := h.1 n ((hv n).2 hn)
    exact ⟨f, range_again hr ho q f⟩
  by_cases hn : ∃ t ∈ us, t.pred = .range
  · obtain ⟨a, t, b, rfl, h1, h2⟩ := split_at_last hn
    obtain ⟨f, r, q⟩ := h.1 t.object ((hv _).2 (mem_vals' (by simp) h1))
    obtain ⟨xs, hx, _⟩ := hf
    obtain ⟨ys, hy⟩ := pointwise_ex (R := SnippetFileSays v) (l := vals a .snippetFromFile) fun n hn => by
      have : n ∈ vals ts .snippetFromFile := (vals_same hm _ n).2 (by rw [vals_append']; simp [hn])
      obtain ⟨y, _, hy⟩ := hx.image this
      exact ⟨y, hy⟩
    obtain ⟨s, hs⟩ := range_again hr ho q (ys.getLastD [])
    refine ⟨[s], hall, .inr ⟨a, t, b, _, s, rfl, h1, ?_, ⟨ys, hy, rfl⟩, hs, rfl⟩⟩
    refine List.eq_nil_iff_forall_not_mem.2 fun m hm => ?_
    obtain ⟨u, hu, hp, _⟩ := vals_source hm
    exact h2 u hu hp
  · refine ⟨[], hall, .inl ⟨List.eq_nil_iff_forall_not_mem.2 fun m hm => ?_, rfl⟩⟩
    obtain ⟨u, hu, hp, _⟩ := vals_source hm
    exact hn ⟨u, hu, hp⟩

include hr hm in
theorem snippet_again (ho : SaidOnce g) {x : Snippet} (h : SnippetSays v g ts x) : ∃ y : Snippet, y.spdxId = x.spdxId ∧ SnippetSays v g' us y := by
  obtain ⟨a1, q1⟩ := lastSame_again h.fromFile hm
  obtain ⟨a2, q2⟩ := ranges_again hr hm ho h.ranges h.fromFile
  obtain ⟨a3, q3⟩ := lastLicense_again hr hm h.licenseConcluded
  obtain ⟨a4, q4⟩ := eachLicense_again hr hm h.licenseInfo
  obtain ⟨a5, q5⟩ := lastSame_again h.licenseComments hm
  obtain ⟨a6, q6⟩ := lastSame_again h.copyrightText hm
  obtain ⟨a7, q7⟩ := lastSame_again h.comment hm
  obtain ⟨a8, q8⟩ := lastSame_again h.name hm
  exact ⟨{ x with fromFile := a1, ranges := a2, licenseConcluded := a3, licenseInfo := a4, licenseComments := a5, copyrightText := a6,
                  comment := a7, name := a8 }, rfl, only_again h.only hm, q1, q2, q3, q4, q5, q6, q7, q8, h.attributionTexts⟩

include hr hm in
theorem document_again {n : RNode} {d : Doc} (h : DocumentSays g n ts d) : ∃ e : Doc, DocumentSays g' n us e := by
  obtain ⟨a1, q1⟩ := lastSame_again h.version hm
  obtain ⟨a2, q2⟩ := lastLicense_again hr hm h.dataLicense
  obtain ⟨a3, q3⟩ := lastSame_again h.name hm
  obtain ⟨a4, q4⟩ := lastSame_again h.comment hm
  obtain ⟨a5, q5⟩ := each_again (R' := fun m => Rdf.ExternalDocumentSays g' (g'.of m)) h.externals hm fun m _ _ q =>
    externalDocument_again hr (hr.same.of m) q
  obtain ⟨c, _, q⟩ := h.creation
  obtain ⟨a6, q6⟩ := creation_again ((vals_same hm .creationInfo).flatMap fun n _ => hr.same.of n) q
  obtain ⟨a7, q7⟩ := each_again (R' := fun m => Rdf.ReviewSays (g'.of m)) h.reviews hm fun m _ _ q => review_again (hr.same.of m) q
  obtain ⟨a8, q8⟩ := each_again (R' := fun m => OtherLicenseSays g' (g'.about m.id)) h.licenses hm fun m _ _ q =>
    otherLicense_again hr (hr.same.about m.id) q
  exact ⟨{ d with spdxVersion := a1, dataLicense := a2, name := a3, comment := a4, externalDocumentRefs := a5, creationInfo := some a6,
                  reviews := a7, otherLicenses := a8 }, only_again h.only hm, h.names, q1, q2, q3, q4, q5, ⟨a6, rfl, q6⟩, q7, q8, h.snippets⟩

end

include hr in
theorem legal_again {v : Version} (ho : SaidOnce g) (h : Legal v g) : Legal v g' := by
  have hs := hr.same
  have hb := hr.symm.same
  refine ⟨?_, ?_, ?_, ?_, ?_, ?_, ?_⟩
  · intro r hr'
    obtain ⟨t, h1, h2⟩ := h.roots r ((hs.roots r).2 hr')
    exact ⟨t, perm_one (hr.triples.filter _) h1, h2⟩
  · obtain ⟨n, h1, h2, d, h3⟩ := h.document
    exact ⟨n, documentNode_same hs h1, fun m hm => h2 m (documentNode_same hb hm), document_again hr (hs.of n) h3⟩
  · intro n hn
    obtain ⟨f, h1, h2⟩ := h.files n (leads_same hb hn)
    obtain ⟨k, e, h3⟩ := file_again hr (hs.of n) ho h2
    exact ⟨k, e ▸ h1, h3⟩
  · intro n hn
    obtain ⟨f, h1, h2⟩ := h.packages n (leads_same hb hn)
    obtain ⟨k, e, h3⟩ := package_again hr (hs.of n) ho h2
    exact ⟨k, e ▸ h1, h3⟩
  · intro t ht
    obtain ⟨r, h1⟩ := h.relationships t (leads_same hb ht)
    exact relationship_again hr (hs.of _) h1
  · intro n hn t ht hp
    obtain ⟨a, h1⟩ := h.annotations n (annotatable_same hb hn) t ((hs.of n t).2 ht) hp
    exact annotation_again (hs.of _) h1
  · intro n hn
    obtain ⟨x, h1, h2, m, h3, h4⟩ := h.snippets n (snippetNode_same hb hn)
    obtain ⟨y, e, h5⟩ := snippet_again hr (hs.of n) ho h2
    have := (snippetSays_same hs ho (aboutOne_of g n) (hs.of n) h2 h5 e.symm).fromFile
    exact ⟨y, e ▸ h1, h5, m, (vals_same (hs.of n) _ m).1 h3, this ▸ h4⟩

end

end Verif
