import Verif.Lemmas.RdfOrder

/-!
# What the same statements in another order say about files, packages, snippets and the document
-/

namespace Verif
open Spec Spec.Rdf

theorem last_by {α : Type} {R R' : RNode → α → Prop} {z x y : α} {ts us : List Triple} {p : Pred}
    (h : LastOf R z (vals ts p) x) (h' : LastOf R' z (vals us p) y) (hm : SameMembers ts us) (ho : OneValue ts p)
    (hR : ∀ n ∈ vals ts p, ∀ a b, R n a → R' n b → a = b) : x = y := last_same hm ho hR h h'

theorem each_by {α : Type} {R R' : RNode → α → Prop} {xs ys : List α} {ts us : List Triple} {p : Pred}
    (h : EachOf R (vals ts p) xs) (h' : EachOf R' (vals us p) ys) (hm : SameMembers ts us)
    (hR : ∀ n ∈ vals ts p, ∀ a b, R n a → R' n b → a = b) : SameMembers xs ys := each_same hm hR h h'

theorem fileId_one {x a b : Str} (h : FileIdOf x a) (h' : FileIdOf x b) : a = b := by
  unfold FileIdOf at h h'; rw [h] at h'; injection h'

theorem packageId_one {x a b : Str} (h : PackageIdOf x a) (h' : PackageIdOf x b) : a = b := by
  unfold PackageIdOf at h h'; rw [h] at h'; injection h'

section
variable {v : Version} {g g' : Graph} (hs : SameStatements g g') (ho : SaidOnce g) {ts us : List Triple} (ha : AboutOne g ts) (hm : SameMembers ts us)

include hs ho in
theorem elementChecksum_same (n : RNode) (c e : Checksum) (h : ElementChecksumSays v g n c) (h' : ElementChecksumSays v g' n e) : c = e :=
  checksum_same ho (aboutOne_of g n) (hs.of n) h.1 h'.1

include hs ho ha hm in
theorem lastLicense_same {p : Pred} (hp : p ∉ repeatable) {x y : Str} (h : LastOf (Rdf.LicenseSays g) [] (vals ts p) x)
    (h' : LastOf (Rdf.LicenseSays g') [] (vals us p) y) : SameLicense x y :=
  last_alike (R := Rdf.LicenseSays g) (R' := Rdf.LicenseSays g') hm (ho.one ha hp) (fun _ _ _ _ q q' => license_same hs ho q q') sameLicense_nil h h'

include hs ho hm in
omit ha in
theorem eachLicense_same {p : Pred} {xs ys : List Str} (h : EachOf (Rdf.LicenseSays g) (vals ts p) xs)
    (h' : EachOf (Rdf.LicenseSays g') (vals us p) ys) : Matching SameLicense xs ys :=
  each_alike (R := Rdf.LicenseSays g) (R' := Rdf.LicenseSays g') hm (fun _ _ _ _ q q' => license_same hs ho q q') h h'

include hs ho ha hm in
theorem fileSays_same {f k : FileV} (h : FileSays v g ts f) (h' : FileSays v g' us k) (hid : f.spdxId = k.spdxId)
    (hsn : Matching (fun a b => a.1 = b.1 ∧ SameSnippet a.2 b.2) f.snippets k.snippets) : Rdf.SameFile f k where
  name := said_same ho ha hm (by decide) h.name h'.name
  spdxId := hid
  types := each_by h.types h'.types hm (fun n _ => unique_of fileType_iff n)
  checksums := each_by h.checksums h'.checksums hm (fun n _ => elementChecksum_same hs ho n)
  licenseConcluded := lastLicense_same hs ho ha hm (by decide) h.licenseConcluded h'.licenseConcluded
  licenseInfo := eachLicense_same hs ho hm h.licenseInfo h'.licenseInfo
  licenseComments := said_same ho ha hm (by decide) h.licenseComments h'.licenseComments
  copyrightText := said_same ho ha hm (by decide) h.copyrightText h'.copyrightText
  artifacts := each_by h.artifacts h'.artifacts hm (fun n _ _ _ q q' => artifact_same ho (aboutOne_of g n) (hs.of n) q q')
  comment := said_same ho ha hm (by decide) h.comment h'.comment
  notice := last_by h.notice h'.notice hm (ho.one ha (by decide)) (fun n _ a b q q' => ((notice_iff n a).1 q).symm.trans ((notice_iff n b).1 q'))
  contributors := each_by h.contributors h'.contributors hm (fun n _ a b => text_unique n a b)
  attributionTexts := each_by h.attributionTexts h'.attributionTexts hm (fun n _ a b => text_unique n a b)
  dependencies := each_by h.dependencies h'.dependencies hm (fun _ _ _ _ q q' => fileId_one q q')
  snippets := hsn
  annotations := h.annotations.trans h'.annotations.symm

omit hs ha in
include hm in
theorem nodes_of {p : Pred} (hp : OneValue ts p) (hs : SameStatements g g') : AboutOne g ((vals ts p).flatMap g.of) ∧
    SameMembers ((vals ts p).flatMap g.of) ((vals us p).flatMap g'.of) := by
  refine ⟨⟨fun t ht => ?_, fun t ht u hu => ?_⟩, (vals_same hm p).flatMap fun n _ => hs.of n⟩
  · obtain ⟨n, _, hn⟩ := List.mem_flatMap.1 ht
    exact (mem_of hn).1
  · obtain ⟨n, q1, hn⟩ := List.mem_flatMap.1 ht
    obtain ⟨m, q2, hm⟩ := List.mem_flatMap.1 hu
    obtain ⟨a, ha, hap, rfl⟩ := vals_source q1
    obtain ⟨b, hb, hbp, rfl⟩ := vals_source q2
    rw [(mem_of hn).2, (mem_of hm).2, hp a ha b hb hap hbp]

omit hs in
theorem code_empty {c e : VerificationCode} (h : c.value = e.value ∧ SameMembers c.excludedFiles e.excludedFiles) (h0 : c = {}) : e = {} := by
  subst h0
  have h1 : e.value = [] := h.1.symm
  have h2 : e.excludedFiles = [] := h.2.nil
  cases e; simp_all

include hs ho ha hm in
theorem code_same {c e : Option VerificationCode} (h : PackageCodeSays v g (vals ts .packageVerificationCode) c)
    (h' : PackageCodeSays v g' (vals us .packageVerificationCode) e) : SameCode c e := by
  have hv := vals_same hm .packageVerificationCode
  rcases h with ⟨h1, rfl⟩ | ⟨h1, x, h2, rfl⟩ <;> rcases h' with ⟨q1, rfl⟩ | ⟨q1, y, q2, rfl⟩
  · trivial
  · rw [h1] at hv; exact absurd hv.nil q1
  · rw [q1] at hv; exact absurd hv.symm.nil h1
  · obtain ⟨r1, r2⟩ := nodes_of hm (ho.one ha (p := .packageVerificationCode) (by decide)) hs
    have hxy := verification_same ho r1 r2 h2 q2
    by_cases hc : v ≠ .v23 ∧ x = {}
    · rw [if_pos hc, if_pos ⟨hc.1, code_empty hxy hc.2⟩]; trivial
    · rw [if_neg hc, if_neg fun hy => hc ⟨hy.1, code_empty ⟨hxy.1.symm, hxy.2.symm⟩ hy.2⟩]
      exact hxy

include hs ho ha hm in
theorem packageSays_same {F F' : RNode → FileV → Prop} {p q : PackageV} (h : PackageSays v g F ts p) (h' : PackageSays v g' F' us q) (hid : p.spdxId = q.spdxId)
    (hf : ∀ n ∈ vals ts .hasFile, ∀ a ∈ p.files, ∀ b ∈ q.files, F n a → F' n b → Rdf.SameFile a b) : Rdf.SamePackage p q where
  isUnpackaged := h.unpackaged.trans h'.unpackaged.symm
  name := said_same ho ha hm (by decide) h.name h'.name
  spdxId := hid
  version := said_same ho ha hm (by decide) h.version h'.version
  fileName := said_same ho ha hm (by decide) h.fileName h'.fileName
  supplier := last_by h.supplier h'.supplier hm (ho.one ha (by decide)) (fun n _ a b q q' => by
    obtain ⟨x, q, rfl⟩ := q; obtain ⟨y, q', rfl⟩ := q'; rw [unique_of supplier_iff n x y q q'])
  originator := last_by h.originator h'.originator hm (ho.one ha (by decide)) (fun n _ a b q q' => by
    obtain ⟨x, q, rfl⟩ := q; obtain ⟨y, q', rfl⟩ := q'; rw [unique_of originator_iff n x y q q'])
  downloadLocation := last_by h.downloadLocation h'.downloadLocation hm (ho.one ha (by decide)) (fun n _ a b q q' => by
    have q'' : LocationSays g n b := by unfold LocationSays at q' ⊢; rw [hs.uris]; exact q'
    exact unique_of (location_iff g) n a b q q'')
  filesAnalyzed := last_by h.filesAnalyzed h'.filesAnalyzed hm (ho.one ha (by decide)) (fun n _ => unique_of bool_iff n)
  filesAnalyzedTag := last_by h.filesAnalyzedTag h'.filesAnalyzedTag hm (ho.one ha (by decide)) (fun n _ a b q q' => q.trans q'.symm)
  verificationCode := code_same hs ho ha hm h.verificationCode h'.verificationCode
  checksums := each_by h.checksums h'.checksums hm (fun n _ => elementChecksum_same hs ho n)
  homePage := last_by h.homePage h'.homePage hm (ho.one ha (by decide)) (fun n _ a b q q' => q.2.trans q'.2.symm)
  sourceInfo := said_same ho ha hm (by decide) h.sourceInfo h'.sourceInfo
  licenseConcluded := lastLicense_same hs ho ha hm (by decide) h.licenseConcluded h'.licenseConcluded
  licenseInfo := each_by h.licenseInfo h'.licenseInfo hm (fun n _ a b q q' => ((licenseName_iff n a).1 q).symm.trans ((licenseName_iff n b).1 q'))
  licenseDeclared := lastLicense_same hs ho ha hm (by decide) h.licenseDeclared h'.licenseDeclared
  licenseComments := said_same ho ha hm (by decide) h.licenseComments h'.licenseComments
  copyrightText := said_same ho ha hm (by decide) h.copyrightText h'.copyrightText
  summary := said_same ho ha hm (by decide) h.summary h'.summary
  description := said_same ho ha hm (by decide) h.description h'.description
  comment := said_same ho ha hm (by decide) h.comment h'.comment
  externalRefs := each_by h.externalRefs h'.externalRefs hm (fun n _ _ _ q q' => externalRef_same ho (aboutOne_of g n) (hs.of n) q q')
  attributionTexts := each_by h.attributionTexts h'.attributionTexts hm (fun n _ a b => text_unique n a b)
  primaryPurpose := last_by h.purpose h'.purpose hm (ho.one ha (by decide)) (fun n _ a b q q' => ((purpose_iff n a).1 q).symm.trans ((purpose_iff n b).1 q'))
  releaseDate := said_same ho ha hm (by decide) h.releaseDate h'.releaseDate
  builtDate := said_same ho ha hm (by decide) h.builtDate h'.builtDate
  validUntilDate := said_same ho ha hm (by decide) h.validUntilDate h'.validUntilDate
  files := by
    have hv := vals_same hm .hasFile
    constructor
    · intro x hx
      obtain ⟨n, hn, hnx⟩ := Pointwise.source h.files hx
      obtain ⟨y, hy, hny⟩ := Pointwise.image h'.files ((hv n).1 hn)
      exact ⟨y, hy, hf n hn _ hx _ hy hnx hny⟩
    · intro y hy
      obtain ⟨n, hn, hny⟩ := Pointwise.source h'.files hy
      have hn := (hv n).2 hn
      obtain ⟨x, hx, hnx⟩ := Pointwise.image h.files hn
      exact ⟨x, hx, hf n hn _ hx _ hy hnx hny⟩
  annotations := h.annotations.trans h'.annotations.symm

/-! ## Relationships -/

include hs in
theorem related_same {n : RNode} {a b : DocElementID} (h : RelatedSays g n a) (h' : RelatedSays g' n b) : a = b := by
  obtain ⟨x, hx, h⟩ := h
  obtain ⟨y, hy, h'⟩ := h'
  have exy := unique_of reference_iff n x y hx hy
  subst exy
  have hmm := hs.of n
  have tn : ∀ {gg : Graph} {t : Triple}, gg.of n = [] → typeTriples (gg.of n) n.id = [t] → False := fun h0 h1 => by
    rw [h0] at h1; simp [typeTriples] at h1
  rcases h with ⟨h1, rfl⟩ | ⟨t, h1, h2⟩ <;> rcases h' with ⟨q1, rfl⟩ | ⟨u, q1, q2⟩
  · rfl
  · rw [h1] at hmm; exact (tn hmm.nil q1).elim
  · rw [q1] at hmm; exact (tn hmm.symm.nil h1).elim
  · have hu : u ∈ typeTriples (g'.of n) n.id := by rw [q1]; simp
    have hu' : u ∈ typeTriples (g.of n) n.id := by
      simp only [typeTriples, List.mem_filter] at hu ⊢
      exact ⟨(hmm u).2 hu.1, hu.2⟩
    rw [h1, List.mem_singleton] at hu'
    subst hu'
    rcases h2 with ⟨h2, id, h3, rfl⟩ | ⟨h2, id, h3, rfl⟩ | ⟨h2, w, h3, h4⟩ <;>
      rcases q2 with ⟨q2, id', q3, rfl⟩ | ⟨q2, id', q3, rfl⟩ | ⟨q2, w', q3, q4⟩ <;> first
      | rw [fileId_one h3 q3]
      | rw [packageId_one h3 q3]
      | (rw [h2] at q2; cases q2; done)
      | skip
    rw [lastPart_iff] at h3 q3
    rw [h3.symm, refReads_iff] at h4
    rw [q3.symm, refReads_iff, h4] at q4
    injection q4

include hs ho ha hm in
theorem relationship_same {n : RNode} {r k : Relationship} (h : Rdf.RelationshipSays g n ts r) (h' : Rdf.RelationshipSays g' n us k) : r = k := by
  have h1 := unique_of reference_iff n _ _ h.refA h'.refA
  have h2 : r.refB = k.refB := last_by h.refB h'.refB hm (ho.one ha (p := .relatedSpdxElement) (by decide)) (fun n _ _ _ q q' => related_same hs q q')
  have h3 : r.relationship = k.relationship := last_by h.type h'.type hm (ho.one ha (p := .relationshipType) (by decide)) (fun n _ => unique_of relationshipType_iff n)
  have h4 := said_same ho ha hm (by decide) h.comment h'.comment
  cases r; cases k; simp_all

/-! ## Snippets -/

include hs ho in
theorem pointer_same {n : RNode} {l m : Bool} {i j : Int} (h : PointerSays g n l i) (h' : PointerSays g' n m j) : l = m ∧ i = j := by
  obtain ⟨a, t, b, e1, _, h1, h2⟩ := h.last
  obtain ⟨a', t', b', e2, _, h1', h2'⟩ := h'.last
  have ht : t ∈ g.of n := by rw [e1]; simp
  have ht' : t' ∈ g.of n := (hs.of n t').2 (by rw [e2]; simp)
  have haa := aboutOne_of g n
  have hlm : l = m := by
    cases l <;> cases m <;> simp only [Bool.false_eq_true, if_false, if_true] at h1 h1' <;> first
      | rfl
      | exact absurd h1' (ho.pointers t (mem_of ht).1 t' (mem_of ht').1 (haa.2 t ht t' ht') h1)
      | exact absurd h1 (ho.pointers t' (mem_of ht').1 t (mem_of ht).1 (haa.2 t' ht' t ht) h1')
  subst hlm
  have : t.object = t'.object := ho.once t (mem_of ht).1 t' (mem_of ht').1 (haa.2 t ht t' ht') (by rw [h1, h1'])
    (by rw [h1]; cases l <;> decide)
  rw [this] at h2
  exact ⟨rfl, number_one h2 h2'⟩

include hs ho in
theorem range_same {f k : Str} {n : RNode} {r s : SnippetRange} (h : RangeSays g f n r) (h' : RangeSays g' k n s) : SameRange r s := by
  obtain ⟨_, c, a, b, l, i, j, _, h2, h3, h4, h5, rfl⟩ := h
  obtain ⟨_, c', a', b', l', i', j', _, q2, q3, q4, q5, rfl⟩ := h'
  have one : ∀ {p : Pred} {x y : RNode}, vals (g.of n) p = [x] → vals (g'.of n) p = [y] → x = y := by
    intro p x y h1 h2
    have := (vals_same (hs.of n) p y).2 (by rw [h2]; simp)
    rw [h1] at this
    exact (List.mem_singleton.1 this).symm
  have ea := one h2 q2
  have eb := one h3 q3
  subst ea; subst eb
  obtain ⟨e1, e2⟩ := pointer_same hs ho h4 q4
  obtain ⟨_, e3⟩ := pointer_same hs ho h5 q5
  subst e1; subst e2; subst e3
  cases l <;> exact ⟨rfl, rfl, rfl, rfl⟩

include hs ho ha hm in
theorem snippetSays_same {x y : Snippet} (h : SnippetSays v g ts x) (h' : SnippetSays v g' us y) (hid : x.spdxId = y.spdxId) : SameSnippet x y where
  spdxId := hid
  fromFile := last_by h.fromFile h'.fromFile hm (ho.one ha (p := .snippetFromFile) (by decide)) (fun n _ => unique_of (snippetFile_iff v) n)
  ranges := by
    have hv := vals_same hm .range
    have mv : ∀ {b a : List Triple} {t : Triple}, t.pred = .range → t.object ∈ vals (b ++ t :: a) .range := fun hp => mem_vals' (by simp) hp
    rcases h.ranges.2 with ⟨h1, e1⟩ | ⟨b, t, a, f, r, h1, h2, _, _, h3, e1⟩ <;>
      rcases h'.ranges.2 with ⟨q1, e2⟩ | ⟨b', t', a', f', r', q1, q2, _, _, q3, e2⟩ <;> rw [e1, e2]
    · exact ⟨by simp, by simp⟩
    · rw [h1] at hv
      have := mv (b := b') (a := a') q2
      rw [← q1, hv.nil] at this
      simp at this
    · rw [q1] at hv
      have := mv (b := b) (a := a) h2
      rw [← h1, hv.symm.nil] at this
      simp at this
    · have e : t.object = t'.object := ho.one ha (p := .range) (by decide) t (by rw [h1]; simp) t' ((hm t').2 (by rw [q1]; simp)) h2 q2
      rw [← e] at q3
      have := range_same hs ho h3 q3
      exact ⟨by simpa using this, by simpa using this⟩
  licenseConcluded := lastLicense_same hs ho ha hm (by decide) h.licenseConcluded h'.licenseConcluded
  licenseInfo := eachLicense_same hs ho hm h.licenseInfo h'.licenseInfo
  licenseComments := said_same ho ha hm (by decide) h.licenseComments h'.licenseComments
  copyrightText := said_same ho ha hm (by decide) h.copyrightText h'.copyrightText
  comment := said_same ho ha hm (by decide) h.comment h'.comment
  name := said_same ho ha hm (by decide) h.name h'.name
  attributionTexts := h.attributionTexts.trans h'.attributionTexts.symm

end

/-! ## What the document leads to -/

theorem documentNode_same {g g' : Graph} (hs : SameStatements g g') {n : RNode} (h : IsDocumentNode g n) : IsDocumentNode g' n := by
  obtain ⟨h1, t, h2, h3⟩ := h
  exact ⟨(hs.roots n).1 h1, t, (hs.triples t).1 h2, h3⟩

theorem snippetNode_same {g g' : Graph} (hs : SameStatements g g') {n : RNode} (h : IsSnippetNode g n) : IsSnippetNode g' n := by
  obtain ⟨⟨r, hr, e⟩, t, h2, h3⟩ := h
  exact ⟨⟨r, (hs.roots r).1 hr, e⟩, t, (hs.triples t).1 h2, h3⟩

theorem leads_same {g g' : Graph} (hs : SameStatements g g') {p : Part} (h : Leads g p) : Leads g' p := by
  have o : ∀ {n : RNode} {t : Triple}, t ∈ g.of n → t ∈ g'.of n := fun {n t} => (hs.of n t).1
  induction h with
  | described h1 h2 h3 => exact .described (documentNode_same hs h1) (o h2) h3
  | ofDocument h1 h2 h3 => exact .ofDocument (documentNode_same hs h1) (o h2) h3
  | contained _ h2 h3 ih => exact .contained ih (o h2) h3
  | ofPackage _ h2 h3 ih => exact .ofPackage ih (o h2) h3
  | dependency _ h2 h3 ih => exact .dependency ih (o h2) h3
  | ofFile _ h2 h3 ih => exact .ofFile ih (o h2) h3
  | relatedFile _ h2 h3 h4 h5 h6 ih => exact .relatedFile ih (o h2) h3 (o h4) h5 h6
  | relatedPackage _ h2 h3 h4 h5 h6 ih => exact .relatedPackage ih (o h2) h3 (o h4) h5 h6
  | snippetFile h1 h2 h3 => exact .snippetFile (snippetNode_same hs h1) (o h2) h3
  | rangeFile h1 h2 h3 h4 h5 h6 h7 h8 =>
    exact .rangeFile (snippetNode_same hs h1) (o h2) h3 (o h4) h5 (o h6) h7 ((stated_same hs _ _).1 h8)

theorem annotatable_same {g g' : Graph} (hs : SameStatements g g') {n : RNode} (h : Annotatable g n) : Annotatable g' n := by
  cases h with
  | document h => exact .document (documentNode_same hs h)
  | file h => exact .file (leads_same hs h)
  | package h => exact .package (leads_same hs h)

/-! ## The conditions -/

theorem usedBy_same {g g' : Graph} (hs : SameStatements g g') {ps : List Pred} {id : Str} : UsedBy g ps id ↔ UsedBy g' ps id := by
  simp only [UsedBy, hs.triples]

theorem relatedAs_same {g g' : Graph} (hs : SameStatements g g') {c : Cls} {id : Str} : RelatedAs g c id ↔ RelatedAs g' c id := by
  simp only [RelatedAs, hs.triples]

theorem usedAsFile_same {g g' : Graph} (hs : SameStatements g g') (id : Str) : UsedAsFile g id ↔ UsedAsFile g' id := by
  simp only [UsedAsFile, usedBy_same hs, relatedAs_same hs]

theorem usedAsPackage_same {g g' : Graph} (hs : SameStatements g g') (id : Str) : UsedAsPackage g id ↔ UsedAsPackage g' id := by
  simp only [UsedAsPackage, usedBy_same hs, relatedAs_same hs]

theorem oneRole_same {g g' : Graph} (hs : SameStatements g g') (h : OneRole g) : OneRole g' where
  file id hf := by
    have := h.file id ((usedAsFile_same hs id).2 hf)
    rwa [usedAsPackage_same hs, UsedAsLicense, usedBy_same hs, UsedAsRelationship, usedBy_same hs] at this
  package id hf := by
    have := h.package id ((usedAsPackage_same hs id).2 hf)
    rwa [UsedAsLicense, usedBy_same hs, UsedAsRelationship, usedBy_same hs] at this

theorem distinctNames_same {g g' : Graph} (hs : SameStatements g g') (h : DistinctNames g) : DistinctNames g' where
  file x y id h1 h2 := h.file x y id ((usedAsFile_same hs x).2 h1) ((usedAsFile_same hs y).2 h2)
  package x y id h1 h2 := h.package x y id ((usedAsPackage_same hs x).2 h1) ((usedAsPackage_same hs y).2 h2)

theorem referred_same {g g' : Graph} (hs : SameStatements g g') (n : RNode) : IsReferred g n ↔ IsReferred g' n := by
  simp only [IsReferred, hs.triples]

theorem namedNodes_same {g g' : Graph} (hs : SameStatements g g') (h : NamedNodes g) : NamedNodes g' :=
  fun t ht n hn => h t ((hs.triples t).2 ht) n ((referred_same hs n).2 hn)

theorem oneOwner_same {g g' : Graph} (hs : SameStatements g g') (h : OneOwner g) : OneOwner g' :=
  fun t ht u hu => h t ((hs.triples t).2 ht) u ((hs.triples u).2 hu)

theorem distinctSnippets_same {g g' : Graph} (hs : SameStatements g g') (h : DistinctSnippets g) : DistinctSnippets g' :=
  fun n m id h1 h2 => h n m id (snippetNode_same hs.symm h1) (snippetNode_same hs.symm h2)

theorem apart_same {g g' : Graph} (hs : SameStatements g g') (h : LicensesApart g) : LicensesApart g' := by
  intro id hl hr
  rw [UsedAsLicense, ← usedBy_same hs] at hl
  rw [UsedAsRelationship, ← usedBy_same hs] at hr
  exact h id hl hr

theorem trimmed_same {g g' : Graph} (hs : SameStatements g g') (h : SnippetFilesTrimmed g) : SnippetFilesTrimmed g' :=
  fun t ht => h t ((hs.triples t).2 ht)

theorem saidOnce_same {g g' : Graph} (hs : SameStatements g g') (h : SaidOnce g) : SaidOnce g' where
  once t ht u hu := h.once t ((hs.triples t).2 ht) u ((hs.triples u).2 hu)
  externals e he hp t ht u hu := h.externals e ((hs.triples e).2 he) hp t ((hs.of _ t).2 ht) u ((hs.of _ u).2 hu)
  pointers t ht u hu := h.pointers t ((hs.triples t).2 ht) u ((hs.triples u).2 hu)

end Verif
