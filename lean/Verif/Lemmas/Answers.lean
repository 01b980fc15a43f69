import Verif.Spec.Answers
import Verif.Props.C75_Examples
import Verif.Props.C21_Verification
import Verif.Props.C24_C26_SpdxLib

/-!
# What the tools look at
-/

namespace Verif
open Spec

/-- What the tools look at in a file. -/
def gistFile (f : FileV) : FileV :=
  { name := f.name, spdxId := f.spdxId, checksums := f.checksums, licenseConcluded := f.licenseConcluded }

/-- What the tools look at in a package. -/
def gistPackage (p : PackageV) : PackageV :=
  { name := p.name, spdxId := p.spdxId, filesAnalyzed := p.filesAnalyzed, files := p.files.map gistFile }

/-- What the tools look at in a document. -/
def gist (d : Doc) : Doc :=
  { packages := d.packages.map gistPackage, files := d.files.map gistFile, relationships := d.relationships }

theorem map_gist_names (l : List FileV) : (l.map gistFile).map (·.name) = l.map (·.name) := by
  rw [List.map_map]; rfl

theorem map_gist_ids (l : List PackageV) : (l.map gistPackage).map (·.spdxId) = l.map (·.spdxId) := by
  rw [List.map_map]; rfl

theorem validate_gist (d : Doc) : validateDocument ((gist d).packages.map some) ((gist d).files.map some) ((gist d).relationships.map some) =
    validateDocument (d.packages.map some) (d.files.map some) (d.relationships.map some) := by
  simp only [validateDocument, elementIds_some, gist]
  simp only [List.map_map]
  rfl

theorem described_gist (so : Sorter) (d : Doc) :
    getDescribedPackageIDs so ((gist d).packages.map some) ((gist d).relationships.map some) =
      getDescribedPackageIDs so (d.packages.map some) (d.relationships.map some) := by
  simp only [gist]
  rcases d.packages with _ | ⟨p, _ | ⟨q, ps⟩⟩ <;> rfl

theorem countLicenses_gist (l : List FileV) : ∀ c, countLicenses c ((l.map gistFile).map some) = countLicenses c (l.map some) := by
  induction l with
  | nil => intro c; rfl
  | cons f l ih => intro c; exact ih _

theorem printReport_gist (co : CountSorter) (p : PackageV) :
    printReport co (gistPackage p).filesAnalyzed ((gistPackage p).files.map some) = printReport co p.filesAnalyzed (p.files.map some) := by
  simp only [printReport, generate, gistPackage, countLicenses_gist]

theorem digests_gist (exclude : Str) (l : List FileV) : digests exclude (l.map gistFile) = digests exclude l := by
  induction l with
  | nil => rfl
  | cons f l ih =>
    simp only [digests, List.map_cons, List.filter_cons] at ih ⊢
    by_cases h : f.name = exclude
    · simpa [gistFile, h] using ih
    · simp only [gistFile, h, ne_eq, not_false_eq_true, decide_true, if_true, List.flatMap_cons]
      rw [← ih]

theorem addFirst_gist (l : List FileV) : ∀ m, addFirst m ((l.map gistFile).map some) = addFirst m (l.map some) := by
  induction l with
  | nil => intro c; rfl
  | cons f l ih => intro c; exact ih _

theorem addSecond_gist (l : List FileV) : ∀ m, addSecond m ((l.map gistFile).map some) = addSecond m (l.map some) := by
  induction l with
  | nil => intro c; rfl
  | cons f l ih => intro c; exact ih _

theorem makePairs_gist (l m : List FileV) :
    makePairs ((l.map gistFile).map some) ((m.map gistFile).map some) = makePairs (l.map some) (m.map some) := by
  simp only [makePairs, addFirst_gist, addSecond_gist]

theorem findPackage_gist (id : Str) (ps : List PackageV) : findPackage id (ps.map gistPackage) = (findPackage id ps).map gistPackage := by
  induction ps with
  | nil => rfl
  | cons p ps ih =>
    rw [List.map_cons, findPackage, findPackage, ih]
    show (if p.spdxId = id then _ else _) = _
    split <;> rfl

theorem diffFirst_gist (po : PairOrder) (d e : Doc) (id : Str) : diffFirst po (gist d) (gist e) id = diffFirst po d e id := by
  simp only [diffFirst, gist, findPackage_gist]
  cases findPackage id d.packages with
  | none => rfl
  | some p =>
    cases findPackage id e.packages with
    | none => rfl
    | some q =>
      simp only [Option.map_some, gistPackage, makePairs_gist]

theorem diffSecond_gist (d e : Doc) (id : Str) : diffSecond (gist d) (gist e) id = diffSecond d e id := by
  simp only [diffSecond, gist, findPackage_gist]
  cases findPackage id e.packages with
  | none => rfl
  | some p =>
    cases findPackage id d.packages with
    | none => rfl
    | some q => rfl

theorem diffAllFirst_gist (po : PairOrder) (d e : Doc) (ids : List Str) :
    diffAllFirst po (gist d) (gist e) ids = diffAllFirst po d e ids := by
  induction ids with
  | nil => rfl
  | cons id ids ih => rw [diffAllFirst, diffAllFirst, ih, diffFirst_gist]

theorem diffProgram_gist (so : Sorter) (po : PairOrder) (d e : Doc) : diffProgram so po (gist d) (gist e) = diffProgram so po d e := by
  have h : diffSecond (gist d) (gist e) = diffSecond d e := funext fun id => diffSecond_gist d e id
  simp only [diffProgram, described_gist, diffAllFirst_gist, h]

theorem reportLoop_gist (co : CountSorter) (ids : List Str) (ps : List PackageV) :
    reportLoop co ids (ps.map gistPackage) = reportLoop co ids ps := by
  induction ps with
  | nil => rfl
  | cons p ps ih =>
    rw [List.map_cons, reportLoop, reportLoop, ih, printReport_gist]
    simp [gistPackage]

theorem reportProgram_gist (so : Sorter) (co : CountSorter) (d : Doc) : reportProgram so co (gist d) = reportProgram so co d := by
  simp only [reportProgram, described_gist]
  simp only [gist, reportLoop_gist]

theorem pointwise_of_map {α β : Type} {R : α → α → Prop} (f : α → β) (hR : ∀ a b, f a = f b → R a b) :
    ∀ {l m : List α}, l.map f = m.map f → Pointwise R l m
  | [], [], _ => .nil
  | [], _ :: _, h => by simp at h
  | _ :: _, [], h => by simp at h
  | a :: l, b :: m, h => by
    simp only [List.map_cons, List.cons.injEq] at h
    exact .cons (hR a b h.1) (pointwise_of_map f hR h.2)

theorem code_gist {so so' : Sorter} {sha1 : Str → Str} {exclude : Str} {l m : List FileV} (h : (l.map gistFile).Perm (m.map gistFile)) :
    getVerificationCode so sha1 (l.map some) exclude = getVerificationCode so' sha1 (m.map some) exclude := by
  refine C21_only_digests so so' sha1 l m exclude ?_
  rw [← digests_gist exclude l, ← digests_gist exclude m]
  exact (h.filter _).flatMap_right _

theorem sameAnswers_of_gist {d e : Doc} (h : gist d = gist e) : SameAnswers d e where
  valid := by rw [← validate_gist, h, validate_gist]
  described := fun so => by rw [← described_gist, h, described_gist]
  packages := by
    have hp : d.packages.map gistPackage = e.packages.map gistPackage := congrArg (·.packages) h
    refine pointwise_of_map gistPackage (fun p q e => ⟨?_, fun co => ?_, fun so sha1 exclude => ?_⟩) hp
    · exact congrArg (·.spdxId) e
    · rw [← printReport_gist, e, printReport_gist]
    · exact code_gist (by rw [show p.files.map gistFile = q.files.map gistFile from congrArg (·.files) e])
  report := fun so co => by rw [← reportProgram_gist, h, reportProgram_gist]
  compare := fun so po f => by
    rw [← diffProgram_gist, ← diffProgram_gist so po f d, h, diffProgram_gist, diffProgram_gist]
    exact ⟨rfl, rfl⟩

/-! ## Another order -/

theorem gist_pointwise {l m : List FileV} (h : Pointwise SameFile l m) : l.map gistFile = m.map gistFile := by
  induction h with
  | nil => rfl
  | cons h _ ih =>
    rw [List.map_cons, List.map_cons, ih, h.1]
    rfl

theorem gist_sameFiles {l m : List FileV} (h : SameFiles l m) : (l.map gistFile).Perm (m.map gistFile) := by
  obtain ⟨l', h1, h2⟩ := h
  rw [← gist_pointwise h2]
  exact h1.map _

theorem counted_perm {l m : List FileV} (h : (l.map gistFile).Perm (m.map gistFile)) : ∃ a b c c',
    countLicenses (0, 0, []) (l.map some) = .ok (a, b, c) ∧ countLicenses (0, 0, []) (m.map some) = .ok (a, b, c') ∧ c.Perm c' := by
  have start : Counted [] (0, 0, []) := ⟨rfl, rfl, by simp, by simp [mapGet, countOf], rfl⟩
  obtain ⟨⟨a, b, c⟩, h1, h2⟩ := countLicenses_counted (l.map gistFile) [] (0, 0, []) start
  obtain ⟨⟨a', b', c'⟩, h3, h4⟩ := countLicenses_counted (m.map gistFile) [] (0, 0, []) start
  rw [countLicenses_gist] at h1 h3
  simp only [List.nil_append] at h2 h4
  have ea : a = a' := by rw [show a = _ from h2.found, show a' = _ from h4.found, (h.filter _).length_eq]
  have eb : b = b' := by rw [show b = _ from h2.notFound, show b' = _ from h4.notFound, (h.filter _).length_eq]
  subst ea eb
  refine ⟨a, b, c, c', h1, h3, ?_⟩
  have hn : ∀ {x : List (Str × Nat)}, (x.map (·.1)).Nodup → x.Nodup := fun h => (List.pairwise_map.1 h).imp fun h e => h (congrArg (·.1) e)
  refine (List.perm_ext_iff_of_nodup (hn h2.nodup) (hn h4.nodup)).2 ?_
  rintro ⟨lic, n⟩
  rw [← mapGet_eq_some_iff h2.nodup, ← mapGet_eq_some_iff h4.nodup]
  show mapGet lic (a, b, c).2.2 = _ ↔ mapGet lic (a, b, c').2.2 = _
  rw [h2.get, h4.get]
  have : countOf (l.map gistFile) lic = countOf (m.map gistFile) lic := (h.filter _).length_eq
  rw [this]

theorem report_perm (co : CountSorter) (analyzed : Bool) {l m : List FileV} (h : (l.map gistFile).Perm (m.map gistFile)) :
    ∃ co', printReport co analyzed (l.map some) = printReport co' analyzed (m.map some) := by
  obtain ⟨a, b, c, c', h1, h2, h3⟩ := counted_perm h
  refine ⟨⟨fun x => if x = c' then co.run c else co.run x, fun x => ?_, fun x => ?_⟩, ?_⟩
  · split
    · next e => subst e; exact (co.perm c).trans h3
    · exact co.perm x
  · split
    · exact co.sorted c
    · exact co.sorted x
  · unfold printReport generate
    cases analyzed with
    | false => rfl
    | true => simp [h1, h2]

theorem gist_names {l m : List FileV} (h : (l.map gistFile).Perm (m.map gistFile)) : (l.map (·.name)).Perm (m.map (·.name)) := by
  have := h.map (fun f => f.name)
  rwa [map_gist_names, map_gist_names] at this

theorem hasFile_perm {l m : List FileV} (h : (l.map gistFile).Perm (m.map gistFile)) (n : Str) : HasFile l n ↔ HasFile m n := by
  have := (gist_names h).mem_iff (a := n)
  simpa [HasFile] using this

theorem shows_perm {l m : List FileV} (h : (l.map gistFile).Perm (m.map gistFile)) (hl : (l.map (·.name)).Nodup) (n lic : Str) :
    Shows l n lic ↔ Shows m n lic := by
  have one : ∀ {l m : List FileV}, (l.map gistFile).Perm (m.map gistFile) → (m.map (·.name)).Nodup → ∀ {lic}, Shows l n lic → Shows m n lic := by
    intro l m h hm lic hs
    rcases hs with ⟨b, f, a, rfl, e1, e2, -⟩ | ⟨h1, h2⟩
    · obtain ⟨g, hg, e⟩ := List.mem_map.1 (h.mem_iff.1 (List.mem_map.2 ⟨f, by simp, rfl⟩))
      have := C27_distinct m hm g hg
      rw [show g.name = n from (congrArg (·.name) e).trans e1,
        show g.licenseConcluded = lic from (congrArg (·.licenseConcluded) e).trans e2] at this
      exact this
    · exact .inr ⟨fun hh => h1 ((hasFile_perm h n).2 hh), h2⟩
  exact ⟨one h ((gist_names h).nodup_iff.1 hl), one h.symm hl⟩

theorem compared_perm {l m l' m' : List FileV} (hs : ∀ n lic, Shows l n lic ↔ Shows l' n lic) (hh : ∀ n, HasFile l n ↔ HasFile l' n)
    (hs' : ∀ n lic, Shows m n lic ↔ Shows m' n lic) (hh' : ∀ n, HasFile m n ↔ HasFile m' n) {a b c d : Nat}
    (h : Compared l m a b c d) : Compared l' m' a b c d := by
  obtain ⟨h1, h2, h3, h4⟩ := h
  simp only [hs, hs', hh, hh'] at h1 h2 h3 h4
  exact ⟨h1, h2, h3, h4⟩

/-- Two lists of packages in which the same packages are found. -/
def SameFound (ps qs : List PackageV) : Prop :=
  (∀ id, NoPackage ps id → NoPackage qs id) ∧
  ∀ id p, PackageOf ps id p → ∃ q, PackageOf qs id q ∧ q.name = p.name ∧ (∀ n lic, Shows p.files n lic ↔ Shows q.files n lic) ∧
    ∀ n, HasFile p.files n ↔ HasFile q.files n

theorem SameFound.refl (ps : List PackageV) : SameFound ps ps :=
  ⟨fun _ h => h, fun _ p h => ⟨p, h, rfl, fun _ _ => .rfl, fun _ => .rfl⟩⟩

theorem pointwise_members {α β : Type} {R : α → β → Prop} {l : List α} {m : List β} (h : Pointwise R l m) :
    (∀ a ∈ l, ∃ b ∈ m, R a b) ∧ ∀ b ∈ m, ∃ a ∈ l, R a b := by
  induction h with
  | nil => exact ⟨by simp, by simp⟩
  | cons h _ ih =>
    refine ⟨fun a ha => ?_, fun b hb => ?_⟩
    · rcases List.mem_cons.1 ha with rfl | ha
      · exact ⟨_, by simp, h⟩
      · obtain ⟨b, hb, e⟩ := ih.1 a ha
        exact ⟨b, List.mem_cons_of_mem _ hb, e⟩
    · rcases List.mem_cons.1 hb with rfl | hb
      · exact ⟨_, by simp, h⟩
      · obtain ⟨a, ha, e⟩ := ih.2 b hb
        exact ⟨a, List.mem_cons_of_mem _ ha, e⟩

theorem packageOf_mem {ps : List PackageV} (hn : (ps.map (·.spdxId)).Nodup) {p : PackageV} (hp : p ∈ ps) : PackageOf ps p.spdxId p := by
  obtain ⟨b, a, rfl⟩ := List.append_of_mem hp
  refine ⟨b, a, rfl, rfl, fun q hq e => ?_⟩
  simp only [List.map_append, List.map_cons, List.nodup_append, List.mem_cons, List.mem_map] at hn
  exact hn.2.2 _ ⟨q, hq, rfl⟩ _ (.inl rfl) e

theorem samePackages_ids {ps qs : List PackageV} (h : SamePackages ps qs) : (ps.map (·.spdxId)).Perm (qs.map (·.spdxId)) := by
  obtain ⟨l, h1, h2⟩ := h
  have : l.map (·.spdxId) = qs.map (·.spdxId) := by
    clear h1
    induction h2 with
    | nil => rfl
    | cons h _ ih => rw [List.map_cons, List.map_cons, ih, h.1]
  rw [← this]
  exact h1.map _

theorem sameFound_of {ps qs : List PackageV} (h : SamePackages ps qs) (hn : (ps.map (·.spdxId)).Nodup)
    (hf : ∀ p ∈ ps, (p.files.map (·.name)).Nodup) : SameFound ps qs ∧ SameFound qs ps := by
  have ids := samePackages_ids h
  have hn' := ids.nodup_iff.1 hn
  have hnone : ∀ id, NoPackage ps id ↔ NoPackage qs id := by
    intro id
    have := ids.mem_iff (a := id)
    simp only [List.mem_map] at this
    constructor
    · intro h q hq e
      obtain ⟨p, hp, e'⟩ := this.2 ⟨q, hq, e⟩
      exact h p hp e'
    · intro h q hq e
      obtain ⟨p, hp, e'⟩ := this.1 ⟨q, hq, e⟩
      exact h p hp e'
  obtain ⟨l, h1, h2⟩ := h
  refine ⟨⟨fun id => (hnone id).1, fun id p hp => ?_⟩, ⟨fun id => (hnone id).2, fun id q hq => ?_⟩⟩
  · obtain ⟨b, a, e, rfl, -⟩ := hp
    have hp : p ∈ ps := by rw [e]; simp
    obtain ⟨q, hq, hs⟩ := (pointwise_members h2).1 p (h1.mem_iff.1 hp)
    have hg := gist_sameFiles hs.2
    refine ⟨q, ?_, by rw [hs.1], shows_perm hg (hf p hp), hasFile_perm hg⟩
    have : q.spdxId = p.spdxId := by rw [hs.1]
    rw [← this]
    exact packageOf_mem hn' hq
  · obtain ⟨b, a, e, rfl, -⟩ := hq
    have hq : q ∈ qs := by rw [e]; simp
    obtain ⟨p, hp, hs⟩ := (pointwise_members h2).2 q hq
    have hp' := h1.mem_iff.2 hp
    have hg := gist_sameFiles hs.2
    refine ⟨p, ?_, by rw [hs.1], fun n lic => (shows_perm hg (hf p hp') n lic).symm, fun n => (hasFile_perm hg n).symm⟩
    have : q.spdxId = p.spdxId := by rw [hs.1]
    rw [this]
    exact packageOf_mem hn hp'

theorem firstSection_found {ps1 ps2 qs1 qs2 : List PackageV} (h1 : SameFound ps1 qs1) (h2 : SameFound ps2 qs2) {id s : Str}
    (h : FirstSection ps1 ps2 id s) : FirstSection qs1 qs2 id s := by
  cases h with
  | missing h => exact .missing (h1.1 id h)
  | alone h h' =>
    obtain ⟨q, hq, e, -⟩ := h1.2 _ _ h
    rw [← e]
    exact .alone hq (h2.1 id h')
  | both h h' hc =>
    obtain ⟨q, hq, e, hs, hh⟩ := h1.2 _ _ h
    obtain ⟨q', hq', -, hs', hh'⟩ := h2.2 _ _ h'
    rw [← e]
    exact .both hq hq' (compared_perm hs hh hs' hh' hc)

theorem secondSection_found {ps1 ps2 qs1 qs2 : List PackageV} (h1 : SameFound ps1 qs1) (h2 : SameFound ps2 qs2) {id s : Str}
    (h : SecondSection ps1 ps2 id s) : SecondSection qs1 qs2 id s := by
  cases h with
  | missing h => exact .missing (h2.1 id h)
  | alone h h' =>
    obtain ⟨q, hq, e, -⟩ := h2.2 _ _ h
    rw [← e]
    exact .alone hq (h1.1 id h')
  | shared h h' =>
    obtain ⟨q, hq, -⟩ := h1.2 _ _ h
    obtain ⟨q', hq', -⟩ := h2.2 _ _ h'
    exact .shared hq hq'

theorem secondSection_unique {ps1 ps2 : List PackageV} {id s t : Str} (hs : SecondSection ps1 ps2 id s) (ht : SecondSection ps1 ps2 id t) :
    s = t := by
  cases hs with
  | missing h =>
    cases ht with
    | missing _ => rfl
    | alone h' _ => exact absurd h (packageOf_not_none h')
    | shared _ h' => exact absurd h (packageOf_not_none h')
  | alone h g =>
    cases ht with
    | missing h' => exact absurd h' (packageOf_not_none h)
    | alone h' _ => rw [packageOf_unique h h']
    | shared g' _ => exact absurd g (packageOf_not_none g')
  | shared g h =>
    cases ht with
    | missing h' => exact absurd h' (packageOf_not_none h)
    | alone _ g' => exact absurd g' (packageOf_not_none g)
    | shared _ _ => rfl

theorem diffProgram_found {so so' : Sorter} {po po' : PairOrder} {d1 d2 e1 e2 : Doc} (h1 : SameFound d1.packages e1.packages)
    (h2 : SameFound d2.packages e2.packages)
    (g1 : getDescribedPackageIDs so (d1.packages.map some) (d1.relationships.map some) =
      getDescribedPackageIDs so' (e1.packages.map some) (e1.relationships.map some))
    (g2 : getDescribedPackageIDs so (d2.packages.map some) (d2.relationships.map some) =
      getDescribedPackageIDs so' (e2.packages.map some) (e2.relationships.map some)) :
    diffProgram so po d1 d2 = diffProgram so' po' e1 e2 := by
  have ha : ∀ ids, diffAllFirst po d1 d2 ids = diffAllFirst po' e1 e2 ids := by
    intro ids
    induction ids with
    | nil => rfl
    | cons id ids ih =>
      obtain ⟨s, hs, hs'⟩ := diffFirst_section po d1 d2 id
      obtain ⟨t, ht, ht'⟩ := diffFirst_section po' e1 e2 id
      rw [diffAllFirst, diffAllFirst, hs, ht, ih, C75_section_unique _ _ _ _ _ (firstSection_found h1 h2 hs') ht']
  have hb : diffSecond d1 d2 = diffSecond e1 e2 := funext fun id =>
    secondSection_unique (secondSection_found h1 h2 (diffSecond_section d1 d2 id)) (diffSecond_section e1 e2 id)
  simp only [diffProgram, g1, g2, ha, hb]

theorem validate_ids {ps qs : List PackageV} {fs gs : List FileV} (hp : (ps.map (·.spdxId)).Perm (qs.map (·.spdxId)))
    (hf : (fs.map (·.spdxId)).Perm (gs.map (·.spdxId))) (rs : List Relationship) :
    validateDocument (ps.map some) (fs.map some) (rs.map some) = validateDocument (qs.map some) (gs.map some) (rs.map some) := by
  have h := C24_order (ps.map fun p => { spdxId := p.spdxId }) (qs.map fun p => { spdxId := p.spdxId })
    (fs.map fun p => { spdxId := p.spdxId }) (gs.map fun p => { spdxId := p.spdxId }) rs rs
    (by have := hp.map (fun i => ({ spdxId := i } : PackageV)); rwa [List.map_map, List.map_map] at this)
    (by have := hf.map (fun i => ({ spdxId := i } : FileV)); rwa [List.map_map, List.map_map] at this) (.refl _)
  simp only [validateDocument, elementIds_some] at h ⊢
  simp only [List.map_map, Function.comp_def] at h
  exact h

theorem described_same {so so' : Sorter} {ps qs : List PackageV} (hp : (ps.map (·.spdxId)).Perm (qs.map (·.spdxId)))
    (rs : List Relationship) :
    getDescribedPackageIDs so (ps.map some) (rs.map some) = getDescribedPackageIDs so' (qs.map some) (rs.map some) := by
  have hl := hp.length_eq
  rcases ps with _ | ⟨p, _ | ⟨p', ps⟩⟩ <;> rcases qs with _ | ⟨q, _ | ⟨q', qs⟩⟩ <;> simp at hl
  · rfl
  · have : p.spdxId = q.spdxId := by simpa using hp
    show Res.ok [p.spdxId] = .ok [q.spdxId]
    rw [this]
  · simp only [List.map_cons, getDescribedPackageIDs, sortElementIDs]
    split
    · rfl
    · cases filterRelationships describedBy () (rs.map some) with
      | ok x =>
        simp only [Res.bind_ok]
        rw [sort_keys_eq so so' (.refl _)]
      | err => rfl
      | panic => rfl

theorem likeAnswers_of {d e : Doc} (h : SameDoc d e) : LikeAnswers d e := by
  have hr : e.relationships = d.relationships := by rw [h.rest]
  have hids := samePackages_ids h.packages
  have hfs : (d.files.map (·.spdxId)).Perm (e.files.map (·.spdxId)) := by
    have := (gist_sameFiles h.files).map (·.spdxId)
    rw [List.map_map, List.map_map] at this
    exact this
  refine ⟨?_, fun so so' => ?_, ?_, fun hd so po f => ?_⟩
  · rw [hr]; exact validate_ids hids hfs _
  · rw [hr]; exact described_same hids _
  · obtain ⟨l, h1, h2⟩ := h.packages
    refine ⟨l, h1, ?_⟩
    clear h1
    generalize e.packages = qs at h2
    induction h2 with
    | nil => exact .nil
    | cons hpq _ ih =>
      refine .cons ⟨by rw [hpq.1], fun co => ?_, fun so so' sha1 exclude => code_gist (gist_sameFiles hpq.2)⟩ ih
      have e := congrArg (·.filesAnalyzed) hpq.1
      simp only at e
      rw [e]
      exact report_perm co _ (gist_sameFiles hpq.2)
  · obtain ⟨h1, h2⟩ := sameFound_of h.packages hd.packages hd.files
    have hg := described_same (so := so) (so' := so) hids d.relationships
    rw [← hr] at hg
    rw [hr] at hg
    exact ⟨diffProgram_found h1 (.refl _) (by rw [hr]; exact hg) rfl, diffProgram_found (.refl _) h1 rfl (by rw [hr]; exact hg)⟩

end Verif
