import Verif.Lemmas.ParserSteps
import Verif.Lemmas.OptionList

/-!
# From the parser's heap to the document it denotes
-/

namespace Verif
open Spec


theorem deref_file_ok {v : Version} {s : Parser} (h : Core v s) {i : Nat} (hi : GoodFile s.files i) :
    ∃ f, derefFileRef s i = some f := by
  obtain ⟨f, hf, -⟩ := hi
  have hok := h.files f (List.mem_of_getElem? hf)
  have : ∃ sn, f.snippets.mapM (fun (k, i) => (s.snips[i]?).map fun x => (k, x)) = some sn := by
    refine mapM_some_of_forall ?_
    rintro ⟨k, j⟩ hkj
    obtain ⟨x, hx, -⟩ := hok.snippets k j hkj
    exact ⟨(k, x), by simp [hx]⟩
  obtain ⟨sn, hsn⟩ := this
  exact ⟨{ f with snippets := sn }, by simp [derefFileRef, derefFile, hf, hsn]⟩

theorem deref_pkg_ok {v : Version} {s : Parser} (h : Core v s) {i : Nat} (hi : GoodPkg s.pkgs i) :
    ∃ p, derefPackageRef s i = some p := by
  obtain ⟨p, hp, -⟩ := hi
  have hok := h.pkgs p (List.mem_of_getElem? hp)
  obtain ⟨fs, hfs⟩ := mapM_some_of_forall (f := derefFileRef s) (fun i hi => deref_file_ok h (hok.files i hi))
  exact ⟨{ p with files := fs }, by simp [derefPackageRef, hp, hfs]⟩

theorem deref_doc_ok {v : Version} {s : Parser} (h : Core v s) {d : HDoc} (hd : DocOK v s.pkgs s.files d) :
    ∃ doc, derefDoc s d = some doc := by
  obtain ⟨ps, hps⟩ := mapM_some_of_forall (f := derefPackageRef s) (fun i hi => deref_pkg_ok h (hd.packages i hi))
  obtain ⟨fs, hfs⟩ := mapM_some_of_forall (f := derefFileRef s) (fun i hi => deref_file_ok h (hd.files i hi))
  exact ⟨{ d with packages := ps, files := fs }, by simp [derefDoc, hps, hfs]⟩

/-- What a file of the result satisfies. -/
structure FileGood (v : Version) (f : FileV) : Prop where
  id : IdOK f.spdxId
  checksums : ∀ c ∈ f.checksums, c.algorithm ∈ knownAlgorithms v
  snippets : ∀ k x, (k, x) ∈ f.snippets → x.spdxId = k ∧ IdOK k

theorem fileGood_of_deref {v : Version} {s : Parser} (h : Core v s) {i : Nat} (hi : GoodFile s.files i) {f : FileV}
    (hf : derefFileRef s i = some f) : FileGood v f := by
  obtain ⟨g, hg, hid⟩ := hi
  have hok := h.files g (List.mem_of_getElem? hg)
  simp only [derefFileRef, hg, derefFile, Option.bind_eq_bind, Option.bind_some, Option.bind_eq_some_iff,
    Option.pure_def, Option.some.injEq] at hf
  obtain ⟨sn, hsn, rfl⟩ := hf
  refine ⟨hid, hok.checksums, ?_⟩
  intro k x hkx
  obtain ⟨⟨k', j⟩, hm, hx⟩ := mapM_some_mem hsn _ hkx
  obtain ⟨y, hy, hyk, hk⟩ := hok.snippets k' j hm
  simp only [hy, Option.map_some, Option.some.injEq, Prod.mk.injEq] at hx
  obtain ⟨rfl, rfl⟩ := hx
  exact ⟨hyk, hk⟩

/-- What a package of the result satisfies. -/
structure PkgGood (v : Version) (p : PackageV) : Prop where
  id : IdOK p.spdxId
  checksums : ∀ c ∈ p.checksums, c.algorithm ∈ knownAlgorithms v
  supplier : ∀ x, p.supplier = some x → SupplierOK x
  originator : ∀ x, p.originator = some x → OriginatorOK x
  files : ∀ f ∈ p.files, FileGood v f

theorem pkgGood_of_deref {v : Version} {s : Parser} (h : Core v s) {i : Nat} (hi : GoodPkg s.pkgs i) {p : PackageV}
    (hp : derefPackageRef s i = some p) : PkgGood v p := by
  obtain ⟨q, hq, hid⟩ := hi
  have hok := h.pkgs q (List.mem_of_getElem? hq)
  simp only [derefPackageRef, hq, Option.bind_eq_bind, Option.bind_some, Option.bind_eq_some_iff,
    Option.pure_def, Option.some.injEq] at hp
  obtain ⟨fs, hfs, rfl⟩ := hp
  refine ⟨hid, hok.checksums, hok.supplier, hok.originator, ?_⟩
  intro f hf
  obtain ⟨j, hj, hfj⟩ := mapM_some_mem hfs _ hf
  exact fileGood_of_deref h (hok.files j hj) hfj

/-- What a parsed document satisfies. -/
structure DocGood (v : Version) (d : Doc) : Prop where
  packages : ∀ p ∈ d.packages, PkgGood v p
  files : ∀ f ∈ d.files, FileGood v f
  creators : ∀ c, d.creationInfo = some c → ∀ x ∈ c.creators, KindOK3 x.creatorType
  relationships : ∀ r ∈ d.relationships, RelOK v r
  annotations : ∀ a ∈ d.annotations, KindOK3 a.annotator.annotatorType
  reviews : ∀ r ∈ d.reviews, KindOK3 r.reviewerType

theorem docGood_of_deref {v : Version} {s : Parser} (h : Core v s) {d : HDoc} (hd : DocOK v s.pkgs s.files d) {doc : Doc}
    (hdoc : derefDoc s d = some doc) : DocGood v doc := by
  simp only [derefDoc, Option.bind_eq_bind, Option.bind_eq_some_iff, Option.pure_def, Option.some.injEq] at hdoc
  obtain ⟨ps, hps, fs, hfs, rfl⟩ := hdoc
  refine ⟨?_, ?_, hd.creators, hd.relationships, hd.annotations, hd.reviews⟩
  · intro p hp
    obtain ⟨j, hj, hpj⟩ := mapM_some_mem hps _ hp
    exact pkgGood_of_deref h (hd.packages j hj) hpj
  · intro f hf
    obtain ⟨j, hj, hfj⟩ := mapM_some_mem hfs _ hf
    exact fileGood_of_deref h (hd.files j hj) hfj

theorem parsed_cases (v : Version) (tvs : List TVPair) :
    parseTagValues v tvs = .err ∨ (parsePairs v {} tvs = .ok {} ∧ parseTagValues v tvs = .ok none) ∨
    (∃ d, parseTagValues v tvs = .ok (some d) ∧ DocGood v d) := by
  obtain ⟨hnp, hinv⟩ := parsePairs_inv (ps := tvs) (inv_init v)
  unfold parseTagValues
  cases hr : parsePairs v {} tvs with
  | panic => exact absurd hr hnp
  | err => left; rfl
  | ok s =>
    have hi := hinv s hr
    simp only [Res.bind_ok]
    rcases hi with rfl | ⟨hC, -⟩
    · right; left; simp [Parser.fileLacksId, Parser.pkgLacksId]
    · split
      · left; rfl
      · split
        · left; rfl
        · obtain ⟨d, hd, hok⟩ := hC.doc
          obtain ⟨doc, hdoc⟩ := deref_doc_ok hC hok
          right; right
          refine ⟨doc, ?_, docGood_of_deref hC hok hdoc⟩
          rw [hd]; simp only [hdoc]


end Verif
