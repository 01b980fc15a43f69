import Verif.Spec.Utils
import Verif.Lemmas.Sort

/-!
# C21: the package verification code
-/

namespace Verif
open Spec

theorem sha1sOf_eq (x : Str) (f : FileV) :
    sha1sOf x f = digests x [f] := by
  have : ∀ l : List Checksum, (l.filter fun c => decide (c.algorithm = g!"SHA1")).map (·.value) =
      l.filterMap fun c => if c.algorithm = g!"SHA1" then some c.value else none := by
    intro l
    induction l with
    | nil => rfl
    | cons c l ih =>
      by_cases h : c.algorithm = g!"SHA1"
      · simp only [List.filter_cons, h, decide_true, if_true, List.map_cons, List.filterMap_cons, ih]
      · simp only [List.filter_cons, h, decide_false, Bool.false_eq_true, if_false, List.filterMap_cons, ih]
  unfold sha1sOf digests
  by_cases h : f.name = x <;> simp [h, this]

theorem digests_cons (x : Str) (f : FileV) (l : List FileV) : digests x (f :: l) = digests x [f] ++ digests x l := by
  by_cases h : f.name = x <;> simp [digests, h]

theorem collect_some (x : Str) (acc : List Str) (files : List FileV) :
    collectSha1s x acc (files.map some) = .ok (acc ++ digests x files) := by
  induction files generalizing acc with
  | nil => simp [collectSha1s, digests]
  | cons f l ih => simp only [List.map_cons, collectSha1s]; rw [ih, digests_cons, sha1sOf_eq]; simp

theorem all_some {files : List (Option FileV)} (h : none ∉ files) : ∃ l : List FileV, files = l.map some := by
  induction files with
  | nil => exact ⟨[], rfl⟩
  | cons f t ih =>
    cases f with
    | none => simp at h
    | some f =>
      obtain ⟨l, rfl⟩ := ih (by simpa using h)
      exact ⟨f :: l, rfl⟩

theorem collect_none (x : Str) (acc : List Str) (files : List (Option FileV)) (h : none ∈ files) :
    collectSha1s x acc files = .err := by
  induction files generalizing acc with
  | nil => simp at h
  | cons f t ih =>
    cases f with
    | none => rfl
    | some f => exact ih _ (by simpa using h)

theorem join_nil (l : List Str) : join [] l = l.flatten := by
  induction l with
  | nil => rfl
  | cons a l ih =>
    cases l with
    | nil => simp [join]
    | cons b l => simp [join, ih]

/-- **C21.** The code is the SHA-1 of the digests of all files but the excluded one, in ascending order,
written one after the other; the excluded name is recorded if there is one. -/
theorem C21_formula (so : Sorter) (sha1 : Str → Str) (files : List FileV) (exclude : Str) :
    ∃ sorted : List Str, sorted.Perm (digests exclude files) ∧ SortedBy id sorted ∧
      getVerificationCode so sha1 (files.map some) exclude =
        .ok ⟨sha1 sorted.flatten, if exclude = [] then [] else [exclude]⟩ := by
  refine ⟨so.run id (digests exclude files), so.perm _ _, so.sorted _ _, ?_⟩
  simp only [getVerificationCode, collect_some, List.nil_append, Res.bind_ok, join_nil]
  by_cases h : exclude = [] <;> simp [h]

/-- **C21.** A nil file is an error, and nothing else is. -/
theorem C21_nil_file (so : Sorter) (sha1 : Str → Str) (files : List (Option FileV)) (exclude : Str) :
    getVerificationCode so sha1 files exclude = .err ↔ none ∈ files := by
  constructor
  · intro h
    apply Decidable.byContradiction
    intro hn
    obtain ⟨l, rfl⟩ := all_some hn
    obtain ⟨s, -, -, e⟩ := C21_formula so sha1 l exclude
    rw [h] at e; cases e
  · intro h
    simp [getVerificationCode, collect_none _ _ _ h]

/-- **C21.** The order of the files does not matter (nor how ties are sorted). -/
theorem C21_order (so so' : Sorter) (sha1 : Str → Str) (files files' : List (Option FileV)) (exclude : Str)
    (h : files.Perm files') :
    getVerificationCode so sha1 files exclude = getVerificationCode so' sha1 files' exclude := by
  by_cases hn : none ∈ files
  · rw [(C21_nil_file so sha1 files exclude).2 hn, (C21_nil_file so' sha1 files' exclude).2 (h.mem_iff.1 hn)]
  · obtain ⟨l, rfl⟩ := all_some hn
    obtain ⟨l', rfl⟩ := all_some (fun x => hn (h.mem_iff.2 x))
    have hp : l.Perm l' := by
      have := h.filterMap id
      simpa [List.filterMap_map] using this
    have hd : (digests exclude l).Perm (digests exclude l') := (hp.filter _).flatMap_right _
    simp only [getVerificationCode, collect_some, List.nil_append, Res.bind_ok]
    rw [sort_keys_eq so so' hd]

/-- **C21.** Nothing of the files matters but the digests that count. -/
theorem C21_only_digests (so so' : Sorter) (sha1 : Str → Str) (files files' : List FileV) (exclude : Str)
    (h : (digests exclude files).Perm (digests exclude files')) :
    getVerificationCode so sha1 (files.map some) exclude = getVerificationCode so' sha1 (files'.map some) exclude := by
  simp only [getVerificationCode, collect_some, List.nil_append, Res.bind_ok]
  rw [sort_keys_eq so so' h]

/-- **C21.** The excluded file may be there or not. -/
theorem C21_excluded_file (so so' : Sorter) (sha1 : Str → Str) (pre post : List FileV) (f : FileV) :
    getVerificationCode so sha1 ((pre ++ f :: post).map some) f.name =
      getVerificationCode so' sha1 ((pre ++ post).map some) f.name := by
  apply C21_only_digests
  simp [digests]

theorem flatten_inj {n : Nat} (hn : 0 < n) {l m : List Str} (hl : ∀ x ∈ l, x.length = n) (hm : ∀ x ∈ m, x.length = n)
    (h : l.flatten = m.flatten) : l = m := by
  induction l generalizing m with
  | nil =>
    cases m with
    | nil => rfl
    | cons b m =>
      have := congrArg List.length h
      have hb := hm b (by simp)
      simp at this
      omega
  | cons a l ih =>
    cases m with
    | nil =>
      have := congrArg List.length h
      have hb := hl a (by simp)
      simp only [List.flatten_cons, List.flatten_nil, List.length_append, List.length_nil] at this
      omega
    | cons b m =>
      simp only [List.flatten_cons] at h
      obtain ⟨h1, h2⟩ := List.append_inj h ((hl a (by simp)).trans (hm b (by simp)).symm)
      rw [h1, ih (fun x hx => hl x (by simp [hx])) (fun x hx => hm x (by simp [hx])) h2]

/-- **C21.** The code tells different contents apart: if the digests all have the same length (as SHA-1
digests do) and SHA-1 does not confuse texts put together from them, then equal codes mean the same
digests, each as often. -/
theorem C21_code_determines_digests (so so' : Sorter) (sha1 : Str → Str) (files files' : List FileV) (exclude : Str)
    (n : Nat) (hn : 0 < n) (hl : ∀ x ∈ digests exclude files, x.length = n)
    (hl' : ∀ x ∈ digests exclude files', x.length = n)
    (noCollision : ∀ l l' : List Str, l.Perm (digests exclude files) → l'.Perm (digests exclude files') →
      sha1 l.flatten = sha1 l'.flatten → l.flatten = l'.flatten)
    (h : getVerificationCode so sha1 (files.map some) exclude = getVerificationCode so' sha1 (files'.map some) exclude) :
    (digests exclude files).Perm (digests exclude files') := by
  simp only [getVerificationCode, collect_some, List.nil_append, Res.bind_ok, Res.ok.injEq,
    VerificationCode.mk.injEq, and_true, join_nil] at h
  have := flatten_inj hn (fun x hx => hl x ((so.mem _ _ _).1 hx)) (fun x hx => hl' x ((so'.mem _ _ _).1 hx))
    (noCollision _ _ (so.perm _ _) (so'.perm _ _) h)
  exact (so.perm id _).symm.trans (this ▸ so'.perm id _)

/-! ## Concrete cases -/

/-- Two files with SHA1 digests, one without, and the excluded one. -/
def C21_files : List FileV :=
  [{ name := g!"a", checksums := [⟨g!"MD5", g!"9"⟩, ⟨g!"SHA1", g!"22"⟩] }, { name := g!"b" },
   { name := g!"x.spdx", checksums := [⟨g!"SHA1", g!"00"⟩] }, { name := g!"c", checksums := [⟨g!"SHA1", g!"11"⟩] }]

example : digests g!"x.spdx" C21_files = [g!"22", g!"11"] ∧
    getVerificationCode insertionSorter id (C21_files.map some) g!"x.spdx" = .ok ⟨g!"1122", [g!"x.spdx"]⟩ := by
  decide

/-- Without the length condition the code does not tell contents apart. -/
theorem C21_boundary_false :
    getVerificationCode insertionSorter id
      [some { name := g!"a", checksums := [⟨g!"SHA1", g!"1"⟩] }, some { name := g!"b", checksums := [⟨g!"SHA1", g!"23"⟩] }] [] =
    getVerificationCode insertionSorter id
      [some { name := g!"a", checksums := [⟨g!"SHA1", g!"12"⟩] }, some { name := g!"b", checksums := [⟨g!"SHA1", g!"3"⟩] }] [] := by
  decide

end Verif
