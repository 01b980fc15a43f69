import Verif.Lemmas.SectionOpen

set_option linter.unusedSimpArgs false

/-!
# The sections of a text, read from the front
-/

namespace Verif
open Spec

/-! ## Related lists -/

theorem Spec.Pointwise.weaken {α β : Type} {R S : α → β → Prop} (hRS : ∀ a b, R a b → S a b) {l : List α} {m : List β}
    (h : Pointwise R l m) : Pointwise S l m := by
  induction h with
  | nil => exact .nil
  | cons h1 _ ih => exact .cons (hRS _ _ h1) ih

theorem Spec.Pointwise.app {α β : Type} {R : α → β → Prop} {l l' : List α} {m m' : List β} (h : Pointwise R l m)
    (h' : Pointwise R l' m') : Pointwise R (l ++ l') (m ++ m') := by
  induction h with
  | nil => exact h'
  | cons h1 _ ih => exact .cons h1 ih

theorem pointwise_each {α β γ : Type} {R : α → β → Prop} {a : α} {b : β} (h : R a b) (l : List γ) :
    Pointwise R (l.map fun _ => a) (l.map fun _ => b) := by
  induction l with
  | nil => exact .nil
  | cons x l ih => exact .cons h ih

theorem Spec.Pointwise.length {α β : Type} {R : α → β → Prop} {l : List α} {m : List β} (h : Pointwise R l m) :
    l.length = m.length := by
  induction h with
  | nil => rfl
  | cons _ _ ih => simp [ih]

theorem Spec.Pointwise.snoc_left {α β : Type} {R : α → β → Prop} {l : List α} {a : α} {m : List β}
    (h : Pointwise R (l ++ [a]) m) : ∃ m' b, m = m' ++ [b] ∧ Pointwise R l m' ∧ R a b := by
  induction l generalizing m with
  | nil =>
    cases h with
    | cons h1 h2 => cases h2; exact ⟨[], _, rfl, .nil, h1⟩
  | cons x l ih =>
    cases h with
    | cons h1 h2 =>
      obtain ⟨m', b, rfl, h3, h4⟩ := ih h2
      exact ⟨_ :: m', b, rfl, .cons h1 h3, h4⟩

/-- Looking up every element. -/
theorem mapM_pointwise {α β γ : Type} {f : β → Option γ} {R : α → γ → Prop} {l : List α} {is : List β}
    (h : Pointwise (fun a i => ∃ y, f i = some y ∧ R a y) l is) : ∃ ys, is.mapM f = some ys ∧ Pointwise R l ys := by
  induction h with
  | nil => exact ⟨[], rfl, .nil⟩
  | cons h1 _ ih =>
    obtain ⟨y, hy, hr⟩ := h1
    obtain ⟨ys, hys, hp⟩ := ih
    exact ⟨y :: ys, by simp [List.mapM_cons, hy, hys], .cons hr hp⟩

theorem listed_append {α : Type} (pairs : α → List TVPair) (l m : List α) :
    listed pairs (l ++ m) = listed pairs l ++ listed pairs m := by simp [listed]

theorem listed_one {α : Type} (pairs : α → List TVPair) (x : α) :
    listed pairs [x] = (values g!"SPDXID" (pairs x)).map fun _ => x := by simp [listed]

/-! ## The zipper -/

/-- The sections read so far: those that are complete, the package section and the file section open now. -/
structure Zip where
  loose : List FileSec := []
  packages : List PackageSec := []
  pk : Option PackageSec := none
  fl : Option FileSec := none

/-- A file section followed by the rest of the text. -/
def closeF (f : FileSec) (r : Sections) : FileSec :=
  if f.snippets = [] then { f with pairs := f.pairs ++ r.pairs, snippets := r.snippets }
  else { f with snippets := modLast (fun x => { x with pairs := x.pairs ++ r.pairs }) f.snippets ++ r.snippets }

/-- The sections read so far followed by the rest of the text. -/
def finish (z : Zip) (r : Sections) : List FileSec × List PackageSec × List SnippetSec :=
  match z.pk, z.fl with
  | none, none => (z.loose ++ r.files, z.packages ++ r.packages, r.snippets)
  | none, some f => (z.loose ++ [closeF f r] ++ r.files, z.packages ++ r.packages, [])
  | some k, none => (z.loose, z.packages ++
      [{ k with pairs := k.pairs ++ r.pairs, snippets := r.snippets, files := k.files ++ r.files }] ++ r.packages, [])
  | some k, some f => (z.loose, z.packages ++ [{ k with files := k.files ++ [closeF f r] ++ r.files }] ++ r.packages, [])

/-- The file sections before the first package section, when the one open now is complete. -/
def Zip.looseAll (z : Zip) : List FileSec := if z.pk = none then z.loose ++ z.fl.toList else z.loose

/-- The package sections, when the one open now is complete. -/
def Zip.packagesAll (z : Zip) : List PackageSec :=
  z.packages ++ (z.pk.map fun k => { k with files := k.files ++ z.fl.toList }).toList

/-- A package section is opened. -/
def Zip.openPackage (z : Zip) (name : Str) : Zip where
  loose := z.looseAll
  packages := z.packagesAll
  pk := some ⟨name, [], [], []⟩

/-- A file section is opened. -/
def Zip.openFile (z : Zip) (name : Str) : Zip where
  loose := z.looseAll
  packages := z.packages
  pk := z.pk.map fun k => { k with files := k.files ++ z.fl.toList }
  fl := some ⟨name, [], []⟩

/-- A snippet section is opened. -/
def Zip.openSnippet (z : Zip) (id : Str) : Zip :=
  { z with fl := z.fl.map fun f => { f with snippets := f.snippets ++ [⟨id, []⟩] } }

/-- A pair is added to the innermost section. -/
def Zip.add (z : Zip) (p : TVPair) : Zip :=
  match z.fl with
  | some f => { z with fl := some (if f.snippets = [] then { f with pairs := f.pairs ++ [p] }
      else { f with snippets := modLast (fun x => { x with pairs := x.pairs ++ [p] }) f.snippets }) }
  | none => { z with pk := z.pk.map fun k => { k with pairs := k.pairs ++ [p] } }

theorem modLast_ident {α : Type} {f : α → α} (h : ∀ x, f x = x) (l : List α) : modLast f l = l := by
  rw [show f = id from funext h]
  exact modLast_id id (fun _ => rfl) l

theorem modLast_comp {α : Type} (f g : α → α) (l : List α) : modLast f (modLast g l) = modLast (fun x => f (g x)) l := by
  rcases list_snoc l with rfl | ⟨l, x, rfl⟩
  · rfl
  · simp

theorem modLast_eq_nil {α : Type} (f : α → α) (l : List α) : modLast f l = [] ↔ l = [] := by
  rcases list_snoc l with rfl | ⟨l, x, rfl⟩ <;> simp

theorem closeF_closed (f : FileSec) (r : Sections) (h1 : r.pairs = []) (h2 : r.snippets = []) : closeF f r = f := by
  unfold closeF
  rw [h1, h2]
  split
  · rename_i h; cases f; simp at h ⊢; exact h
  · cases f; simp
    exact modLast_ident (fun x => rfl) _

theorem closeF_new (x : Str) (r : Sections) : closeF ⟨x, [], []⟩ r = ⟨x, r.pairs, r.snippets⟩ := by simp [closeF]

/-- No snippet section but behind a file section. -/
def Zip.Tidy (z : Zip) : Prop := ∀ k, z.pk = some k → k.snippets = []

theorem finish_openPackage {z : Zip} {p : TVPair} (ps : List TVPair) (hz : z.Tidy) (ht : p.tag = g!"PackageName") :
    finish (z.openPackage p.value) (sectionsFrom ps) = finish z (sectionsFrom (p :: ps)) := by
  simp only [sectionsFrom, ht, if_true]
  have hz' := hz
  unfold Zip.Tidy at hz
  cases hk : z.pk <;> cases hf : z.fl <;>
    simp [finish, Zip.openPackage, Zip.looseAll, Zip.packagesAll, hk, hf, closeF_closed]
  rename_i k; have := hz k hk; cases k; simp at this ⊢; exact this

theorem finish_openFile {z : Zip} {p : TVPair} (ps : List TVPair) (hz : z.Tidy) (ht : p.tag = g!"FileName") :
    finish (z.openFile p.value) (sectionsFrom ps) = finish z (sectionsFrom (p :: ps)) := by
  simp only [sectionsFrom, ht, if_true]
  rw [if_neg (by decide)]
  unfold Zip.Tidy at hz
  cases hk : z.pk <;> cases hf : z.fl <;>
    simp [finish, Zip.openFile, Zip.looseAll, Zip.packagesAll, hk, hf, closeF_closed, closeF_new]
  rename_i k; exact hz k hk

theorem finish_openSnippet {z : Zip} {p : TVPair} (ps : List TVPair) {f : FileSec} (hf : z.fl = some f)
    (ht : p.tag = g!"SnippetSPDXID") :
    finish (z.openSnippet p.value) (sectionsFrom ps) = finish z (sectionsFrom (p :: ps)) := by
  simp only [sectionsFrom, ht, if_true]
  rw [if_neg (by decide), if_neg (by decide)]
  have key : closeF { f with snippets := f.snippets ++ [⟨p.value, []⟩] } (sectionsFrom ps) =
      closeF f { sectionsFrom ps with pairs := [], snippets := ⟨p.value, (sectionsFrom ps).pairs⟩ :: (sectionsFrom ps).snippets } := by
    unfold closeF
    rw [if_neg (by simp)]
    split
    · rename_i h; simp [h, modLast]
    · simp; exact (modLast_ident (fun x => rfl) _).symm
  cases hk : z.pk <;> simp [finish, Zip.openSnippet, hk, hf, key]

theorem finish_add {z : Zip} {p : TVPair} (ps : List TVPair) (h1 : p.tag ≠ g!"PackageName") (h2 : p.tag ≠ g!"FileName")
    (h3 : p.tag ≠ g!"SnippetSPDXID") : finish (z.add p) (sectionsFrom ps) = finish z (sectionsFrom (p :: ps)) := by
  simp only [sectionsFrom, if_neg h1, if_neg h2, if_neg h3]
  cases hf : z.fl with
  | none => cases hk : z.pk <;> simp [finish, Zip.add, hk, hf]
  | some f =>
    have key : closeF (if f.snippets = [] then { f with pairs := f.pairs ++ [p] }
      else { f with snippets := modLast (fun x => { x with pairs := x.pairs ++ [p] }) f.snippets }) (sectionsFrom ps) =
        closeF f { sectionsFrom ps with pairs := p :: (sectionsFrom ps).pairs } := by
      unfold closeF
      by_cases h : f.snippets = []
      · simp [h]
      · simp [h, modLast_eq_nil, modLast_comp]
    cases hk : z.pk <;> simp [finish, Zip.add, hk, hf, key]

theorem finish_nil {z : Zip} (hz : z.Tidy) : finish z (sectionsFrom []) = (z.looseAll, z.packagesAll, []) := by
  unfold Zip.Tidy at hz
  cases hk : z.pk <;> cases hf : z.fl <;>
    simp [finish, Zip.looseAll, Zip.packagesAll, hk, hf, closeF_closed, sectionsFrom]
  rename_i k; have := hz k hk; cases k; simp at this ⊢; exact this

end Verif
