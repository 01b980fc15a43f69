import Verif.Spec.TextSays

/-!
# Being the same document is an equivalence
-/

namespace Verif
open Spec

theorem Pointwise.symm_of {α : Type} {R : α → α → Prop} (hR : ∀ a b, R a b → R b a) {l m : List α} (h : Pointwise R l m) :
    Pointwise R m l := by
  induction h with
  | nil => exact .nil
  | cons r _ ih => exact .cons (hR _ _ r) ih

theorem Pointwise.trans_of {α : Type} {R : α → α → Prop} (hR : ∀ a b c, R a b → R b c → R a c) {l m : List α}
    (h : Pointwise R l m) : ∀ {n}, Pointwise R m n → Pointwise R l n := by
  induction h with
  | nil => intro n hn; exact hn
  | cons r _ ih =>
    intro n hn
    cases hn with
    | cons r' h' => exact .cons (hR _ _ _ r r') (ih h')

/-- The right side of a pointwise relation can be reordered together with the left one. -/
theorem Pointwise.perm_right {α : Type} {R : α → α → Prop} {m m' : List α} (p : m.Perm m') :
    ∀ {l}, Pointwise R l m → ∃ l', l.Perm l' ∧ Pointwise R l' m' := by
  induction p with
  | nil => intro l h; cases h; exact ⟨[], .refl _, .nil⟩
  | cons x _ ih =>
    intro l h
    cases h with
    | cons r h =>
      obtain ⟨l', h1, h2⟩ := ih h
      exact ⟨_, h1.cons _, .cons r h2⟩
  | swap x y l0 =>
    intro l h
    cases h with
    | cons r h =>
      cases h with
      | cons r' h => exact ⟨_, .swap _ _ _, .cons r' (.cons r h)⟩
  | trans _ _ ih1 ih2 =>
    intro l h
    obtain ⟨l1, h1, h2⟩ := ih1 h
    obtain ⟨l2, h3, h4⟩ := ih2 h2
    exact ⟨l2, h1.trans h3, h4⟩

/-- The same elements in some order. -/
def UpToOrder {α : Type} (R : α → α → Prop) (l m : List α) : Prop := ∃ l', l.Perm l' ∧ Pointwise R l' m

theorem UpToOrder.symm {α : Type} {R : α → α → Prop} (hR : ∀ a b, R a b → R b a) {l m : List α} (h : UpToOrder R l m) :
    UpToOrder R m l := by
  obtain ⟨l', h1, h2⟩ := h
  exact Pointwise.perm_right h1.symm (Pointwise.symm_of hR h2)

theorem UpToOrder.trans {α : Type} {R : α → α → Prop} (hR : ∀ a b c, R a b → R b c → R a c) {l m n : List α}
    (h : UpToOrder R l m) (h' : UpToOrder R m n) : UpToOrder R l n := by
  obtain ⟨l', h1, h2⟩ := h
  obtain ⟨m', h3, h4⟩ := h'
  obtain ⟨l2, h5, h6⟩ := Pointwise.perm_right h3 h2
  exact ⟨l2, h1.trans h5, Pointwise.trans_of hR h6 h4⟩

theorem sameFile_symm (f g : FileV) (h : SameFile f g) : SameFile g f :=
  ⟨by have := h.1; cases f; cases g; simp_all, h.2.symm⟩

theorem sameFile_trans (f g k : FileV) (h : SameFile f g) (h' : SameFile g k) : SameFile f k :=
  ⟨by have := h.1; have := h'.1; cases f; cases g; cases k; simp_all, h.2.trans h'.2⟩

theorem samePackage_symm (p q : PackageV) (h : SamePackage p q) : SamePackage q p :=
  ⟨by have := h.1; cases p; cases q; simp_all, UpToOrder.symm sameFile_symm h.2⟩

theorem samePackage_trans (p q r : PackageV) (h : SamePackage p q) (h' : SamePackage q r) : SamePackage p r :=
  ⟨by have := h.1; have := h'.1; cases p; cases q; cases r; simp_all, UpToOrder.trans sameFile_trans h.2 h'.2⟩

theorem sameDoc_symm {d e : Doc} (h : SameDoc d e) : SameDoc e d where
  rest := by have := h.rest; cases d; cases e; simp_all
  refs := h.refs.symm
  files := UpToOrder.symm sameFile_symm h.files
  packages := UpToOrder.symm samePackage_symm h.packages

theorem sameDoc_trans {d e f : Doc} (h : SameDoc d e) (h' : SameDoc e f) : SameDoc d f where
  rest := by have := h.rest; have := h'.rest; cases d; cases e; cases f; simp_all
  refs := h.refs.trans h'.refs
  files := UpToOrder.trans sameFile_trans h.files h'.files
  packages := UpToOrder.trans samePackage_trans h.packages h'.packages

theorem Pointwise.mono_of {α : Type} {R S : α → α → Prop} (hR : ∀ a b, R a b → S a b) {l m : List α} (h : Pointwise R l m) :
    Pointwise S l m := by
  induction h with
  | nil => exact .nil
  | cons r _ ih => exact .cons (hR _ _ r) ih

theorem sameMaps_sameDoc {d e : Doc} (h : SameMaps d e) : SameDoc d e where
  rest := by have := h.rest; cases d; cases e; simp_all
  refs := by rw [h.rest]
  files := ⟨_, .refl _, h.files⟩
  packages := ⟨_, .refl _, Pointwise.mono_of (fun _ _ h => ⟨h.1, _, .refl _, h.2⟩) h.packages⟩

end Verif
