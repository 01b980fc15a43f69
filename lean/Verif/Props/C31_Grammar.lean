import Verif.Lemmas.ExprGrammar
import Verif.Props.C30_C32_IdSearcher

/-!
# C31: license expressions have one meaning
-/

namespace Verif
open Spec

/-- **C31.** The grammar of license expressions is unambiguous: a text has at most one meaning. -/
theorem C31_unambiguous (lv : Level) (s : Str) (e e' : Expr) (h : Reads lv s e) (h' : Reads lv s e') : e = e' := h.unique h'

/-- **C31.** The conjunction of several license expressions has no other meaning than the conjunction of their
meanings. -/
theorem C31_only_meaning (id₀ : Str) (e₀ : Expr) (ids : List Str) (es : List Expr) (e : Expr)
    (h₀ : Reads .or id₀ e₀) (h : Pointwise (Reads .or) ids es)
    (he : Reads .or (join g!" AND " ((id₀ :: ids).map makeElement)) e) : e = conj e₀ es :=
  he.unique (.or1 (C31_conjunction id₀ e₀ ids es h₀ h))

/-- Without the parentheses the second expression would be torn apart. -/
example : ∃ e, Reads .or g!"GPL-2.0 AND (MIT OR BSD)" e ∧
    e = .and (.lic g!"GPL-2.0") (.or (.lic g!"MIT") (.lic g!"BSD")) := by
  have w : ∀ w : Str, IsLicense w → Reads .or w (.lic w) := fun w h => .or1 (.and1 (.word h))
  refine ⟨_, ?_, rfl⟩
  have h := C31_conjunction g!"GPL-2.0" (.lic g!"GPL-2.0") [g!"MIT OR BSD"] [.or (.lic g!"MIT") (.lic g!"BSD")]
    (w _ (by refine ⟨by decide, by decide, by decide, by decide, ?_⟩; rintro (h | h | h) <;> revert h <;> decide))
    (.cons (.or (w g!"MIT" (by refine ⟨by decide, by decide, by decide, by decide, ?_⟩; rintro (h | h | h) <;> revert h <;> decide))
      (.and1 (.word (w := g!"BSD") (by refine ⟨by decide, by decide, by decide, by decide, ?_⟩; rintro (h | h | h) <;> revert h <;> decide)))) .nil)
  exact .or1 h

end Verif
