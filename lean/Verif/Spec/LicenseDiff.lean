import Verif.Model.Types

/-!
# What a license comparison and a license report say
-/

namespace Verif.Spec

/-- The list has a file of that name. -/
def HasFile (files : List FileV) (name : Str) : Prop := ∃ f ∈ files, f.name = name

/-- `license` is concluded for the file of that name: for the last one, if there are several. -/
def Concludes (files : List FileV) (name license : Str) : Prop :=
  ∃ before f after, files = before ++ f :: after ∧ f.name = name ∧ f.licenseConcluded = license ∧ ¬ HasFile after name

/-- The license a comparison shows: empty where there is no such file. -/
def Shows (files : List FileV) (name license : Str) : Prop :=
  Concludes files name license ∨ (¬ HasFile files name ∧ license = [])

/-- A license was found for the file. -/
def Found (f : FileV) : Prop := ¬ (f.licenseConcluded = [] ∨ f.licenseConcluded = g!"NOASSERTION")

instance (f : FileV) : Decidable (Found f) := inferInstanceAs (Decidable (¬ _))

end Verif.Spec
