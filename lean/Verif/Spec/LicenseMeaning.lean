import Verif.Spec.RdfLicense
import Verif.Spec.IdSearcher

/-!
# What license trees and license expressions mean

`v x` says that the license `x` is complied with.
-/

namespace Verif.Spec

def Expr.Holds (v : Str → Prop) : Expr → Prop
  | .lic x => v x
  | .and a b => a.Holds v ∧ b.Holds v
  | .or a b => a.Holds v ∨ b.Holds v

mutual
def Lic.Holds (v : Str → Prop) : Lic → Prop
  | .named x => v x
  | .all ms => Lic.AllHold v ms
  | .any ms => Lic.AnyHolds v ms
def Lic.AllHold (v : Str → Prop) : List Lic → Prop
  | [] => True
  | m :: ms => m.Holds v ∧ Lic.AllHold v ms
def Lic.AnyHolds (v : Str → Prop) : List Lic → Prop
  | [] => False
  | m :: ms => m.Holds v ∨ Lic.AnyHolds v ms
end

mutual
/-- A tree that needs no parentheses even as a member of a set of which all members count: a license name, a
non-empty set of such trees of which all count, or a set of one of them. -/
def Lic.Conjunct : Lic → Prop
  | .named x => Reads .atom x (.lic x)
  | .all ms => ms ≠ [] ∧ Lic.Conjuncts ms
  | .any ms => ms.length = 1 ∧ Lic.Conjuncts ms
def Lic.Conjuncts : List Lic → Prop
  | [] => True
  | m :: ms => m.Conjunct ∧ Lic.Conjuncts ms
end

mutual
/-- A tree that needs no parentheses: sets are not empty, and one of which one member counts is not (as a set of
several members) within one of which all count. -/
def Lic.Orderly : Lic → Prop
  | .named x => Reads .atom x (.lic x)
  | .all ms => ms ≠ [] ∧ Lic.Conjuncts ms
  | .any ms => ms ≠ [] ∧ Lic.AllOrderly ms
def Lic.AllOrderly : List Lic → Prop
  | [] => True
  | m :: ms => m.Orderly ∧ Lic.AllOrderly ms
end

end Verif.Spec
