import Verif.Spec.LicenseDiff
import Verif.Spec.SameDoc
import Verif.Model.GoStr

/-!
# What the example programs that compare and report licenses print
-/

namespace Verif.Spec

/-- There are `n` names with the property. -/
def CountOf (P : Str → Prop) (n : Nat) : Prop := ∃ l : List Str, l.Nodup ∧ (∀ x, x ∈ l ↔ P x) ∧ l.length = n

/-- No package has that identifier. -/
def NoPackage (packages : List PackageV) (id : Str) : Prop := ∀ p ∈ packages, p.spdxId ≠ id

/-- The first package with that identifier. -/
def PackageOf (packages : List PackageV) (id : Str) (p : PackageV) : Prop :=
  ∃ before after, packages = before ++ p :: after ∧ p.spdxId = id ∧ NoPackage before id

/-- The numbers of a comparison of two lists of files: names with a license on the first side only, on the second
side only, with two different licenses, and with the same license on both sides or none on both. -/
structure Compared (files1 files2 : List FileV) (first second changed same : Nat) : Prop where
  first : CountOf (fun n => ∃ l, l ≠ [] ∧ Shows files1 n l ∧ Shows files2 n []) first
  second : CountOf (fun n => ∃ l, l ≠ [] ∧ Shows files1 n [] ∧ Shows files2 n l) second
  changed : CountOf (fun n => ∃ l m, l ≠ [] ∧ m ≠ [] ∧ l ≠ m ∧ Shows files1 n l ∧ Shows files2 n m) changed
  same : CountOf (fun n => (HasFile files1 n ∨ HasFile files2 n) ∧ ∃ l, Shows files1 n l ∧ Shows files2 n l) same

/-- The line between the sections of a comparison. -/
def rule : Str := g!"================================\n"

/-- The section for an element that the first document describes. -/
inductive FirstSection (packages1 packages2 : List PackageV) (id : Str) : Str → Prop
  | missing : NoPackage packages1 id → FirstSection packages1 packages2 id
      (rule ++ g!"Package " ++ id ++ g!" has described relationship in first document but ID not found\n")
  | alone {p} : PackageOf packages1 id p → NoPackage packages2 id → FirstSection packages1 packages2 id
      (rule ++ g!"Package " ++ id ++ g!" (" ++ p.name ++ g!")\n" ++ g!"  Found in first document, not found in second\n")
  | both {p q first second changed same} : PackageOf packages1 id p → PackageOf packages2 id q →
      Compared p.files q.files first second changed same → FirstSection packages1 packages2 id
      (rule ++ g!"Package " ++ id ++ g!" (" ++ p.name ++ g!")\n" ++
        g!"  Files in first only: " ++ natDigits first ++ g!"\n" ++
        g!"  Files in second only: " ++ natDigits second ++ g!"\n" ++
        g!"  Files in both with different licenses: " ++ natDigits changed ++ g!"\n" ++
        g!"  Files in both with same licenses: " ++ natDigits same ++ g!"\n")

/-- The section for an element that the second document describes: none if both documents have the package. -/
inductive SecondSection (packages1 packages2 : List PackageV) (id : Str) : Str → Prop
  | missing : NoPackage packages2 id → SecondSection packages1 packages2 id
      (rule ++ g!"Package " ++ id ++ g!" has described relationship in second document but ID not found\n")
  | alone {q} : PackageOf packages2 id q → NoPackage packages1 id → SecondSection packages1 packages2 id
      (rule ++ g!"Package " ++ id ++ g!" (" ++ q.name ++ g!")\n" ++ g!"  Found in second document, not found in first\n")
  | shared {p q} : PackageOf packages1 id p → PackageOf packages2 id q → SecondSection packages1 packages2 id []

end Verif.Spec
