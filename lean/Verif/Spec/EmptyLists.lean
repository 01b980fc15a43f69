import Verif.Model.EmptyLists

/-!
# Specification: lists without elements in JSON

Read off the JSON value alone: which lists without elements are `[]` and which are `null`.
-/

namespace Verif.Spec

/-- What stands for a list without elements. -/
def noElements (empty : Bool) : Json := if empty then .arr [] else .null

/-- The list under a key of an object, if it has elements, is an array of as many values, each of which is as `P` says
of its position and the element. -/
def EachAt {α : Type} (P : Nat → α → Json → Prop) (key : Str) (l : List α) (es : List (Str × Json)) : Prop :=
  l ≠ [] → ∃ js, (key, .arr js) ∈ es ∧ js.length = l.length ∧ ∀ (i : Nat) (a : α), l[i]? = some a → ∃ j, js[i]? = some j ∧ P i a j

/-- The lists of a file. -/
def ListsOfFile (v : Version) (m : FileMarks) (f : FileV) (j : Json) : Prop :=
  ∃ es, j = .obj es ∧ (f.checksums = [] → (g!"checksums", noElements m.checksums) ∈ es) ∧
    (f.licenseInfoInFiles = [] → v ≠ .v23 → (g!"licenseInfoInFiles", noElements m.licenseInfoInFiles) ∈ es)

/-- The lists of a snippet. -/
def ListsOfSnippet (empty : Bool) (s : Snippet) (j : Json) : Prop :=
  ∃ es, j = .obj es ∧ (s.ranges = [] → (g!"ranges", noElements empty) ∈ es)

/-- The lists of the creation information. -/
def ListsOfInfo (empty : Bool) (i : CreationInfo) (j : Json) : Prop :=
  ∃ es, j = .obj es ∧ (i.creators = [] → (g!"creators", noElements empty) ∈ es)

/-- A package names a verification code: in 2.1 always, in 2.3 if there is one, and in 2.2 if it has a value or excluded
files or if its list of excluded files is empty rather than nil. -/
def NamesCode : Version → PackageMarks → PackageV → Prop
  | .v21, _, _ => True
  | .v22, m, p => (∃ c, p.verificationCode = some c ∧ (c.value ≠ [] ∨ c.excludedFiles ≠ [])) ∨ m.excludedFiles = true
  | .v23, _, p => p.verificationCode ≠ none

/-- The lists of a package and of its files, and whether it names a verification code. -/
def ListsOfPackage (v : Version) (m : PackageMarks) (p : PackageV) (j : Json) : Prop :=
  ∃ es, j = .obj es ∧ (p.licenseInfoFromFiles = [] → v = .v21 → (g!"licenseInfoFromFiles", noElements m.licenseInfoFromFiles) ∈ es) ∧
    EachAt (fun i f j => ListsOfFile v (m.files i) f j) g!"files" p.files es ∧
    (g!"packageVerificationCode" ∈ es.map (·.1) ↔ NamesCode v m p)

/-- The lists of a document. -/
def ListsOfDocument (v : Version) (m : DocMarks) (d : Doc) (j : Json) : Prop :=
  ∃ es, j = .obj es ∧ (∀ i, d.creationInfo = some i → ∃ j, (g!"creationInfo", j) ∈ es ∧ ListsOfInfo m.creators i j) ∧
    EachAt (fun i p j => ListsOfPackage v (m.packages i) p j) g!"packages" d.packages es ∧
    EachAt (fun i f j => ListsOfFile v (m.files i) f j) g!"files" d.files es ∧
    EachAt (fun i s j => ListsOfSnippet (m.snippets i) s j) g!"snippets" d.snippets es

end Verif.Spec
