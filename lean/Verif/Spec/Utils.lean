import Verif.Model.Utils

/-!
# Specification: verification codes, ignore patterns, directory listings
-/

namespace Verif.Spec

/-- The SHA1 digests that count for a verification code: those of every file not called `exclude`. -/
def digests (exclude : Str) (files : List FileV) : List Str :=
  (files.filter fun f => f.name ≠ exclude).flatMap fun f =>
    f.checksums.filterMap fun c => if c.algorithm = g!"SHA1" then some c.value else none

/-- A file name: not empty and without a slash. -/
def IsName (s : Str) : Prop := s ≠ [] ∧ '/' ∉ s

/-- A directory part: it ends with a slash. -/
def IsDirs (s : Str) : Prop := ∃ r, s = r ++ g!"/"

/-- A leading part that stands for any directories. -/
def Starred (p : Str) : Prop := ∃ d n, p = g!"**" ++ d ++ n ∧ IsDirs d ∧ '/' ∉ n

/-- Which paths a pattern ignores. -/
inductive Ignores : Str → Str → Prop
  /-- A pattern that ends with a name ignores that very path. -/
  | exact (dirs name : Str) : (dirs = [] ∨ IsDirs dirs) → IsName name → ¬ Starred (dirs ++ name) →
      Ignores (dirs ++ name) (dirs ++ name)
  /-- A directory ignores everything below it. -/
  | below (dirs rest : Str) : IsDirs dirs → ¬ Starred dirs → Ignores dirs (dirs ++ rest)
  /-- An empty pattern ignores everything. -/
  | empty (path : Str) : Ignores [] path
  /-- `**/name` ignores files of that name, -/
  | anywhere (name : Str) : IsName name → Ignores (g!"**/" ++ name) name
  /-- in every directory. -/
  | anywhereIn (dirs name : Str) : IsDirs dirs → IsName name → Ignores (g!"**/" ++ name) (dirs ++ name)
  /-- `**dirs/name` ignores files of that name below directories that match `dirs`. -/
  | named (a dirs b name : Str) : IsDirs dirs → (b = [] ∨ IsDirs b) → IsName name →
      Ignores (g!"**" ++ dirs ++ name) (a ++ dirs ++ b ++ name)
  /-- `**dirs/` ignores everything below directories that match `dirs`. -/
  | under (a dirs rest : Str) : IsDirs dirs → Ignores (g!"**" ++ dirs) (a ++ dirs ++ rest)

mutual
/-- The regular files of a tree, by the names that lead to them. -/
inductive FileAt : Node → List Str → Prop
  | here : FileAt .file []
  | inside {es : Entries} {name : Str} {rest : List Str} : FileIn es name rest → FileAt (.dir es) (name :: rest)
inductive FileIn : Entries → Str → List Str → Prop
  | head {name : Str} {n : Node} {es : Entries} {rest : List Str} : FileAt n rest → FileIn (.cons name n es) name rest
  | tail {name name' : Str} {n : Node} {es : Entries} {rest : List Str} :
      FileIn es name rest → FileIn (.cons name' n es) name rest
end

mutual
/-- Whether something in a tree cannot be read. -/
def unreadable : Node → Prop
  | .bad => True
  | .dir es => unreadableIn es
  | _ => False
def unreadableIn : Entries → Prop
  | .nil => False
  | .cons _ n es => unreadable n ∨ unreadableIn es
end

/-- The names in a directory. -/
def namesIn : Entries → List Str
  | .nil => []
  | .cons name _ es => name :: namesIn es

mutual
/-- A file system tree: the names in a directory are names, and distinct. -/
def GoodTree : Node → Prop
  | .dir es => (namesIn es).Nodup ∧ GoodEntries es
  | _ => True
def GoodEntries : Entries → Prop
  | .nil => True
  | .cons name n es => IsName name ∧ GoodTree n ∧ GoodEntries es
end

/-- The path below the root: every name after a slash. -/
def pathText (names : List Str) : Str := names.flatMap fun n => '/' :: n

/-- A clean absolute path, as `filepath.Abs` returns it: the root, or a path that does not end with a
slash. -/
def CleanRoot (r : Str) : Prop := r = g!"/" ∨ (r ≠ [] ∧ ¬ IsDirs r)

/-- The order of paths, name by name. -/
inductive PathLt : List Str → List Str → Prop
  | shorter {b y} : PathLt [] (b :: y)
  | head {a b x y} : strLt a b = true → PathLt (a :: x) (b :: y)
  | tail {a x y} : PathLt x y → PathLt (a :: x) (a :: y)

end Verif.Spec
