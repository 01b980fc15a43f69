import Verif.Model.LicenseDiff

/-!
# The layout of the license report

`reporter.Generate` writes through `text/tabwriter` of Go's standard library, with minimal width 0, padding 2,
padding character space and `AlignRight` (reporter/reporter.go:25).  The definitions below describe what that
writer does with a text, from its documentation and source; no other flags are modelled.  The escape
character of the writer is the byte 0xff, which does not occur in UTF-8, so there is no escaped text.  The
width of a cell is the number of its characters.
-/

namespace Verif

/-- The cells of a line: tabs and vertical tabs end a cell (reporter/reporter.go:25, `Writer.Write`). -/
def splitCells : Str → List Str
  | [] => [[]]
  | c :: s =>
    if c = '\t' ∨ c = '\x0b' then [] :: splitCells s
    else match splitCells s with
      | [] => [[c]]
      | x :: xs => (c :: x) :: xs

/-- The lines of a text, each with the mark that a form feed ended it, and what follows the last of them
(reporter/reporter.go:25, `Writer.Write`). -/
def tabLines : Str → List (Str × Bool) × Str
  | [] => ([], [])
  | c :: s =>
    let r := tabLines s
    if c = '\n' ∨ c = '\x0c' then (([], decide (c = '\x0c')) :: r.1, r.2)
    else match r.1 with
      | [] => ([], c :: r.2)
      | (l, f) :: ls => ((c :: l, f) :: ls, r.2)

/-- The cells of the text after the last line end (reporter/reporter.go:25, `Writer.Flush`): an empty last
cell is not one. -/
def lastCells (s : Str) : List Str :=
  let cells := splitCells s
  if cells.getLast? = some [] then cells.dropLast else cells

/-- The groups of lines that are laid out together: the writer empties its buffer after a form feed and after a
line of one cell (reporter/reporter.go:25, `Writer.Write`).  The last line of each group is the one that was
not ended yet. -/
def tabGroups (cur : List (List Str)) : List (Str × Bool) → Str → List (List (List Str))
  | [], rest => [cur ++ [lastCells rest]]
  | (l, f) :: ls, rest =>
    let cells := splitCells l
    if f ∨ cells.length = 1 then (cur ++ [cells, []]) :: tabGroups [] ls rest
    else tabGroups (cur ++ [cells]) ls rest

/-- A line as printed: each cell but those after the known columns is filled up on the left
(reporter/reporter.go:25, `Writer.writeLines` with `AlignRight`). -/
def tabLine : List Nat → List Str → Str
  | w :: ws, c :: cs => List.replicate (w - c.length) ' ' ++ c ++ tabLine ws cs
  | [], cs => cs.flatten
  | _ :: _, [] => []

/-- The runs of lines that have, and of lines that do not have, a cell in the column that is not their last
(reporter/reporter.go:25, the loops of `Writer.format`). -/
def tabRuns (column : Nat) : List (List Str) → List (Bool × List (List Str))
  | [] => []
  | l :: ls =>
    let b := decide (column + 1 < l.length)
    match tabRuns column ls with
    | [] => [(b, [l])]
    | (b', run) :: rs => if b = b' then (b, l :: run) :: rs else (b, [l]) :: (b', run) :: rs

/-- The width of a column: its longest cell and the padding (reporter/reporter.go:25, `Writer.format`). -/
def tabWidth (column : Nat) (ls : List (List Str)) : Nat :=
  ls.foldl (fun w l => max w ((l.getD column []).length + 2)) 0

/-- The layout of lines whose first columns have the given widths (reporter/reporter.go:25,
`Writer.format`).  The first argument bounds the number of the columns that are left. -/
def tabFormat : Nat → List Nat → List (List Str) → List Str
  | 0, ws, ls => ls.map (tabLine ws)
  | n + 1, ws, ls => (tabRuns ws.length ls).flatMap fun r =>
    if r.1 then tabFormat n (ws ++ [tabWidth ws.length r.2]) r.2 else r.2.map (tabLine ws)

/-- A group of lines as printed (reporter/reporter.go:25, `Writer.writeLines`). -/
def tabGroup (ls : List (List Str)) : Str :=
  join g!"\n" (tabFormat ((ls.map (·.length)).foldl max 0) [] ls)

/-- What the tab writer prints of a text when it is flushed (reporter/reporter.go:25-53). -/
def tabText (s : Str) : Str :=
  let r := tabLines s
  (tabGroups [] r.1 r.2).flatMap tabGroup

/-- `Generate` (reporter/reporter.go:19-55): what reaches the writer that the caller gave, if that accepts
everything. -/
def printReport (so : CountSorter) (filesAnalyzed : Bool) (files : List (Option FileV)) : Res Str := do
  let text ← generate so filesAnalyzed files
  return tabText text

end Verif
