import Verif.Model.TabWriter
import Verif.Model.Streams

/-!
# The license report on a writer that fails

`text/tabwriter` writes the report cell by cell, and breaks off when a call of `Write` fails.  `reporter.Generate` calls it again
all the same (`fmt.Fprintf`, then `Flush`), ignores its errors, and returns nil.
-/

namespace Verif

/-- The calls of `Write` that the tab writer makes for its pieces (reporter/reporter.go:25-53, `Writer.write0`).  Simplification:
what it tries to write after a call has failed, when it is called again, is left open: `again`, given the pieces that are
missing. -/
def pushReport (k : Sink) (again : List Str → List Str) : k.State → List Str → k.State
  | s, [] => s
  | s, p :: ps => if (k.write s p).2 then pushReport k again (k.write s p).1 ps else writePieces k (k.write s p).1 (again (p :: ps))

/-- `Generate` (reporter/reporter.go:19-55): the error returned, and the state of the writer afterwards.  `cut` divides the report
into the pieces of the calls. -/
def generateTo (k : Sink) (s : k.State) (cut : Str → List Str) (again : List Str → List Str) (so : CountSorter) (filesAnalyzed : Bool)
    (files : List (Option FileV)) : Res Unit × k.State :=
  match printReport so filesAnalyzed files with
  | .ok t => (.ok (), pushReport k again s (cut t))
  | .err => (.err, s)
  | .panic => (.panic, s)

end Verif
