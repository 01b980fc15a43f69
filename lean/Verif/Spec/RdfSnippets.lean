import Verif.Spec.RdfElements
import Verif.Spec.Number

/-!
# What the statements of an RDF graph say about snippets
-/

namespace Verif.Spec.Rdf

/-- The end of a range: the last offset or line number that is given. -/
structure PointerSays (g : Graph) (n : RNode) (line : Bool) (k : Int) : Prop where
  only : Only (g.of n) [.type_, .reference, .offset, .lineNumber]
  numbers : ∀ t ∈ g.of n, t.pred ∈ [Pred.offset, .lineNumber] → ∃ i, NumberText t.object.id i
  last : ∃ ts t us, g.of n = ts ++ t :: us ∧ (∀ u ∈ us, u.pred ∉ [Pred.offset, .lineNumber]) ∧
    t.pred = (if line then .lineNumber else .offset) ∧ NumberText t.object.id k

/-- A range of a snippet from the file `f`: a class, a start and an end, both offsets or both lines. -/
def RangeSays (g : Graph) (f : Str) (n : RNode) (r : SnippetRange) : Prop :=
  (g.of n).length = 3 ∧ ∃ c a b line i j, vals (g.of n) .type_ = [c] ∧ vals (g.of n) .startPointer = [a] ∧
    vals (g.of n) .endPointer = [b] ∧ PointerSays g a line i ∧ PointerSays g b line j ∧
    r = if line then { startPointer := { lineNumber := i, fileSpdxId := f }, endPointer := { lineNumber := j, fileSpdxId := f } }
      else { startPointer := { offset := i, fileSpdxId := f }, endPointer := { offset := j, fileSpdxId := f } }

/-- The file a snippet is from.  2.3 takes a name that cannot be read as the empty one. -/
def SnippetFileSays (v : Version) (n : RNode) (y : Str) : Prop :=
  (∃ z r, LastPart n.id z ∧ RefReads z r ∧ y = r.elementRefID) ∨
  (v = .v23 ∧ y = [] ∧ ¬ ∃ z r, LastPart n.id z ∧ RefReads z r)

/-- Every range can be read.  The only one that is kept is that of the last range statement; it is in the file that was
given before. -/
def RangesSay (v : Version) (g : Graph) (ts : List Triple) (rs : List SnippetRange) : Prop :=
  (∀ n ∈ vals ts .range, ∃ f r, RangeSays g f n r) ∧
  ((vals ts .range = [] ∧ rs = []) ∨
   ∃ before t after f r, ts = before ++ t :: after ∧ t.pred = .range ∧ vals after .range = [] ∧
    LastOf (SnippetFileSays v) [] (vals before .snippetFromFile) f ∧ RangeSays g f t.object r ∧ rs = [r])

structure SnippetSays (v : Version) (g : Graph) (ts : List Triple) (x : Snippet) : Prop where
  only : Only ts [.type_, .snippetFromFile, .range, .licenseInfoInSnippet, .name, .copyrightText, .licenseComments, .comment,
    .licenseConcluded]
  fromFile : LastOf (SnippetFileSays v) [] (vals ts .snippetFromFile) x.fromFile
  ranges : RangesSay v g ts x.ranges
  licenseConcluded : LastOf (LicenseSays g) [] (vals ts .licenseConcluded) x.licenseConcluded
  licenseInfo : EachOf (LicenseSays g) (vals ts .licenseInfoInSnippet) x.licenseInfo
  licenseComments : LastOf Text [] (vals ts .licenseComments) x.licenseComments
  copyrightText : LastOf Text [] (vals ts .copyrightText) x.copyrightText
  comment : LastOf Text [] (vals ts .comment) x.comment
  name : LastOf Text [] (vals ts .name) x.name
  attributionTexts : x.attributionTexts = []

/-- The node has the name of a root and is said to be a snippet. -/
def IsSnippetNode (g : Graph) (n : RNode) : Prop :=
  (∃ r ∈ g.roots, r.id = n.id) ∧ ∃ t ∈ g.triples, t.subject = n ∧ t.pred = .type_ ∧ Cls.ofStr t.object.id = .snippet

end Verif.Spec.Rdf
