import Verif.Model.Sharing
import Verif.Spec.SameDoc

/-!
# Specification: which documents may share memory
-/

namespace Verif.Spec

/-- Two slices are the same, or have no cell in common.  Slices that overlap in part are not apart. -/
def Apart (k : Kind) (s t : Slice) : Prop := s = t ∨ ∀ l, ¬ (s.Cell k l ∧ t.Cell k l)

/-- A slice with files: the unpackaged files of one of the documents `D`, or the files of a package. -/
def FileSlice (h : Heap) (D : DocObj → Prop) (s : Slice) : Prop := (∃ d, D d ∧ s = d.files) ∨ ∃ p, s = (h.packages p).files

/-- No two slices of the documents `D` and of the packages overlap in part. Documents may share slices, packages and
files. -/
structure Tidy (h : Heap) (D : DocObj → Prop) : Prop where
  refs : ∀ d e, D d → D e → Apart .ref d.refs e.refs
  packages : ∀ d e, D d → D e → Apart .package d.packages e.packages
  files : ∀ s t, FileSlice h D s → FileSlice h D t → Apart .file s t

/-- The cells of the slices of a document and of its packages. -/
def Owns (h : Heap) (m : Mem) (d : DocObj) (l : Loc) : Prop :=
  d.refs.Cell .ref l ∨ d.files.Cell .file l ∨ d.packages.Cell .package l ∨
  ∃ p ∈ d.packages.contents .package m, (h.packages p).files.Cell .file l

/-- Saves documents one after the other. -/
def saveAll (h : Heap) (so : SliceSorter) (sn : Sorter) : List (Version × DocObj) → Prog (List (Res Str))
  | [] => pure []
  | j :: js => do
    let text ← save h j.1 so sn j.2
    let texts ← saveAll h so sn js
    pure (text :: texts)

/-- The goroutines at the start, one for each document to be saved. -/
def startSaving (h : Heap) (so : SliceSorter) (sn : Sorter) (jobs : List (Version × DocObj)) (m : Mem) : Running (Res Str) :=
  ⟨jobs.map fun j => save h j.1 so sn j.2, m⟩

/-- No two of the documents have a cell in common. They may share files. -/
def NothingShared (h : Heap) (m : Mem) (jobs : List (Version × DocObj)) : Prop :=
  ∀ i j, (hi : i < jobs.length) → (hj : j < jobs.length) → i ≠ j → ∀ l, ¬ (Owns h m jobs[i].2 l ∧ Owns h m jobs[j].2 l)

end Verif.Spec
