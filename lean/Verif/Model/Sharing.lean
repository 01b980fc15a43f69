import Verif.Model.TVWrite

/-!
# Saving documents that share memory

In Go a document holds pointers and slices.  The tag-value writer sorts slices in place, so that saving a document
changes memory, which other documents may share and other goroutines may use at the same time.  This file models the
writer as a program that reads and writes one cell of memory at a time.

The cells are the elements of the arrays behind slices.  All else (packages, files and the fields of documents) is not
changed by the writer and is in the `Heap`.
-/

namespace Verif

/-- The types of the elements of the slices that the writer sorts: `ExternalDocumentRef`, `*File`, `*Package`. -/
inductive Kind where
  | ref
  | file
  | package
  deriving DecidableEq, Repr

/-- A slice: a part of an array. -/
structure Slice where
  array : Nat := 0
  off : Nat := 0
  len : Nat := 0
  deriving DecidableEq, Repr

/-- An element of an array. -/
structure Loc where
  kind : Kind
  array : Nat
  index : Nat
  deriving DecidableEq, Repr

/-- The contents of the cells.  A pointer is the number of what it points to; an `ExternalDocumentRef`, which is stored in
its array, is a number that stands for the value. -/
abbrev Mem := Loc → Nat

/-- A package in memory: its fields, and the slice with its files (spdx/v2/v2_3/package.go:13-126). -/
structure PackageObj where
  fields : PackageV := {}
  files : Slice := {}

/-- What the writer does not change. -/
structure Heap where
  refs : Nat → ExternalDocumentRef
  files : Nat → FileV
  packages : Nat → PackageObj

/-- A document in memory: its fields, and the slices with its references, files and packages
(spdx/v2/v2_3/document.go:36-60). -/
structure DocObj where
  fields : Doc := {}
  refs : Slice := {}
  files : Slice := {}
  packages : Slice := {}

/-- The elements of a slice. -/
def Slice.contents (k : Kind) (s : Slice) (m : Mem) : List Nat :=
  (List.range s.len).map fun i => m ⟨k, s.array, s.off + i⟩

/-- A package as its fields say, with the files in its slice. -/
def Heap.package (h : Heap) (m : Mem) (p : Nat) : PackageV :=
  { (h.packages p).fields with files := ((h.packages p).files.contents .file m).map h.files }

/-- The document that memory holds. -/
def Heap.doc (h : Heap) (m : Mem) (d : DocObj) : Doc :=
  { d.fields with
    externalDocumentRefs := (d.refs.contents .ref m).map h.refs
    files := (d.files.contents .file m).map h.files
    packages := (d.packages.contents .package m).map (h.package m) }

/-! ## Programs -/

/-- A program that reads and writes cells. -/
inductive Prog (α : Type) where
  | ret (a : α)
  | read (l : Loc) (k : Nat → Prog α)
  | write (l : Loc) (x : Nat) (k : Prog α)

/-- One program after another. -/
def Prog.bind {α β : Type} : Prog α → (α → Prog β) → Prog β
  | .ret a, f => f a
  | .read l k, f => .read l fun x => (k x).bind f
  | .write l x k, f => .write l x (k.bind f)

instance : Monad Prog where
  pure := Prog.ret
  bind := Prog.bind

/-- Memory with one cell changed. -/
def Mem.set (m : Mem) (l : Loc) (x : Nat) : Mem := fun l' => if l' = l then x else m l'

/-- Running a program with no other program at work: the result, and the memory afterwards. -/
def Prog.run {α : Type} : Prog α → Mem → α × Mem
  | .ret a, m => (a, m)
  | .read l k, m => (k (m l)).run m
  | .write l x k, m => k.run (m.set l x)

/-- One step of a program. -/
def Prog.step {α : Type} : Prog α → Mem → Prog α × Mem
  | .ret a, m => (.ret a, m)
  | .read l k, m => (k (m l), m)
  | .write l x k, m => (k, m.set l x)

/-- Goroutines at work: what each of them has still to do, and the memory they share. -/
structure Running (α : Type) where
  progs : List (Prog α)
  mem : Mem

/-- A schedule names the goroutines that make a step, one after the other.  A goroutine that has finished makes no
step. -/
def Running.after {α : Type} : List Nat → Running α → Running α
  | [], r => r
  | t :: ts, r =>
    match r.progs[t]? with
    | none => Running.after ts r
    | some p => Running.after ts ⟨r.progs.set t (p.step r.mem).1, (p.step r.mem).2⟩

/-- All accesses of the program, run with no other program at work, are to cells in `F`. -/
def Prog.Touches {α : Type} (F : Loc → Prop) : Prog α → Mem → Prop
  | .ret _, _ => True
  | .read l k, m => F l ∧ (k (m l)).Touches F m
  | .write l x k, m => F l ∧ k.Touches F (m.set l x)

/-- The cells of a slice. -/
def Slice.Cell (k : Kind) (s : Slice) (l : Loc) : Prop :=
  l.kind = k ∧ l.array = s.array ∧ s.off ≤ l.index ∧ l.index < s.off + s.len

/-- What `sort.Slice` with `less(i,j) = key(i) < key(j)` promises: run with no other program at work, it only accesses
the cells of the slice, and puts the elements in order. -/
structure SliceSorter where
  sort : Kind → (Nat → Str) → Slice → Prog Unit
  touches : ∀ k key (s : Slice) m, (sort k key s).Touches (s.Cell k) m
  perm : ∀ k key (s : Slice) m, (s.contents k ((sort k key s).run m).2).Perm (s.contents k m)
  sorted : ∀ k key (s : Slice) m, (s.contents k ((sort k key s).run m).2).Pairwise fun a b => strLe (key a) (key b) = true

/-! ## The writer -/

/-- `for _, x := range slice`: the elements are read one after the other. -/
def forCells (k : Kind) (a : Nat) (f : Nat → Prog (List Item)) : Nat → Nat → Prog (List Item)
  | _, 0 => pure []
  | i, n + 1 => .read ⟨k, a, i⟩ fun x => do
    let is ← f x
    let js ← forCells k a f (i + 1) n
    pure (is ++ js)

/-- `for _, x := range s`. -/
def forSlice (k : Kind) (s : Slice) (f : Nat → Prog (List Item)) : Prog (List Item) := forCells k s.array f s.off s.len

/-- The sorting and printing of files (save_document.go:55-60, save_package.go:121-126).  `renderFile` makes a new
slice of the keys of the snippets and sorts that one, by `sn`. -/
def saveFiles (h : Heap) (v : Version) (so : SliceSorter) (sn : Sorter) (s : Slice) : Prog (List Item) := do
  so.sort .file (fun f => (h.files f).spdxId) s
  forSlice .file s fun f => pure (renderFile v sn (h.files f))

/-- The unpackaged files (save_document.go:53-61). -/
def saveUnpackaged (h : Heap) (v : Version) (so : SliceSorter) (sn : Sorter) (s : Slice) : Prog (List Item) :=
  if 0 < s.len then do
    let fs ← saveFiles h v so sn s
    pure ([.line g!"##### Unpackaged files", .line []] ++ fs)
  else pure []

/-- A package with its heading (save_document.go:67-70, save_package.go:15-129). -/
def savePackage (h : Heap) (v : Version) (so : SliceSorter) (sn : Sorter) (p : Nat) : Prog (List Item) := do
  let fs ← saveFiles h v so sn (h.packages p).files
  pure ([.line (g!"##### Package: " ++ (h.packages p).fields.name), .line []] ++
    renderPackageFields v (h.packages p).fields ++ fs)

/-- `RenderDocument` (save_document.go:19-103): the text, and the effects on memory. -/
def save (h : Heap) (v : Version) (so : SliceSorter) (sn : Sorter) (d : DocObj) : Prog (Res Str) :=
  match d.fields.creationInfo with
  | none => pure .err
  | some ci => do
    so.sort .ref (fun r => (h.refs r).documentRefID) d.refs
    let refs ← forSlice .ref d.refs fun r => pure (renderExternalDocRef (h.refs r))
    let files ← saveUnpackaged h v so sn d.files
    so.sort .package (fun p => (h.packages p).fields.spdxId) d.packages
    let packages ← forSlice .package d.packages fun p => savePackage h v so sn p
    pure (.ok (emit (
      opt g!"SPDXVersion" d.fields.spdxVersion ++
      opt g!"DataLicense" d.fields.dataLicense ++
      optId g!"SPDXID" d.fields.spdxId ++
      opt g!"DocumentName" d.fields.name ++
      opt g!"DocumentNamespace" d.fields.namespace_ ++
      refs ++
      optText g!"DocumentComment" d.fields.comment ++
      renderCreationInfo ci ++
      files ++
      packages ++
      renderTail d.fields)))

end Verif
