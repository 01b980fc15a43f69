import Verif.Model.TVWrite
import Verif.Model.Yaml
import Verif.Model.JsonText
import Verif.Model.ReadInto

/-!
# Readers and writers that deliver piecemeal, or fail

Documents are read from an `io.Reader` and written to an `io.Writer`.  Here a reader delivers its text in pieces, and
ends or fails after them; a writer takes what it is given, or only a part of it.
-/

namespace Verif

/-- An `io.Reader`: the pieces that successive calls of `Read` deliver, and whether an error follows them instead of
the end.  Simplifications: fewer than 100 empty pieces in a row, after which `bufio` gives up; pieces of whole
characters (no byte of a longer character is a newline). -/
structure Source where
  pieces : List Str
  fails : Bool := false

/-- The lines in a text that are ended by a newline, and the rest. -/
def cutLines : Str → List Str × Str
  | [] => ([], [])
  | c :: s =>
    let (ls, rest) := cutLines s
    if c = '\n' then ([] :: ls, rest)
    else match ls with
      | [] => ([], c :: rest)
      | l :: ls => ((c :: l) :: ls, rest)

/-- `bufio.Scanner` with `ScanLines` on a reader: lines are handed out as soon as they are complete, what is left over
at the end is a line if it is not empty, also if the reader failed.  `pending` is what has been read of the next
line.  Lines as they are, before a carriage return is dropped. -/
def sourceLines (pending : Str) : List Str → List Str
  | [] => if pending = [] then [] else [pending]
  | p :: ps =>
    let (ls, rest) := cutLines (pending ++ p)
    ls ++ sourceLines rest ps

/-- The scanning loop up to the first line that does not fit the buffer (tagvalue/reader/reader.go:25-34): its lines are
read first, then the error of the scanner is returned. -/
def readSourceLines : TVReader → List Str → Res TVReader
  | r, [] => .ok r
  | r, l :: ls =>
    if byteLen l < maxScanToken then
      match readLine r (dropCR l) with
      | .ok r' => readSourceLines r' ls
      | .err => .err
      | .panic => .panic
    else .err

/-- `ReadTagValues` (tagvalue/reader/reader.go:21-50) on a reader. -/
def readTagValuesFrom (src : Source) : Res (List TVPair) := do
  let r ← readSourceLines {} (sourceLines [] src.pieces)
  if src.fails then .err else r.finalize

/-- `ReadInto` (tagvalue/reader.go:32-71) on a reader. -/
def readTagValueFrom (copy : Version → Version → Doc → Doc) (isPtr : Bool) (target : Version) (src : Source) : Res Doc :=
  if !isPtr then .err
  else do
    let tvs ← readTagValuesFrom src
    if tvs = [] then .err
    else match versionNamed (statedVersion tvs) with
      | none => .err
      | some v => do
        match ← parseTagValues v tvs with
        | none => .panic
        | some d => convertDocument copy isPtr v target d

/-- `bytes.Buffer.ReadFrom`: everything the reader delivers, or its error. -/
def readAll (src : Source) : Res Str := if src.fails then .err else .ok src.pieces.flatten

/-- `ReadInto` (json/reader.go:29-83) on a reader. -/
def readJsonFrom (so : Sorter) (copy : Version → Version → Doc → Doc) (float : Str → Bool) (odd : Str → Res Doc) (isPtr : Bool)
    (target : Version) (src : Source) : Res Doc :=
  if !isPtr then .err
  else do
    let s ← readAll src
    readJsonText so copy float odd isPtr target s

/-- `ReadInto` (yaml/reader.go:30-85) on a reader. -/
def readYamlFrom (y : Yaml) (so : Sorter) (copy : Version → Version → Doc → Doc) (isPtr : Bool) (target : Version) (src : Source) :
    Res Doc :=
  if !isPtr then .err
  else do
    let s ← readAll src
    readYamlText y so copy isPtr target s

/-- An `io.Writer`: a call of `Write` gives the next state and whether it succeeded; `got` is what has arrived. -/
structure Sink where
  State : Type
  write : State → Str → State × Bool
  got : State → Str

/-- The calls of `Write` for the items: one for each `fmt.Fprintf`; headings are printed with the empty line after
them (save_document.go:54, 68, 73, 80, 88, 96). -/
def writeCalls : List Item → List Str
  | [] => []
  | .line (c :: s) :: .line [] :: is => (c :: s ++ g!"\n\n") :: writeCalls is
  | i :: is => i.emit :: writeCalls is

/-- All calls, whatever they return: the errors of `fmt.Fprintf` are ignored throughout the writer. -/
def writePieces (k : Sink) : k.State → List Str → k.State
  | s, [] => s
  | s, p :: ps => writePieces k (k.write s p).1 ps

/-- `tagvalue.Write` (tagvalue/writer.go:23-34, save_document.go:19-103) on a document of version `v`: the error returned
and the state of the writer afterwards. -/
def writeTagValueTo (k : Sink) (s : k.State) (v : Version) (so : Sorter) (d : Doc) : Res Unit × k.State :=
  match renderDocument v so d with
  | .ok (is, _) => (.ok (), writePieces k s (writeCalls is))
  | .err => (.err, s)
  | .panic => (.panic, s)

/-- One call of `Write`, its error returned. -/
def writeOnce (k : Sink) (s : k.State) (text : Res Str) : Res Unit × k.State :=
  match text with
  | .ok t => (if (k.write s t).2 then .ok () else .err, (k.write s t).1)
  | .err => (.err, s)
  | .panic => (.panic, s)

/-- `json.Write` (json/writer.go:27-33): `Encode` collects the text and writes it in one call. -/
def writeJsonTo (k : Sink) (s : k.State) (so : Sorter) (v : Version) (html : Bool) (indent : Str) (d : Doc) : Res Unit × k.State :=
  writeOnce k s (writeJsonText so v html indent d)

/-- `yaml.Write` (yaml/writer.go:14-26). -/
def writeYamlTo (k : Sink) (s : k.State) (y : Yaml) (so : Sorter) (v : Version) (d : Doc) : Res Unit × k.State :=
  writeOnce k s (writeYamlText y so v d)

end Verif
