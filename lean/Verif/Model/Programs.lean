import Verif.Model.Streams
import Verif.Model.IdSearcher

/-!
# The example programs that write files

`examples/2-load-save`, `examples/8-jsontotv`, `examples/9-tvtojson`, `examples/11-yamltotv`, `examples/12-tvtoyaml` convert files,
`examples/3-build` and `examples/4-search` write a document about a directory.  They run on a file
system where opening, reading, creating and writing can fail, and the program can be killed at any moment.  Error
texts are not modelled, only what a message is about.
-/

namespace Verif

/-- The files by name.  Simplifications: text instead of bytes, no directories, links or permissions, and nobody else
changes files while the program runs. -/
def FileSystem := Str → Option Str

/-- The file system with a new content of one file. -/
def FileSystem.put (fs : FileSystem) (name content : Str) : FileSystem := fun n => if n = name then some content else fs n

/-- What the programs say. -/
inductive Notice where
  | usage
  | cannotOpen (file : Str)
  | cannotParse (file : Str)
  | loaded (file : Str)
  | cannotCreate (file : Str)
  | cannotSave (file : Str)
  | saved (file : Str)
  | cannotBuild
  | built (package : Str)
  | panicked
  deriving DecidableEq

/-- A moment of a run: the files, and what has been said so far. -/
structure Moment where
  files : FileSystem
  said : List Notice

/-- The next moment, after saying something. -/
def Moment.say (w : Moment) (n : Notice) : Moment := { w with said := w.said ++ [n] }

/-- The next moment, with a new content of a file. -/
def Moment.put (w : Moment) (name content : Str) : Moment := { w with files := w.files.put name content }

/-- What goes wrong in a run: `os.Open` or `os.Create` fail; how the input file delivers its content; how many characters
the calls of `Write` take before they fail, `none` for those that succeed. -/
structure Mishaps where
  openFails : Bool := false
  deliver : Str → Source := fun s => { pieces := [s] }
  createFails : Bool := false
  takes : Nat → Option Nat := fun _ => none

/-- The calls of `Write` for a document, whether a failed call ends in an error, and what is returned otherwise. -/
structure Output where
  calls : List Str
  heeds : Bool
  ending : Res Unit

/-- `tagvalue.Write` (tagvalue/writer.go:23-34, v2_3/tagvalue/writer/save_document.go:19-103), as in `writeTagValueTo`. -/
def tagValueOutput (so : Sorter) (d : Doc) : Output :=
  match renderDocument .v23 so d with
  | .ok (is, _) => { calls := writeCalls is, heeds := false, ending := .ok () }
  | .err => { calls := [], heeds := false, ending := .err }
  | .panic => { calls := [], heeds := false, ending := .panic }

/-- `json.Write` and `yaml.Write` (json/writer.go:27-33, yaml/writer.go:14-26), as in `writeOnce`. -/
def textOutput (text : Res Str) : Output :=
  match text with
  | .ok t => { calls := [t], heeds := true, ending := .ok () }
  | .err => { calls := [], heeds := true, ending := .err }
  | .panic => { calls := [], heeds := true, ending := .panic }

/-- What of a call of `Write` arrives, and whether the call succeeds. -/
def arriving (take : Option Nat) (p : Str) : Str × Bool :=
  match take with
  | none => (p, true)
  | some n => (p.take n, false)

/-- The contents of a file while text is appended to it. -/
def growing (content q : Str) : List Str := (List.range q.length).map fun n => content ++ q.take (n + 1)

/-- The contents that a file has while the calls are made, what it is in the end, and whether the writer is content. -/
def writing (takes : Nat → Option Nat) (heeds : Bool) : Nat → Str → List Str → List Str × Str × Bool
  | _, content, [] => ([], content, true)
  | n, content, p :: ps =>
    let (q, ok) := arriving (takes n) p
    if heeds && !ok then (growing content q, content ++ q, false)
    else
      let (later, last, fine) := writing takes heeds (n + 1) (content ++ q) ps
      (growing content q ++ later, last, fine)

/-- The second half of a program, once the document is loaded: create the output file, which empties it, and write
(examples/2-load-save/example_load_save.go:46-67 and the like). -/
def savePart (o : Output) (fileOut : Str) (m : Mishaps) (w : Moment) : List Moment :=
  if m.createFails then [w.say (.cannotCreate fileOut)]
  else
    let (contents, last, fine) := writing m.takes o.heeds 0 [] o.calls
    w.put fileOut [] :: contents.map (w.put fileOut) ++
      [(w.put fileOut last).say (match o.ending with
        | .ok () => if fine then .saved fileOut else .cannotSave fileOut
        | .err => .cannotSave fileOut
        | .panic => .panicked)]

/-- The moments of a run, in order; a program that is killed stops at one of them.
(examples/2-load-save/example_load_save.go:18-68, examples/8-jsontotv/examplejsontotv.go:18-68,
examples/9-tvtojson/exampletvtojson.go:18-76, examples/11-yamltotv/exampleyamltotv.go:19-69,
examples/12-tvtoyaml/exampletvtoyaml.go:18-68). -/
def conversionProgram (read : Source → Res Doc) (write : Doc → Output) (args : List Str) (m : Mishaps) (fs : FileSystem) :
    List Moment :=
  let start : Moment := { files := fs, said := [] }
  start :: match args with
  | [_, fileIn, fileOut] =>
    match (if m.openFails then none else fs fileIn) with
    | none => [start.say (.cannotOpen fileIn)]
    | some content =>
      match read (m.deliver content) with
      | .err => [start.say (.cannotParse fileIn)]
      | .panic => [start.say .panicked]
      | .ok d => start.say (.loaded fileIn) :: savePart (write d) fileOut m (start.say (.loaded fileIn))
  | _ => [start.say .usage]

/-- examples/2-load-save/example_load_save.go:18-68 -/
def loadSaveProgram (so : Sorter) (copy : Version → Version → Doc → Doc) : List Str → Mishaps → FileSystem → List Moment :=
  conversionProgram (readTagValueFrom copy true .v23) (tagValueOutput so)

/-- examples/8-jsontotv/examplejsontotv.go:18-68 -/
def jsonToTvProgram (so : Sorter) (copy : Version → Version → Doc → Doc) (float : Str → Bool) (odd : Str → Res Doc) :
    List Str → Mishaps → FileSystem → List Moment :=
  conversionProgram (readJsonFrom so copy float odd true .v23) (tagValueOutput so)

/-- examples/9-tvtojson/exampletvtojson.go:18-76, without options: `encoding/json` escapes HTML by default. -/
def tvToJsonProgram (so : Sorter) (copy : Version → Version → Doc → Doc) : List Str → Mishaps → FileSystem → List Moment :=
  conversionProgram (readTagValueFrom copy true .v23) fun d => textOutput (writeJsonText so .v23 true [] d)

/-- examples/11-yamltotv/exampleyamltotv.go:19-69 -/
def yamlToTvProgram (y : Yaml) (so : Sorter) (copy : Version → Version → Doc → Doc) :
    List Str → Mishaps → FileSystem → List Moment :=
  conversionProgram (readYamlFrom y so copy true .v23) (tagValueOutput so)

/-- examples/12-tvtoyaml/exampletvtoyaml.go:18-68 -/
def tvToYamlProgram (y : Yaml) (so : Sorter) (copy : Version → Version → Doc → Doc) :
    List Str → Mishaps → FileSystem → List Moment :=
  conversionProgram (readTagValueFrom copy true .v23) fun d => textOutput (writeYamlText y so .v23 d)

/-- The moments of a run of a program that makes a document about a directory and saves it as tag-value
(examples/3-build/example_build.go:20-118, examples/4-search/example_search.go:22-148).  `make` gets the package name and the
directory. -/
def buildingProgram (make : Str → Str → Res Doc) (write : Doc → Output) (args : List Str) (m : Mishaps) (fs : FileSystem) :
    List Moment :=
  let start : Moment := { files := fs, said := [] }
  start :: match args with
  | [_, packageName, packageRootDir, fileOut] =>
    match make packageName packageRootDir with
    | .err => [start.say .cannotBuild]
    | .panic => [start.say .panicked]
    | .ok d => start.say (.built packageName) :: savePart (write d) fileOut m (start.say (.built packageName))
  | _ => [start.say .usage]

/-- What both programs ignore in the directory (examples/3-build/example_build.go:66-82,
examples/4-search/example_search.go:64-81). -/
def exampleIgnored : List Str := [g!"/.git/", g!"**/__pycache__/", g!"/.ignorefile", g!"**/.DS_Store"]

/-- The namespace prefix of both programs (examples/3-build/example_build.go:47, examples/4-search/example_search.go:50). -/
def exampleNamespace : Str := g!"https://example.com/whatever/testdata-"

/-- examples/3-build/example_build.go:40-83 -/
def exampleConfig : BuildConfig where
  namespacePrefix := exampleNamespace
  creatorType := g!"Person"
  creator := g!"Jane Doe"
  pathsIgnored := exampleIgnored

/-- examples/4-search/example_search.go:90-101 -/
def exampleUnsearched : List Str := [g!"/Documentation/process/license-rules.rst", g!"/LICENSES/"]

/-- examples/3-build/example_build.go:20-118.  `disks` says what directories hold when the program looks at them; `now` is the
time.  Simplification: the directory and the output file are apart, so that the program does not see what it writes. -/
def buildProgram (so : Sorter) (sha1 : Str → Str) (now : Str) (disks : Str → Disk) : List Str → Mishaps → FileSystem → List Moment :=
  buildingProgram (fun name root => build so sha1 (disks root) now name exampleConfig) (tagValueOutput so)

/-- examples/4-search/example_search.go:22-148, likewise. -/
def searchProgram (so : Sorter) (sha1 : Str → Str) (now : Str) (disks : Str → Disk) : List Str → Mishaps → FileSystem → List Moment :=
  buildingProgram (fun name root => buildIDsDocument so sha1 (disks root) now name exampleNamespace exampleIgnored exampleUnsearched)
    (tagValueOutput so)

end Verif
