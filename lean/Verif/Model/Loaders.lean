import Verif.Model.Programs
import Verif.Model.SpdxLib
import Verif.Model.RdfInto

/-!
# The example programs that load a document and print part of it

`examples/1-load`, `examples/7-rdfloader`, `examples/10-jsonloader` and `examples/13-yamlloader`.  Error texts are not modelled,
only what a message is about; nor is `%#v`, which prints the creation information as Go text: what it prints is given.
-/

namespace Verif

/-- How a run ends: with a message about a failure, with a text (all of it, including the line that says that the file was
loaded), or with a panic; `cut` is the reader of RDF cut by the model. -/
inductive Shown where
  | usage
  | cannotOpen (file : Str)
  | cannotParse (file : Str)
  | text (t : Str)
  | panicked
  | cut
  deriving DecidableEq

/-- `fmt.Printf` with `%v` on a slice of strings. -/
def sprintStrings (l : List Str) : Str := g!"[" ++ join g!" " l ++ g!"]"

/-- The loop over the files of a package, with its counter (examples/1-load/example_load.go:102-114). -/
def printFiles : Nat → List FileV → Str
  | _, [] => []
  | i, f :: fs =>
    g!"- File " ++ natDigits i ++ g!": " ++ f.name ++ g!"\n" ++
    g!"    License from file: " ++ sprintStrings f.licenseInfoInFiles ++ g!"\n" ++
    g!"    License concluded: " ++ f.licenseConcluded ++ g!"\n" ++
    (if i + 1 > 50 then [] else printFiles (i + 1) fs)

/-- The loop over the packages (examples/1-load/example_load.go:70-115). -/
def printPackages (pkgIDs : List Str) : List PackageV → Str
  | [] => []
  | p :: ps =>
    if !pkgIDs.contains p.spdxId then printPackages pkgIDs ps
    else if !p.filesAnalyzed then
      g!"Package " ++ p.spdxId ++ g!" (" ++ p.name ++ g!") had FilesAnalyzed: false\n" ++ printPackages pkgIDs ps
    else if p.files.length < 1 then
      g!"Package " ++ p.spdxId ++ g!" (" ++ p.name ++ g!") has no Files\n" ++ printPackages pkgIDs ps
    else
      g!"============================\n" ++ g!"Package " ++ p.spdxId ++ g!" (" ++ p.name ++ g!")\n" ++
      g!"File info (up to first 50):\n" ++ printFiles 1 p.files ++ printPackages pkgIDs ps

/-- What is printed once the document is loaded (examples/1-load/example_load.go:46-116).  `creation` is what `%#v` prints,
`reason` the text of the error of `GetDescribedPackageIDs`. -/
def printDocument (so : Sorter) (creation : Option CreationInfo → Str) (reason filename : Str) (d : Doc) : Res Str :=
  let head := g!"Successfully loaded " ++ filename ++ g!"\n\n" ++ g!"==============\n" ++ g!"Creation info:\n" ++
    g!"==============\n" ++ creation d.creationInfo ++ g!"\n\n"
  match getDescribedPackageIDs so (d.packages.map some) (d.relationships.map some) with
  | .err => .ok (head ++ g!"Unable to get describe packages from SPDX document: " ++ reason ++ g!"\n")
  | .panic => .panic
  | .ok pkgIDs => .ok (head ++ if pkgIDs.length = 0 then [] else printPackages pkgIDs d.packages)

/-- Some attributes of the document (examples/7-rdfloader/exampleRDFLoader.go:41-48,
examples/10-jsonloader/example_json_loader.go:48-54, examples/13-yamlloader/exampleYAMLLoader.go:48-54). -/
def printAttributes (d : Doc) : Str :=
  let rule := List.replicate 80 '=' ++ g!"\n"
  rule ++ g!"Some Attributes of the Document:\n" ++
  g!"Document Name:         " ++ d.name ++ g!"\n" ++
  g!"DataLicense:           " ++ d.dataLicense ++ g!"\n" ++
  g!"Document Namespace:    " ++ d.namespace_ ++ g!"\n" ++
  g!"SPDX Version:          " ++ d.spdxVersion ++ g!"\n" ++ rule

/-- From the file name on: open, read, print (examples/1-load/example_load.go:30-47 and the like). -/
def loadAndShow (read : Source → ROut Doc) (print : Doc → Res Str) (m : Mishaps) (fs : FileSystem) (fileIn : Str) : Shown :=
  match (if m.openFails then none else fs fileIn) with
  | none => .cannotOpen fileIn
  | some content =>
    match read (m.deliver content) with
    | .err => .cannotParse fileIn
    | .panic => .panicked
    | .cut => .cut
    | .ok d =>
      match print d with
      | .ok t => .text t
      | _ => .panicked

/-- A program with one argument (examples/1-load/example_load.go:19-28 and the like). -/
def loaderProgram (read : Source → ROut Doc) (print : Str → Doc → Res Str) (args : List Str) (m : Mishaps) (fs : FileSystem) : Shown :=
  match args with
  | [_, fileIn] => loadAndShow read (print fileIn) m fs fileIn
  | _ => .usage

/-- examples/1-load/example_load.go:19-116 -/
def tvLoader (so : Sorter) (copy : Version → Version → Doc → Doc) (creation : Option CreationInfo → Str) (reason : Str) :
    List Str → Mishaps → FileSystem → Shown :=
  loaderProgram (fun src => ROut.ofRes (readTagValueFrom copy true .v23 src)) (printDocument so creation reason)

/-- What the loaders of JSON and YAML print. -/
def printLoaded (filename : Str) (d : Doc) : Res Str := .ok (g!"Successfully loaded " ++ filename ++ g!"\n" ++ printAttributes d)

/-- examples/10-jsonloader/example_json_loader.go:18-55 -/
def jsonLoader (so : Sorter) (copy : Version → Version → Doc → Doc) (float : Str → Bool) (odd : Str → Res Doc) :
    List Str → Mishaps → FileSystem → Shown :=
  loaderProgram (fun src => ROut.ofRes (readJsonFrom so copy float odd true .v23 src)) printLoaded

/-- examples/13-yamlloader/exampleYAMLLoader.go:18-55 -/
def yamlLoader (y : Yaml) (so : Sorter) (copy : Version → Version → Doc → Doc) : List Str → Mishaps → FileSystem → Shown :=
  loaderProgram (fun src => ROut.ofRes (readYamlFrom y so copy true .v23 src)) printLoaded

/-- examples/7-rdfloader/exampleRDFLoader.go:13-49.  `triples` is what the RDF library makes of a text; a source that fails is
one it cannot parse.  More than one argument is ignored.  The program does not say that it loaded the file. -/
def rdfLoader (triples : Str → Option Graph) (copy : Version → Version → Doc → Doc) (o : MapOrder) (args : List Str) (m : Mishaps)
    (fs : FileSystem) : Shown :=
  match args with
  | _ :: fileIn :: _ =>
    loadAndShow (fun src => readRdfInto copy true o .v23 (if src.fails then none else triples src.pieces.flatten))
      (fun d => .ok (printAttributes d)) m fs fileIn
  | _ => .usage

/-- The exit status: the program for RDF fails with 1 (examples/7-rdfloader/exampleRDFLoader.go:24-39), the others return from
`main` whatever happens.  A panic exits with 2. -/
def Shown.status (rdf : Bool) : Shown → Nat
  | .text _ => 0
  | .panicked | .cut => 2
  | _ => if rdf then 1 else 0

end Verif
