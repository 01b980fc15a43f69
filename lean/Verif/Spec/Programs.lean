import Verif.Model.Programs
import Verif.Spec.Transfer

/-!
# Specification: converting files

Specification of C77: the five programs, what they read and write, and what can go wrong.
-/

namespace Verif.Spec

/-- The formats of files. -/
inductive FileKind where
  | tagValue
  | json
  | yaml

/-- The programs. -/
inductive Conversion where
  | loadSave
  | jsonToTv
  | tvToJson
  | yamlToTv
  | tvToYaml

/-- The moments of a run from an input file to an output file. -/
def Conversion.run (c : Conversion) (w : Surroundings) (args : List Str) (m : Mishaps) (fs : FileSystem) : List Moment :=
  match c with
  | .loadSave => loadSaveProgram w.so w.copy args m fs
  | .jsonToTv => jsonToTvProgram w.so w.copy w.float w.odd args m fs
  | .tvToJson => tvToJsonProgram w.so w.copy args m fs
  | .yamlToTv => yamlToTvProgram w.y w.so w.copy args m fs
  | .tvToYaml => tvToYamlProgram w.y w.so w.copy args m fs

/-- The format of the input file. -/
def Conversion.source : Conversion → FileKind
  | .loadSave | .tvToJson | .tvToYaml => .tagValue
  | .jsonToTv => .json
  | .yamlToTv => .yaml

/-- The format of the output file. -/
def Conversion.target : Conversion → FileKind
  | .loadSave | .jsonToTv | .yamlToTv => .tagValue
  | .tvToJson => .json
  | .tvToYaml => .yaml

/-- What a text in a format is read as. -/
def readKind (w : Surroundings) (k : FileKind) (content : Str) : Res Doc :=
  match k with
  | .tagValue => readTagValueInto w.copy true .v23 content
  | .json => readJsonText w.so w.copy w.float w.odd true .v23 content
  | .yaml => readYamlText w.y w.so w.copy true .v23 content

/-- The text of a document in a format. -/
def writeKind (w : Surroundings) (k : FileKind) (d : Doc) : Res Str :=
  match k with
  | .tagValue => writeTagValue .v23 w.so d
  | .json => writeJsonText w.so .v23 true [] d
  | .yaml => writeYamlText w.y w.so .v23 d

/-- What the content of the input file is read as. -/
def Conversion.reads (c : Conversion) (w : Surroundings) : Str → Res Doc := readKind w c.source

/-- The text of the document in the format of the output file. -/
def Conversion.writes (c : Conversion) (w : Surroundings) : Doc → Res Str := writeKind w c.target

/-- What the content of the output file is read as. -/
def Conversion.rereads (c : Conversion) (w : Surroundings) : Str → Res Doc := readKind w c.target

/-- The programs whose output is not tag-value. -/
def Conversion.Checked (c : Conversion) : Prop := c.target ≠ .tagValue

/-- A file delivers its content, in whatever pieces, unless it fails. -/
def _root_.Verif.Mishaps.Faithful (m : Mishaps) : Prop := ∀ s, (m.deliver s).fails = false → (m.deliver s).pieces.flatten = s

/-- Nothing goes wrong. -/
structure _root_.Verif.Mishaps.Absent (m : Mishaps) : Prop where
  opens : m.openFails = false
  delivers : ∀ s, (m.deliver s).fails = false
  creates : m.createFails = false
  takes : ∀ n, m.takes n = none

/-- Every call of `Write` takes everything. -/
def _root_.Verif.Mishaps.TakesAll (m : Mishaps) : Prop := ∀ n, m.takes n = none

/-- After a call of `Write` that failed, no later call takes anything (as on a full disk). -/
def _root_.Verif.Mishaps.Final (m : Mishaps) : Prop := ∀ n k, m.takes n ≠ none → n < k → m.takes k = some 0

/-- The input file can be opened, delivers its content, and is read as the document. -/
structure Loads (c : Conversion) (w : Surroundings) (fileIn : Str) (m : Mishaps) (fs : FileSystem) (d : Doc) : Prop where
  opens : m.openFails = false
  exists_ : ∃ content, fs fileIn = some content ∧ (m.deliver content).fails = false ∧ c.reads w content = .ok d

/-- A run of one of the programs. -/
structure Job where
  program : Conversion
  name : Str
  fileIn : Str
  fileOut : Str
  mishaps : Mishaps

/-- The files after a run. -/
def Job.after (w : Surroundings) (j : Job) (fs : FileSystem) : FileSystem :=
  match (j.program.run w [j.name, j.fileIn, j.fileOut] j.mishaps fs).getLast? with
  | some x => x.files
  | none => fs

/-- The files after several runs, one after the other. -/
def afterAll (w : Surroundings) : List Job → FileSystem → FileSystem
  | [], fs => fs
  | j :: js, fs => afterAll w js (j.after w fs)

/-- Runs that each take the output file of the one before, in its format. -/
inductive JobChain : FileKind → Str → List Job → FileKind → Str → Prop
  | nil {k : FileKind} {file : Str} : JobChain k file [] k file
  | cons {j : Job} {js : List Job} {k k' : FileKind} {file file' : Str} (h1 : j.program.source = k) (h2 : j.fileIn = file)
    (h : JobChain j.program.target j.fileOut js k' file') : JobChain k file (j :: js) k' file'

end Verif.Spec
