import Verif.Model.Reflect
import Verif.Model.Yaml
import Verif.Model.RdfInto

/-!
# JSON, YAML and RDF with documents passed as `AnyDocument`

`json/reader.go`, `json/writer.go`, `yaml/reader.go`, `yaml/writer.go` and `rdf/reader.go` with the documents, pointers and
interface variables of `Model/Reflect`.
-/

namespace Verif

/-- The value of the document of the stated version that parsed JSON is decoded into (json/reader.go:47-80): the version and the
document. -/
def loadJson (so : Sorter) : Json → Res (Version × Doc)
  | .obj es =>
    match lastEntry g!"spdxVersion" es with
    | some (.str raw) =>
      match (unescape raw).bind versionNamed with
      | some v => do
        let d ← decodeDoc so v (.obj es)
        return (v, d)
      | none => .err
    | _ => .err
  | _ => .err

/-- The part of `ReadInto` (json/reader.go:34-80) before the conversion.  `float` and `odd` are as in `readJsonText`. -/
def loadJsonText (so : Sorter) (float : Str → Bool) (odd : Str → Res (Version × Doc)) (s : Str) : Res (Version × Doc) :=
  match scanJson s with
  | none => .err
  | some j =>
    if !j.floats float then .err
    else if j.agentsPlain then loadJson so j else odd s

/-- The part of `ReadInto` (yaml/reader.go:36-82) before the conversion. -/
def loadYamlText (y : Yaml) (so : Sorter) (s : Str) : Res (Version × Doc) :=
  match y.parse none s with
  | some (.obj es) =>
    match lastEntry g!"spdxVersion" es with
    | some (.str raw) =>
      match (unescape raw).bind versionNamed with
      | some v => do
        let j ← Res.ofOption (y.parse (some v) s)
        let d ← decodeDoc so v j
        return (v, d)
      | none => .err
    | _ => .err
  | _ => .err

/-- `json.ReadInto` and `yaml.ReadInto` (json/reader.go:29-83, yaml/reader.go:31-85) into any variable: the argument afterwards.
The document is handed to the conversion as a value, not by pointer (json/reader.go:63, 70, 77). -/
def loadIntoVariable (copy : Version → Version → Doc → Doc) (rest : Option AnyVal → AnyVal → Res AnyVal) (loaded : Res (Version × Doc))
    (to : Option AnyVal) : Res AnyVal := do
  let p ← isPointer to
  if !p then .err
  else do
    let (v, d) ← loaded
    convertInto copy rest (some (.doc v d)) to

/-- The part of `rdf.ReadInto` (rdf/reader.go:35-57) before the conversion. -/
def loadRdf (o : MapOrder) (input : Option Graph) : ROut (Version × Doc) :=
  match input with
  | none => .err
  | some g =>
    match graphVersion g with
    | none => .err
    | some x =>
      if x = g!"SPDX-2.2" then readAs .v22 g
      else if x = g!"SPDX-2.3" then readAs .v23 g
      else .err
where
  /-- Reading by the rules of a version (rdf/reader.go:47-57). -/
  readAs (v : Version) (g : Graph) : ROut (Version × Doc) :=
    match loadGraph v o g with
    | .ok d => .ok (v, d)
    | .err => .err
    | .panic => .panic
    | .cut => .cut

/-- `rdf.ReadInto` (rdf/reader.go:31-60) into any variable: the argument afterwards.  The document is handed to the conversion by
pointer (rdf/reader.go:49-51). -/
def readRdfVariable (copy : Version → Version → Doc → Doc) (rest : Option AnyVal → AnyVal → Res AnyVal) (o : MapOrder)
    (input : Option Graph) (to : Option AnyVal) : ROut AnyVal :=
  match isPointer to with
  | .panic => .panic
  | .err => .err
  | .ok p =>
    if !p then .err
    else match loadRdf o input with
      | .ok (v, d) => ROut.ofRes (convertInto copy rest (some (.ptr (.doc v d))) to)
      | .err => .err
      | .panic => .panic
      | .cut => .cut

/-- What `encoding/json` makes of any value (json/writer.go:32, yaml/writer.go:15): it follows pointers and variables of interface
type, and nil is `null`.  What it makes of values of other types is a parameter. -/
def encodeAny (so : Sorter) (html : Bool) (other : Str → Str → Res Json) : AnyVal → Res Json
  | .doc v d => writeJson so v html d
  | .other t c => other t c
  | .ptr x => encodeAny so html other x
  | .nilPtr _ => .ok .null
  | .any x => encodeAny so html other x
  | .nilAny => .ok .null

/-- `json.Write` (json/writer.go:27-33) of anything. -/
def writeJsonVariable (so : Sorter) (html : Bool) (indent : Str) (other : Str → Str → Res Json) (doc : Option AnyVal) : Res Str := do
  let j ← match doc with
    | none => .ok .null
    | some x => encodeAny so html other x
  .ok ((if indent = [] then j.text else j.indented indent 0) ++ g!"\n")

/-- `yaml.Write` (yaml/writer.go:14-26) of anything. -/
def writeYamlVariable (y : Yaml) (so : Sorter) (other : Str → Str → Res Json) (doc : Option AnyVal) : Res Str := do
  let j ← match doc with
    | none => .ok .null
    | some x => encodeAny so true other x
  Res.ofOption (y.print j)

end Verif
