import Verif.Model.JsonText

/-!
# YAML

`yaml/reader.go`, `yaml/writer.go`.  The library `sigs.k8s.io/yaml` turns JSON into YAML text and YAML text into
JSON; both are parameters.  It looks at the variable that is decoded into: a scalar becomes a string where the
variable has one, except below types with their own `UnmarshalJSON`.
-/

namespace Verif

/-- What `sigs.k8s.io/yaml` does. -/
structure Yaml where
  /-- `JSONToYAML`: the text for a value -/
  print : Json → Option Str
  /-- `YAMLToJSON`: the value of a text for an empty interface (`none`) or a document of a version; `none` on error -/
  parse : Option Version → Str → Option Json

/-- `ReadInto` (yaml/reader.go:31-85) on a text, into a variable of version `target`. -/
def readYamlText (y : Yaml) (so : Sorter) (copy : Version → Version → Doc → Doc) (isPtr : Bool) (target : Version) (s : Str) : Res Doc :=
  if !isPtr then .err
  else match y.parse none s with
    | some (.obj es) =>
      match lastEntry g!"spdxVersion" es with
      | some (.str raw) =>
        match (unescape raw).bind versionNamed with
        | some v => do
          let j ← Res.ofOption (y.parse (some v) s)
          let d ← decodeDoc so v j
          convertDocument copy isPtr v target d
        | none => .err
      | _ => .err
    | _ => .err

/-- `Write` (yaml/writer.go:14-26) on a document of version `v`: the document as JSON, by `json.Marshal` and so with
HTML escaping, turned into YAML. -/
def writeYamlText (y : Yaml) (so : Sorter) (v : Version) (d : Doc) : Res Str := do
  let j ← writeJson so v true d
  Res.ofOption (y.print j)

end Verif
