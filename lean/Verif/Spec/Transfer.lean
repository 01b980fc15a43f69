import Verif.Spec.Representable
import Verif.Spec.JsonDoc
import Verif.Spec.SameDoc
import Verif.Spec.JsonText
import Verif.Model.Streams

/-!
# Specification: passing a document on in several formats

Specification of C65: a program that writes a document in one format, reads it again, writes it in the next, and so
on, as the examples of the project do (examples/8-jsontotv, examples/9-tvtojson, examples/10-jsonloader,
examples/11-yamltotv, examples/12-tvtoyaml and others).
-/

namespace Verif.Spec

/-- A format, with the options of its writer. -/
inductive Format where
  | tagValue
  | json (html : Bool) (indent : Str)
  | yaml

/-- What the program leaves open: how slices are sorted, how versions are converted, the YAML library, which numbers
are 64-bit floats, and what oddly placed agents are read as. -/
structure Surroundings where
  so : Sorter
  copy : Version → Version → Doc → Doc
  y : Yaml
  float : Str → Bool
  odd : Str → Res Doc

/-- Writing a document of version `v` in a format and reading what was written into a variable of this version. -/
def passOn (w : Surroundings) (v : Version) (d : Doc) : Format → Res Doc
  | .tagValue => writeTagValue v w.so d >>= readTagValueInto w.copy true v
  | .json html indent => writeJsonText w.so v html indent d >>= readJsonText w.so w.copy w.float w.odd true v
  | .yaml => writeYamlText w.y w.so v d >>= readYamlText w.y w.so w.copy true v

/-- In one format after the other. -/
def passAlong (w : Surroundings) (v : Version) : Doc → List Format → Res Doc
  | d, [] => .ok d
  | d, f :: fs => passOn w v d f >>= fun d' => passAlong w v d' fs

/-- A document that both tag-value and JSON can carry, and of which JSON leaves out nothing. -/
structure Portable (v : Version) (d : Doc) : Prop where
  version : d.spdxVersion = versionName v
  tagValue : Representable v d
  json : JsonDocument true d
  whole : WholeDoc v d
  distinct : DistinctIds d
  fit : ∀ so text, writeTagValue v so d = .ok text → LinesFit text

end Verif.Spec
