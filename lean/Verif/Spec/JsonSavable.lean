import Verif.Spec.JsonSays
import Verif.Spec.JsonDoc

/-!
# Specification: JSON documents that can be loaded and saved

Read off the JSON value alone.  Identifiers, references and agents are written without escapes and are given where
they are needed; all else is arbitrary.
-/

namespace Verif.Spec

/-- What stands under a key, if it is there. -/
def Under (es : List (Str × Json)) (key : Str) (P : Json → Prop) : Prop := ∀ j ∈ entries key es, P j

/-- All entries of an array. -/
def EachEntry (P : Json → Prop) (j : Json) : Prop := ∀ js, j = .arr js → ∀ x ∈ js, P x

/-- An object. -/
def AnObject (P : List (Str × Json) → Prop) (j : Json) : Prop := ∃ es, j = .obj es ∧ P es

/-- A string that is written as it is: without escapes, and without what the encoder escapes. -/
def AsItIs (html : Bool) (j : Json) (raw : Str) : Prop := j = .str raw ∧ Plain raw ∧ HtmlSafe html raw

/-- An identifier is given, and does not begin with its prefix twice. -/
def GivenId (html : Bool) (pre key : Str) (es : List (Str × Json)) : Prop :=
  ∃ j raw, entries key es = [j] ∧ AsItIs html j raw ∧ ∀ e, raw ≠ pre ++ pre ++ e

/-- A reference to an element, which does not repeat a prefix and is not to a whole document. -/
def SavableRef (html : Bool) (j : Json) : Prop :=
  ∃ raw, AsItIs html j raw ∧ (∀ e, raw ≠ g!"SPDXRef-SPDXRef-" ++ e) ∧ (∀ e, raw ≠ g!"DocumentRef-DocumentRef-" ++ e) ∧
    (∀ d e, raw ≠ d ++ g!":SPDXRef-SPDXRef-" ++ e) ∧ ∀ d, raw = g!"DocumentRef-" ++ d → ':' ∈ d

/-- A creator or annotator with a name. -/
def SavableAgent (html : Bool) (j : Json) : Prop :=
  ∃ raw, AsItIs html j raw ∧ ∀ kind name, ColonPair raw kind name → name ≠ []

/-- A supplier with a kind and a name, which is not `NOASSERTION` then. -/
def SavableSupplier (html : Bool) (j : Json) : Prop :=
  ∃ raw, AsItIs html j raw ∧ ∀ kind name, ColonPair raw kind name → kind ≠ [] ∧ name ≠ [] ∧ name ≠ g!"NOASSERTION"

/-- An originator with a kind and a name, without white space around them but for what is between. -/
def SavableOriginator (html : Bool) (j : Json) : Prop :=
  ∃ raw, AsItIs html j raw ∧ ∀ kind rest, raw = kind ++ g!":" ++ rest → ':' ∉ kind →
    kind ≠ [] ∧ trimSpace kind = kind ∧ ∃ name, rest.dropWhile (fun c => c = ' ' || c = '\t') = name ∧
      name ≠ [] ∧ trimSpace name = name ∧ name ≠ g!"NOASSERTION"

/-- An annotation. -/
def SavableAnnotation (html : Bool) (es : List (Str × Json)) : Prop :=
  ∃ j, entries g!"annotator" es = [j] ∧ SavableAgent html j

/-- A file. -/
structure SavableFile (html : Bool) (es : List (Str × Json)) : Prop where
  id : GivenId html g!"SPDXRef-" g!"SPDXID" es
  annotations : Under es g!"annotations" (EachEntry (AnObject (SavableAnnotation html)))

/-- A package. -/
structure SavablePackage (html : Bool) (es : List (Str × Json)) : Prop where
  id : GivenId html g!"SPDXRef-" g!"SPDXID" es
  supplier : Under es g!"supplier" fun j => j = .null ∨ SavableSupplier html j
  originator : Under es g!"originator" fun j => j = .null ∨ SavableOriginator html j
  files : Under es g!"files" (EachEntry (AnObject (SavableFile html)))
  hasFiles : Under es g!"hasFiles" (EachEntry (SavableRef html))
  annotations : Under es g!"annotations" (EachEntry (AnObject (SavableAnnotation html)))

/-- An end of a range. -/
def SavablePointer (html : Bool) (key : Str) (es : List (Str × Json)) : Prop :=
  ∃ o, entries key es = [.obj o] ∧ GivenId html g!"SPDXRef-" g!"reference" o

/-- A snippet. -/
structure SavableSnippet (html : Bool) (es : List (Str × Json)) : Prop where
  id : GivenId html g!"SPDXRef-" g!"SPDXID" es
  fromFile : GivenId html g!"SPDXRef-" g!"snippetFromFile" es
  ranges : Under es g!"ranges" (EachEntry (AnObject fun r =>
    SavablePointer html g!"startPointer" r ∧ SavablePointer html g!"endPointer" r))

/-- A relationship. -/
def SavableRelationship (html : Bool) (es : List (Str × Json)) : Prop :=
  ∃ j k, entries g!"spdxElementId" es = [j] ∧ entries g!"relatedSpdxElement" es = [k] ∧ SavableRef html j ∧ SavableRef html k

/-- A document. -/
structure SavableJson (html : Bool) (es : List (Str × Json)) : Prop where
  id : GivenId html g!"SPDXRef-" g!"SPDXID" es
  externalDocuments : Under es g!"externalDocumentRefs"
    (EachEntry (AnObject (GivenId html g!"DocumentRef-" g!"externalDocumentId")))
  creators : Under es g!"creationInfo" fun j => ∀ o, j = .obj o → Under o g!"creators" (EachEntry (SavableAgent html))
  packages : Under es g!"packages" (EachEntry (AnObject (SavablePackage html)))
  files : Under es g!"files" (EachEntry (AnObject (SavableFile html)))
  relationships : Under es g!"relationships" (EachEntry (AnObject (SavableRelationship html)))
  describes : Under es g!"documentDescribes" (EachEntry (SavableRef html))
  annotations : Under es g!"annotations" (EachEntry (AnObject (SavableAnnotation html)))
  snippets : Under es g!"snippets" (EachEntry (AnObject (SavableSnippet html)))

/-- A loaded document after it was saved: whether files-analyzed was present is not kept. -/
def flagged (v : Version) (d : Doc) : Doc :=
  { d with packages := d.packages.map fun p => { p with filesAnalyzedTagPresent := decide (v ≠ .v21) } }

end Verif.Spec
