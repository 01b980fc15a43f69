import Verif.Props.C97_JsonValid
import Verif.Props.C60_Yaml
import Verif.Props.C84_Answers

/-!
# C97, C98 for texts: JSON and YAML files, read into a variable of the same version or of another
-/

namespace Verif
open Spec

/-- What the tools say of the document `d` read from the object: whether it is valid, and what it describes. -/
structure Spec.ToldBy (v : Version) (es : List (Str × Json)) (d : Doc) : Prop where
  valid : validateDocument (d.packages.map some) (d.files.map some) (d.relationships.map some) = .ok () ↔
    ∀ r, LinkInJson v es r → NamedInJson es r.refA.elementRefID ∧ NamedInJson es r.refB.elementRefID
  invalid : validateDocument (d.packages.map some) (d.files.map some) (d.relationships.map some) = .err ↔
    ∃ r, LinkInJson v es r ∧ ¬ (NamedInJson es r.refA.elementRefID ∧ NamedInJson es r.refB.elementRefID)
  described : 2 ≤ (itemsAt g!"packages" es).length → ∀ so ids, getDescribedPackageIDs so (d.packages.map some) (d.relationships.map some) = .ok ids →
    ids ≠ [] ∧ ids.Pairwise (fun a b => strLe a b = true) ∧ ∀ id, id ∈ ids ↔ ∃ r, LinkInJson v es r ∧ Spec.Says r id
  nothing : 2 ≤ (itemsAt g!"packages" es).length → ∀ so, getDescribedPackageIDs so (d.packages.map some) (d.relationships.map some) = .err ↔
    ¬ ∃ r, LinkInJson v es r ∧ ∃ id, Spec.Says r id
  single : ∀ so o id, itemsAt g!"packages" es = [.obj o] → HasId o g!"SPDXID" id →
    getDescribedPackageIDs so (d.packages.map some) (d.relationships.map some) = .ok [id]
  none : itemsAt g!"packages" es = [] → ∀ so, getDescribedPackageIDs so (d.packages.map some) (d.relationships.map some) = .err

variable (so : Sorter) (copy : Version → Version → Doc → Doc) (v : Version) (es : List (Str × Json)) (d : Doc)

theorem toldBy_of (ht : tidy (.obj es) = true) (hv : StatesVersion es v) (h : DocumentIs v es d) (hr : ∀ r, LinkInJson v es r → Readable r) :
    ToldBy v es d := by
  have g := fun so => (C57_same_version so (fun _ _ d => d) v es ht hv d).2 h
  exact {
    valid := C97_valid insertionSorter _ v es ht hv d (g _) hr
    invalid := C97_invalid insertionSorter _ v es ht hv d (g _) hr
    described := fun two so => (C98_described so _ v es ht hv d (g so) hr two).1
    nothing := fun two so => (C98_described so _ v es ht hv d (g so) hr two).2.1
    single := fun so => (C98_single so _ v es ht hv d (g so)).1
    none := fun k so => (C98_single so _ v es ht hv d (g so)).2 k }

/-- **C97, C98.** A JSON text of an object: the answers of the tools are those the object gives. -/
theorem C97_json_text (float : Str → Bool) (odd : Str → Res Doc) (s : Str) (hs : JsonTextOf s (.obj es))
    (hf : Json.floats float (.obj es) = true) (hp : Json.agentsPlain (.obj es) = true) (ht : tidy (.obj es) = true) (hv : StatesVersion es v)
    (h : readJsonText so copy float odd true v s = .ok d) (hr : ∀ r, LinkInJson v es r → Readable r) : ToldBy v es d := by
  rw [readJsonText_of so copy float odd v hs, hf, hp] at h
  exact toldBy_of v es d ht hv ((C57_same_version so copy v es ht hv d).1 h) hr

/-- **C97, C98.** The same for a YAML text. -/
theorem C97_yaml_text (y : Yaml) (s : Str) (hs : YamlTextOf y s (.obj es)) (ht : tidy (.obj es) = true) (hv : StatesVersion es v)
    (h : readYamlText y so copy true v s = .ok d) (hr : ∀ r, LinkInJson v es r → Readable r) : ToldBy v es d :=
  toldBy_of v es d ht hv ((C60_says y so copy v s es hs ht hv d).1 h) hr

theorem toldBy_same {e : Doc} (h : ToldBy v es d) (g : SameAnswers d e) : ToldBy v es e where
  valid := by rw [← g.valid]; exact h.valid
  invalid := by rw [← g.valid]; exact h.invalid
  described := fun two so => by rw [← g.described]; exact h.described two so
  nothing := fun two so => by rw [← g.described]; exact h.nothing two so
  single := fun so => by rw [← g.described]; exact h.single so
  none := fun k so => by rw [← g.described]; exact h.none k so

/-- **C97, C98.** The same if an object of one version is read into a variable of another. -/
theorem C97_other_version (lib : Copier) (w : Version) (ht : tidy (.obj es) = true) (hv : StatesVersion es v) (h : DocumentIs v es d)
    (solid : Solid d) (hr : ∀ r, LinkInJson v es r → Readable r) :
    ∃ e, readJsonInto so (structCopied lib) true w (.obj es) = .ok e ∧ ToldBy v es e := by
  obtain ⟨e, h1, h2⟩ := C84_read_json so lib v w es d ht hv h solid
  exact ⟨e, h1, toldBy_same v es d (toldBy_of v es d ht hv h hr) h2⟩

/-- The document of the object. -/
def doc97 : Doc :=
  { spdxVersion := g!"SPDX-2.3", spdxId := g!"DOCUMENT"
    packages := [{ spdxId := g!"p", filesAnalyzed := true, files := [{ spdxId := g!"inner" }] }, { spdxId := g!"q", filesAnalyzed := true }]
    files := [{ spdxId := g!"f" }]
    relationships :=
      [{ refA := { elementRefID := g!"p" }, refB := { elementRefID := g!"DOCUMENT" }, relationship := g!"DESCRIBED_BY" },
       { refA := { elementRefID := g!"DOCUMENT" }, refB := { elementRefID := g!"q" }, relationship := g!"DESCRIBES" },
       { refA := { elementRefID := g!"p" }, refB := { elementRefID := g!"f" }, relationship := g!"CONTAINS" }] }

set_option maxRecDepth 20000 in
/-- Non-vacuity: the object of `C97_sample` as a text. -/
theorem C97_text_sample : JsonTextOf (Json.text (.obj full97)) (.obj full97) ∧ YamlTextOf jsonYaml (Json.text (.obj full97)) (.obj full97) ∧
    Json.floats (fun _ => true) (.obj full97) = true ∧ Json.agentsPlain (.obj full97) = true ∧ DocumentIs .v23 full97 doc97 ∧ Solid doc97 := by
  have h : scanJson (Json.text (.obj full97)) = some (.obj full97) := by rfl
  refine ⟨scanJson_iff.1 h, fun _ => h, by decide +kernel, by decide +kernel, (decodeDoc_iff insertionSorter C97_sample.1).1 (by rfl), ?_⟩
  constructor <;> simp [doc97]

end Verif
