import Verif.Model.Yaml
import Verif.Props.C59_JsonOrder

/-!
# C60: YAML
-/

namespace Verif
open Spec

/-- The YAML library keeps a value: its YAML text has that value, up to the order of the entries of objects, whatever
it is decoded into. -/
def Spec.YamlKeeps (y : Yaml) (j : Json) : Prop :=
  ∃ s, y.print j = some s ∧ ∀ t, ∃ k, y.parse t s = some k ∧ Like false j k

/-- A text means a value to the YAML library: whatever it is decoded into. -/
def Spec.YamlTextOf (y : Yaml) (s : Str) (k : Json) : Prop := ∀ t, y.parse t s = some k

/-- **C60.** Reading YAML never panics. -/
theorem C60_never_panics (y : Yaml) (so : Sorter) (copy : Version → Version → Doc → Doc) (isPtr : Bool) (target : Version) (s : Str) :
    readYamlText y so copy isPtr target s ≠ .panic := by
  unfold readYamlText
  repeat' first
    | exact err_safe
    | (refine bind_safe (ofOption_safe _) fun _ => ?_)
    | (refine bind_safe (decodeDoc_safe _ _ _) fun _ => ?_)
    | (unfold convertDocument)
    | exact ok_safe
    | split

theorem readYamlText_of {y : Yaml} {s : Str} {k : Json} (h : YamlTextOf y s k) (so : Sorter) (copy : Version → Version → Doc → Doc)
    (target : Version) : readYamlText y so copy true target s = readJsonInto so copy true target k := by
  have hs : ∀ t, y.parse t s = some k := h
  unfold readYamlText readJsonInto
  simp only [hs, Res.ofOption_some, Res.bind_ok]
  cases k <;> rfl

/-- **C60.** A YAML text of an object that states its version is read, into a variable of that version, as exactly what
the object says. -/
theorem C60_says (y : Yaml) (so : Sorter) (copy : Version → Version → Doc → Doc) (v : Version) (s : Str) (es : List (Str × Json))
    (hs : YamlTextOf y s (.obj es)) (ht : tidy (.obj es) = true) (hv : StatesVersion es v) (d : Doc) :
    readYamlText y so copy true v s = .ok d ↔ DocumentIs v es d := by
  rw [readYamlText_of hs]
  exact C57_same_version so copy v es ht hv d

/-- **C60.** A document is the same in YAML and in JSON: a YAML text and a JSON text of values that differ in the order
of the entries of objects are read as the same document, or both are not. -/
theorem C60_same_as_json (y : Yaml) (so so' : Sorter) (copy : Version → Version → Doc → Doc) (float : Str → Bool) (odd : Str → Res Doc)
    (target : Version) (s s' : Str) (j k : Json) (hs : YamlTextOf y s j) (hs' : JsonTextOf s' k) (hf : k.floats float = true)
    (ht : tidy j = true) (hp : j.agentsPlain = true) (hl : Like false j k) :
    readYamlText y so copy true target s = readJsonText so' copy float odd true target s' := by
  rw [readYamlText_of hs, readJsonText_of so' copy float odd target hs', hf, like_plain _ hl hp, C59_order so so' copy target j k ht hp hl]
  rfl

/-- **C60.** Writing a document of any version as YAML and reading the text yields what `keptDoc` says, if the YAML
library keeps the value. -/
theorem C60_round_trip (y : Yaml) (so so' : Sorter) (copy : Version → Version → Doc → Doc) (v : Version) (d : Doc)
    (hd : JsonDocument true d) (hv : d.spdxVersion = versionName v) (hy : ∀ j, writeJson so v true d = .ok j → YamlKeeps y j) :
    ∃ s, writeYamlText y so v d = .ok s ∧ readYamlText y so' copy true v s = .ok (keptDoc v d) := by
  obtain ⟨j, h1, h2⟩ := json_written so so' v true d hd hv
  obtain ⟨s, h3, h4⟩ := hy j h1
  refine ⟨s, ?_, ?_⟩
  · unfold writeYamlText
    rw [h1, Res.bind_ok, h3]
    rfl
  · obtain ⟨k, h5, h6⟩ := h4 none
    obtain ⟨m, h7, h8⟩ := h4 (some v)
    obtain ⟨gs, raw, rfl, a1, a2, -⟩ := h2 k h6
    obtain ⟨fs, raw', -, -, -, b⟩ := h2 m h8
    unfold readYamlText
    rw [h5]
    simp only [Bool.not_true, Bool.false_eq_true, if_false, a1, a2, Option.bind_some, versionNamed_name, h7, Res.ofOption_some,
      Res.bind_ok, b]
    cases v <;> rfl

/-- JSON is YAML: a library that writes JSON. -/
def jsonYaml : Yaml := { print := fun j => some j.text, parse := fun _ s => scanJson s }

/-- With it, and a document with packages, files, snippets and relationships, the hypotheses of the theorems are met. -/
theorem C60_sample : JsonDocument true doc47 ∧ doc47.spdxVersion = versionName .v22 ∧
    (∀ j, writeJson insertionSorter .v22 true doc47 = .ok j → YamlKeeps jsonYaml j) ∧
    YamlTextOf jsonYaml text58 (.obj json58) ∧ tidy (.obj json58) = true ∧ Json.agentsPlain (.obj json58) = true ∧
    StatesVersion json58 .v23 := by
  refine ⟨doc47_ok.1, doc47_ok.2.1, fun j hj => ⟨j.text, rfl, fun _ => ⟨j, ?_, like_refl j⟩⟩, fun _ => C58_sample.1 |> scanJson_iff.2,
    by decide +kernel, by decide +kernel, C58_sample.2.2.2.2.2.1⟩
  have hf := writeJson_fine (float := fun _ => true) (fun s _ r _ => ⟨⟨rfl, rfl⟩, ⟨rfl, rfl⟩⟩) hj
  exact scanJson_iff.2 ⟨[], j.text, [], by simp, blank_nil, blank_nil, text_spelt j hf.spelt, Nat.le_trans hf.flat (by decide)⟩

end Verif
